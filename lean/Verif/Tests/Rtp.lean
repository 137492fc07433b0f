import Verif.Model.Fuzz
import Verif.Model.Printable

/-! The assertions of `/repo/test/h265_rtp_parser_unittest.cc` run on the model by the kernel. This is
validation of the transcription, not proof: each `example` is one unit test, its bytes and its
expectations copied from the test file. -/

set_option autoImplicit false
set_option maxRecDepth 100000
set_option maxHeartbeats 0
set_option linter.unusedVariables false

namespace H265.Tests

open H265

/-- `test/h265_rtp_parser_unittest.cc:22` `TestSampleSingle` (9 expectations). -/
example : (
  match parseRtp ParserState.empty [66, 1, 1, 1, 96, 0, 0, 3, 0, 176, 0, 0, 3, 0, 0, 3, 0, 93, 160, 2, 128, 128, 46, 31, 19, 150, 187, 147, 36, 187, 149, 130, 131, 3, 1, 118, 133, 9, 64] with
  | .ok (some v1, st2) =>
    [true, v1.nal_unit_header.forbidden_zero_bit == 0, v1.nal_unit_header.nal_unit_type == 33, v1.nal_unit_header.nuh_layer_id == 0,
      v1.nal_unit_header.nuh_temporal_id_plus1 == 1].all id &&
    (
      match v1.rtp_single with
      | some rtp_single_3 =>
        match rtp_single_3.nal_unit_payload.sps with
        | some sps_4 =>
          [sps_4.body.pic_width_in_luma_samples == 1280, sps_4.body.pic_height_in_luma_samples == 736,
            ((st2.sps sps_4.body.sps_seq_parameter_set_id).map fun x => x.body.pic_width_in_luma_samples) == some 1280,
            ((st2.sps sps_4.body.sps_seq_parameter_set_id).map fun x => x.body.pic_height_in_luma_samples) == some 736].all id
        | _ => false
      | _ => false)
  | _ => false) = true := by
  decide +kernel

/-- `test/h265_rtp_parser_unittest.cc:59` `TestSampleApAndFu` (28 expectations). -/
example : (
  match parseRtp ParserState.empty [96, 1, 0, 23, 64, 1, 12, 1, 255, 255, 1, 96, 0, 0, 3, 0, 176, 0, 0, 3, 0, 0, 3, 0, 93, 172, 9, 0, 39, 66, 1, 1, 1, 96, 0, 0, 3, 0, 176, 0, 0, 3, 0, 0, 3, 0, 93, 160, 2, 128, 128, 46, 31, 19, 150, 187, 147, 36, 186, 148, 130, 129, 1, 1, 118, 133, 9, 64, 0, 10, 68, 1, 192, 226, 79, 9, 65, 236, 16, 128] with
  | .ok (some v1, st2) =>
    [true, v1.nal_unit_header.forbidden_zero_bit == 0, v1.nal_unit_header.nal_unit_type == 48, v1.nal_unit_header.nuh_layer_id == 0,
      v1.nal_unit_header.nuh_temporal_id_plus1 == 1].all id &&
    (
      match v1.rtp_ap with
      | some rtp_ap_3 =>
        [(rtp_ap_3.units.map (·.nal_unit_size)).length == 3, (rtp_ap_3.units.map (·.nal_unit_header)).length == 3,
          (rtp_ap_3.units.map (·.nal_unit_payload)).length == 3,
          ((rtp_ap_3.units.map (·.nal_unit_header))[0]?.map fun x => x.nal_unit_type) == some 32,
          ((rtp_ap_3.units.map (·.nal_unit_header))[1]?.map fun x => x.nal_unit_type) == some 33,
          ((rtp_ap_3.units.map (·.nal_unit_header))[2]?.map fun x => x.nal_unit_type) == some 34].all id &&
        (
          match ((rtp_ap_3.units.map (·.nal_unit_payload))[1]?.bind fun x => x.sps) with
          | some sps_4 =>
            [sps_4.body.pic_width_in_luma_samples == 1280, sps_4.body.pic_height_in_luma_samples == 736,
              ((st2.sps sps_4.body.sps_seq_parameter_set_id).map fun x => x.body.pic_width_in_luma_samples) == some 1280,
              ((st2.sps sps_4.body.sps_seq_parameter_set_id).map fun x => x.body.pic_height_in_luma_samples) == some 736].all id &&
            (
              match ((rtp_ap_3.units.map (·.nal_unit_payload))[2]?.bind fun x => x.pps) with
              | some pps_5 =>
                [pps_5.body.head.init_qp_minus26 == (-4),
                  ((st2.pps pps_5.body.head.pps_pic_parameter_set_id).map fun x => x.body.head.init_qp_minus26) == some (-4)].all id &&
                (
                  match parseRtp st2 [98, 1, 147, 175, 13, 112, 253, 244, 110, 240, 60, 126, 99, 200, 21, 245, 247, 110, 82, 15, 211, 181, 68, 97, 88, 36, 104, 224] with
                  | .ok (some v6, st7) =>
                    [true, v6.nal_unit_header.forbidden_zero_bit == 0, v6.nal_unit_header.nal_unit_type == 49, v6.nal_unit_header.nuh_layer_id == 0,
                      v6.nal_unit_header.nuh_temporal_id_plus1 == 1].all id &&
                    (
                      match v6.rtp_fu with
                      | some rtp_fu_8 =>
                        [rtp_fu_8.s_bit == 1, rtp_fu_8.e_bit == 0, rtp_fu_8.fu_type == 19].all id &&
                        (
                          match ((rtp_fu_8.nal_unit_payload.bind fun x => x.slice_segment_layer).map fun x => x) with
                          | some slice_segment_header_9 =>
                            [slice_segment_header_9.body.slice_qp_delta == 13].all id &&
                            (
                              match getSliceQpYRtp v6 st7 with
                              | .ok (some v10) =>
                                [true, v10 == 35].all id
                              | _ => false)
                          | _ => false)
                      | _ => false)
                  | _ => false)
              | _ => false)
          | _ => false)
      | _ => false)
  | _ => false) = true := by
  decide +kernel

end H265.Tests
