import Verif.Model.Fuzz
import Verif.Model.Printable

/-! The assertions of `/repo/test/h265_rtp_single_parser_unittest.cc` run on the model by the kernel. This is
validation of the transcription, not proof: each `example` is one unit test, its bytes and its
expectations copied from the test file. -/

set_option autoImplicit false
set_option maxRecDepth 100000
set_option maxHeartbeats 0
set_option linter.unusedVariables false

namespace H265.Tests

open H265

/-- `test/h265_rtp_single_parser_unittest.cc:24` `TestSampleVps` (5 expectations). -/
example : (
  match parseRtpSingleBytes [64, 1, 12, 1, 255, 255, 1, 96, 0, 0, 3, 0, 176, 0, 0, 3, 0, 0, 3, 0, 93, 172, 89, 0] ParserState.empty with
  | .ok (v1, st2) _ =>
    [true, v1.nal_unit_header.forbidden_zero_bit == 0, v1.nal_unit_header.nal_unit_type == 32, v1.nal_unit_header.nuh_layer_id == 0,
      v1.nal_unit_header.nuh_temporal_id_plus1 == 1].all id
  | _ => false) = true := by
  decide +kernel

/-- `test/h265_rtp_single_parser_unittest.cc:45` `TestMultipleRtpPackets` (28 expectations). -/
example : (
  match parseRtpSingleBytes [64, 1, 12, 1, 255, 255, 1, 96, 0, 0, 3, 0, 176, 0, 0, 3, 0, 0, 3, 0, 93, 172, 89, 0] ParserState.empty with
  | .ok (v1, st2) _ =>
    [true, v1.nal_unit_header.forbidden_zero_bit == 0, v1.nal_unit_header.nal_unit_type == 32, v1.nal_unit_header.nuh_layer_id == 0,
      v1.nal_unit_header.nuh_temporal_id_plus1 == 1].all id &&
    (
      match parseRtpSingleBytes [66, 1, 1, 1, 96, 0, 0, 3, 0, 176, 0, 0, 3, 0, 0, 3, 0, 93, 160, 2, 128, 128, 46, 31, 19, 150, 187, 147, 36, 187, 149, 130, 131, 3, 1, 118, 133, 9, 64, 0] st2 with
      | .ok (v3, st4) _ =>
        [true, v3.nal_unit_header.forbidden_zero_bit == 0, v3.nal_unit_header.nal_unit_type == 33, v3.nal_unit_header.nuh_layer_id == 0,
          v3.nal_unit_header.nuh_temporal_id_plus1 == 1].all id &&
        (
          match v3.nal_unit_payload.sps with
          | some sps_5 =>
            [sps_5.body.pic_width_in_luma_samples == 1280, sps_5.body.pic_height_in_luma_samples == 736,
              ((st4.sps sps_5.body.sps_seq_parameter_set_id).map fun x => x.body.pic_width_in_luma_samples) == some 1280,
              ((st4.sps sps_5.body.sps_seq_parameter_set_id).map fun x => x.body.pic_height_in_luma_samples) == some 736].all id &&
            (
              match parseRtpSingleBytes [68, 1, 192, 243, 192, 2, 16, 0] st4 with
              | .ok (v6, st7) _ =>
                [true, v6.nal_unit_header.forbidden_zero_bit == 0, v6.nal_unit_header.nal_unit_type == 34, v6.nal_unit_header.nuh_layer_id == 0,
                  v6.nal_unit_header.nuh_temporal_id_plus1 == 1].all id &&
                (
                  match v6.nal_unit_payload.pps with
                  | some pps_8 =>
                    [pps_8.body.head.init_qp_minus26 == 0,
                      ((st7.pps pps_8.body.head.pps_pic_parameter_set_id).map fun x => x.body.head.init_qp_minus26) == some 0].all id &&
                    (
                      match parseRtpSingleBytes [38, 1, 175, 9, 64, 243, 184, 213, 57, 186, 31, 228, 166, 8, 92, 110, 177, 143, 0, 56, 241, 166, 252, 241, 64, 4, 58, 134, 203, 144, 116, 206, 240, 70, 97, 147, 114, 214, 252, 53, 227, 197, 111, 10, 196, 158, 39, 196, 219, 227, 251, 56, 152, 208, 139, 213, 185, 185, 21, 180, 146, 73, 151, 229, 61, 54, 77, 69, 50, 92, 230, 137, 83, 118, 206, 187, 131, 161, 39, 53, 251, 243, 199, 212, 133, 50, 55, 148, 9, 236, 16] st7 with
                      | .ok (v9, st10) _ =>
                        [true, v9.nal_unit_header.forbidden_zero_bit == 0, v9.nal_unit_header.nal_unit_type == 19,
                          v9.nal_unit_header.nuh_layer_id == 0, v9.nal_unit_header.nuh_temporal_id_plus1 == 1].all id &&
                        (
                          match (v9.nal_unit_payload.slice_segment_layer.map fun x => x) with
                          | some slice_header_11 =>
                            [slice_header_11.body.slice_qp_delta == 9,
                              ((st10.pps slice_header_11.head.slice_pic_parameter_set_id).map fun x => x.body.head.init_qp_minus26) == some 0].all id
                          | _ => false)
                      | _ => false)
                  | _ => false)
              | _ => false)
          | _ => false)
      | _ => false)
  | _ => false) = true := by
  decide +kernel

end H265.Tests
