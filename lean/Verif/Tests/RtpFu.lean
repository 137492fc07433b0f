import Verif.Model.Fuzz
import Verif.Model.Printable

/-! The assertions of `/repo/test/h265_rtp_fu_parser_unittest.cc` run on the model by the kernel. This is
validation of the transcription, not proof: each `example` is one unit test, its bytes and its
expectations copied from the test file. -/

set_option autoImplicit false
set_option maxRecDepth 100000
set_option maxHeartbeats 0
set_option linter.unusedVariables false

namespace H265.Tests

open H265

/-- `test/h265_rtp_fu_parser_unittest.cc:21` `TestSampleStart` (16 expectations). -/
example : (
  let st1 : ParserState := { ParserState.empty with vps := mapSet ParserState.empty.vps 0 (default : Vps) }
  let o2 : Sps := { (default : Sps) with body := { (default : Sps).body with sample_adaptive_offset_enabled_flag := 1 } }
  let o3 : Sps := { o2 with body := { o2.body with chroma_format_idc := 1 } }
  let st4 : ParserState := { st1 with sps := mapSet st1.sps 0 o3 }
  let st5 : ParserState := { st4 with pps := mapSet st4.pps 0 (default : Pps) }
  match parseRtpFuBytes [98, 1, 147, 175, 13, 112, 253, 244, 110, 240, 60, 126, 99, 200, 21, 245, 247, 110, 82, 15, 211, 181, 68, 97, 88, 36, 104, 224] st5 with
  | .ok (v6, st7) _ =>
    [true, v6.header.forbidden_zero_bit == 0, v6.header.nal_unit_type == 49, v6.header.nuh_layer_id == 0, v6.header.nuh_temporal_id_plus1 == 1,
      v6.s_bit == 1, v6.e_bit == 0, v6.fu_type == 19].all id &&
    (
      match v6.nal_unit_payload with
      | some nal_unit_payload_8 =>
        [true].all id &&
        (
          match nal_unit_payload_8.slice_segment_layer with
          | some slice_segment_layer_9 =>
            [true, true, (slice_segment_layer_9).nal_unit_type == 19, (slice_segment_layer_9).head.first_slice_segment_in_pic_flag == 1,
              (slice_segment_layer_9).head.no_output_of_prior_pics_flag == 0, (slice_segment_layer_9).head.slice_pic_parameter_set_id == 0,
              (slice_segment_layer_9).body.slice_type == 2].all id
          | _ => false)
      | _ => false)
  | _ => false) = true := by
  decide +kernel

/-- `test/h265_rtp_fu_parser_unittest.cc:77` `TestSampleMiddle` (8 expectations). -/
example : (
  match parseRtpFuBytes [98, 1, 19, 142, 170, 18, 204, 239, 106, 246, 176, 123, 122, 191, 234, 241, 60, 167, 32, 232, 5, 154, 254, 107] ParserState.empty with
  | .ok (v1, st2) _ =>
    [true, v1.header.forbidden_zero_bit == 0, v1.header.nal_unit_type == 49, v1.header.nuh_layer_id == 0, v1.header.nuh_temporal_id_plus1 == 1,
      v1.s_bit == 0, v1.e_bit == 0, v1.fu_type == 19].all id
  | _ => false) = true := by
  decide +kernel

/-- `test/h265_rtp_fu_parser_unittest.cc:104` `TestSampleEnd` (8 expectations). -/
example : (
  match parseRtpFuBytes [98, 1, 83, 133, 254, 222, 232, 156, 47, 213, 237, 185, 44, 236, 143, 8, 91, 149, 2, 121, 195, 183, 71, 22] ParserState.empty with
  | .ok (v1, st2) _ =>
    [true, v1.header.forbidden_zero_bit == 0, v1.header.nal_unit_type == 49, v1.header.nuh_layer_id == 0, v1.header.nuh_temporal_id_plus1 == 1,
      v1.s_bit == 0, v1.e_bit == 1, v1.fu_type == 19].all id
  | _ => false) = true := by
  decide +kernel

end H265.Tests
