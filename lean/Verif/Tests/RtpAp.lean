import Verif.Model.Fuzz
import Verif.Model.Printable

/-! The assertions of `/repo/test/h265_rtp_ap_parser_unittest.cc` run on the model by the kernel. This is
validation of the transcription, not proof: each `example` is one unit test, its bytes and its
expectations copied from the test file. -/

set_option autoImplicit false
set_option maxRecDepth 100000
set_option maxHeartbeats 0
set_option linter.unusedVariables false

namespace H265.Tests

open H265

/-- `test/h265_rtp_ap_parser_unittest.cc:21` `TestSampleAUD` (11 expectations). -/
example : (
  match parseRtpApBytes [96, 1, 0, 23, 64, 1, 12, 1, 255, 255, 1, 96, 0, 0, 3, 0, 176, 0, 0, 3, 0, 0, 3, 0, 93, 172, 9, 0, 39, 66, 1, 1, 1, 96, 0, 0, 3, 0, 176, 0, 0, 3, 0, 0, 3, 0, 93, 160, 2, 128, 128, 46, 31, 19, 150, 187, 147, 36, 186, 148, 130, 129, 1, 1, 118, 133, 9, 64, 0, 10, 68, 1, 192, 226, 79, 9, 65, 236, 16, 128] ParserState.empty with
  | .ok (some v1, st2) _ =>
    [true, v1.header.forbidden_zero_bit == 0, v1.header.nal_unit_type == 48, v1.header.nuh_layer_id == 0, v1.header.nuh_temporal_id_plus1 == 1,
      (v1.units.map (·.nal_unit_size)).length == 3, (v1.units.map (·.nal_unit_header)).length == 3, (v1.units.map (·.nal_unit_payload)).length == 3,
      ((v1.units.map (·.nal_unit_header))[0]?.map fun x => x.nal_unit_type) == some 32,
      ((v1.units.map (·.nal_unit_header))[1]?.map fun x => x.nal_unit_type) == some 33,
      ((v1.units.map (·.nal_unit_header))[2]?.map fun x => x.nal_unit_type) == some 34].all id
  | _ => false) = true := by
  decide +kernel

end H265.Tests
