import Verif.Model.Fuzz
import Verif.Model.Printable

/-! The assertions of `/repo/test/h265_aud_parser_unittest.cc` run on the model by the kernel. This is
validation of the transcription, not proof: each `example` is one unit test, its bytes and its
expectations copied from the test file. -/

set_option autoImplicit false
set_option maxRecDepth 100000
set_option maxHeartbeats 0
set_option linter.unusedVariables false

namespace H265.Tests

open H265

/-- `test/h265_aud_parser_unittest.cc:21` `TestSampleAUD` (2 expectations). -/
example : (
  match parseAudBytes [255] with
  | .ok v1 _ =>
    [true, v1.pic_type == 7].all id
  | _ => false) = true := by
  decide +kernel

end H265.Tests
