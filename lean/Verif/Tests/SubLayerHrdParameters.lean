import Verif.Model.Fuzz
import Verif.Model.Printable

/-! The assertions of `/repo/test/h265_sub_layer_hrd_parameters_parser_unittest.cc` run on the model by the kernel. This is
validation of the transcription, not proof: each `example` is one unit test, its bytes and its
expectations copied from the test file. -/

set_option autoImplicit false
set_option maxRecDepth 100000
set_option maxHeartbeats 0
set_option linter.unusedVariables false

namespace H265.Tests

open H265

/-- `test/h265_sub_layer_hrd_parameters_parser_unittest.cc:21` `TestSampleSubLayerHrdParameters` (6 expectations). -/
example : (
  match parseSubLayerHrdParametersBytes [0, 1, 110, 54, 0, 1, 232, 72, 16] 1 0 with
  | .ok v1 _ =>
    [true, (v1.map (·.bit_rate_value_minus1)) == [46874], (v1.map (·.cpb_size_value_minus1)) == [124999],
      (v1.map (·.cpb_size_du_value_minus1)) == [0], (v1.map (·.bit_rate_du_value_minus1)) == [0], (v1.map (·.cbr_flag)) == [0]].all id
  | _ => false) = true := by
  decide +kernel

end H265.Tests
