import Verif.Model.Fuzz
import Verif.Model.Printable

/-! The assertions of `/repo/test/h265_pps_scc_extension_parser_unittest.cc` run on the model by the kernel. This is
validation of the transcription, not proof: each `example` is one unit test, its bytes and its
expectations copied from the test file. -/

set_option autoImplicit false
set_option maxRecDepth 100000
set_option maxHeartbeats 0
set_option linter.unusedVariables false

namespace H265.Tests

open H265

/-- `test/h265_pps_scc_extension_parser_unittest.cc:21` `TestSamplePpsSccExtension` (5 expectations). -/
example : (
  match parsePpsSccExtensionBytes [0] with
  | .ok v1 _ =>
    [true, v1.pps_curr_pic_ref_enabled_flag == 0, v1.residual_adaptive_colour_transform_enabled_flag == 0,
      v1.pps_palette_predictor_initializer_present_flag == 0, v1.pps_palette_predictor_initializers.length == 0].all id
  | _ => false) = true := by
  decide +kernel

/-- `test/h265_pps_scc_extension_parser_unittest.cc:40` `TestEnormousLumaBitDepth` (1 expectations). -/
example : (
  match parsePpsSccExtensionBytes [168, 0, 0, 0, 3, 3, 255, 255, 255, 228, 0, 0] with
  | .fail _ =>
    true
  | _ => false) = true := by
  decide +kernel

end H265.Tests
