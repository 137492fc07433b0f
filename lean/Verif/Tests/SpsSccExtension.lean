import Verif.Model.Fuzz
import Verif.Model.Printable

/-! The assertions of `/repo/test/h265_sps_scc_extension_parser_unittest.cc` run on the model by the kernel. This is
validation of the transcription, not proof: each `example` is one unit test, its bytes and its
expectations copied from the test file. -/

set_option autoImplicit false
set_option maxRecDepth 100000
set_option maxHeartbeats 0
set_option linter.unusedVariables false

namespace H265.Tests

open H265

/-- `test/h265_sps_scc_extension_parser_unittest.cc:21` `TestSampleSpsSccExtension` (10 expectations). -/
example : (
  match parseSpsSccExtensionBytes [128] 1 0 0 with
  | .ok v1 _ =>
    [true, v1.sps_curr_pic_ref_enabled_flag == 1, v1.palette_mode_enabled_flag == 0, v1.palette_max_size == 0,
      v1.delta_palette_max_predictor_size == 0, v1.sps_palette_predictor_initializers_present_flag == 0,
      v1.sps_num_palette_predictor_initializers_minus1 == 0, v1.sps_palette_predictor_initializers.length == 0,
      v1.motion_vector_resolution_control_idc == 0, v1.intra_boundary_filtering_disabled_flag == 0].all id
  | _ => false) = true := by
  decide +kernel

end H265.Tests
