import Verif.Model.Fuzz
import Verif.Model.Printable

/-! The assertions of `/repo/test/h265_pps_multilayer_extension_parser_unittest.cc` run on the model by the kernel. This is
validation of the transcription, not proof: each `example` is one unit test, its bytes and its
expectations copied from the test file. -/

set_option autoImplicit false
set_option maxRecDepth 100000
set_option maxHeartbeats 0
set_option linter.unusedVariables false

namespace H265.Tests

open H265

/-- `test/h265_pps_multilayer_extension_parser_unittest.cc:21` `TestSamplePpsMultilayerExtension` (5 expectations). -/
example : (
  match parsePpsMultilayerExtensionBytes [32] with
  | .ok v1 _ =>
    [true, v1.poc_reset_info_present_flag == 0, v1.pps_infer_scaling_list_flag == 0, v1.num_ref_loc_offsets == 0, v1.colour_mapping_enabled_flag == 0].all id
  | _ => false) = true := by
  decide +kernel

end H265.Tests
