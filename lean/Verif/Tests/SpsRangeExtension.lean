import Verif.Model.Fuzz
import Verif.Model.Printable

/-! The assertions of `/repo/test/h265_sps_range_extension_parser_unittest.cc` run on the model by the kernel. This is
validation of the transcription, not proof: each `example` is one unit test, its bytes and its
expectations copied from the test file. -/

set_option autoImplicit false
set_option maxRecDepth 100000
set_option maxHeartbeats 0
set_option linter.unusedVariables false

namespace H265.Tests

open H265

/-- `test/h265_sps_range_extension_parser_unittest.cc:21` `TestSampleSpsRangeExtension` (10 expectations). -/
example : (
  match parseSpsRangeExtensionBytes [170, 170] with
  | .ok v1 _ =>
    [true, v1.transform_skip_rotation_enabled_flag == 1, v1.transform_skip_context_enabled_flag == 0, v1.implicit_rdpcm_enabled_flag == 1,
      v1.explicit_rdpcm_enabled_flag == 0, v1.extended_precision_processing_flag == 1, v1.intra_smoothing_disabled_flag == 0,
      v1.high_precision_offsets_enabled_flag == 1, v1.persistent_rice_adaptation_enabled_flag == 0, v1.cabac_bypass_alignment_enabled_flag == 1].all id
  | _ => false) = true := by
  decide +kernel

end H265.Tests
