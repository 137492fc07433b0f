import Verif.Model.Fuzz
import Verif.Model.Printable

/-! The assertions of `/repo/test/h265_common_unittest.cc` run on the model by the kernel. This is
validation of the transcription, not proof: each `example` is one unit test, its bytes and its
expectations copied from the test file. -/

set_option autoImplicit false
set_option maxRecDepth 100000
set_option maxHeartbeats 0
set_option linter.unusedVariables false

namespace H265.Tests

open H265

/-- `test/h265_common_unittest.cc:22` `TestIsSliceSegment` (2 expectations). -/
example : (
  [isSliceSegment 0 == true, isSliceSegment 32 == false].all id) = true := by
  decide +kernel

/-- `test/h265_common_unittest.cc:27` `TestIsNalUnitTypeVcl` (4 expectations). -/
example : (
  [isNalUnitTypeVcl 16 == true, isNalUnitTypeVcl 16 == true, isNalUnitTypeVcl 32 == false, isNalUnitTypeVcl 43 == false].all id) = true := by
  decide +kernel

/-- `test/h265_common_unittest.cc:34` `TestIsNalUnitTypeNonVcl` (3 expectations). -/
example : (
  [isNalUnitTypeNonVcl 32 == true, isNalUnitTypeNonVcl 43 == true, isNalUnitTypeNonVcl 16 == false].all id) = true := by
  decide +kernel

/-- `test/h265_common_unittest.cc:40` `TestIsNalUnitTypeUnspecified` (4 expectations). -/
example : (
  [isNalUnitTypeUnspecified 50 == true, isNalUnitTypeUnspecified 63 == true, isNalUnitTypeUnspecified 16 == false,
    isNalUnitTypeUnspecified 47 == false].all id) = true := by
  decide +kernel

end H265.Tests
