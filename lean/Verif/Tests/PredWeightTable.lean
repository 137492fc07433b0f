import Verif.Model.Fuzz
import Verif.Model.Printable

/-! The assertions of `/repo/test/h265_pred_weight_table_parser_unittest.cc` run on the model by the kernel. This is
validation of the transcription, not proof: each `example` is one unit test, its bytes and its
expectations copied from the test file. -/

set_option autoImplicit false
set_option maxRecDepth 100000
set_option maxHeartbeats 0
set_option linter.unusedVariables false

namespace H265.Tests

open H265

/-- `test/h265_pred_weight_table_parser_unittest.cc:21` `TestSamplePredWeightTable1` (5 expectations). -/
example : (
  match parsePredWeightTableBytes [16, 198] 1 0 with
  | .ok v1 _ =>
    [true, v1.luma_log2_weight_denom == 7, v1.delta_chroma_log2_weight_denom == (-1), v1.luma_weight_l0_flag == [0], v1.chroma_weight_l0_flag == [0]].all id
  | _ => false) = true := by
  decide +kernel

/-- `test/h265_pred_weight_table_parser_unittest.cc:40` `TestSamplePredWeightTable2` (5 expectations). -/
example : (
  match parsePredWeightTableBytes [16, 192, 96] 1 2 with
  | .ok v1 _ =>
    [true, v1.luma_log2_weight_denom == 7, v1.delta_chroma_log2_weight_denom == (-1), v1.luma_weight_l0_flag == [0, 0, 0],
      v1.chroma_weight_l0_flag == [0, 0, 0]].all id
  | _ => false) = true := by
  decide +kernel

end H265.Tests
