/-
Model of src/h265_scaling_list_data_parser.cc.
-/
import Verif.Model.Common
import Verif.Spec.Scaling

namespace H265
open Prog

/-- The coefficient loop, src/h265_scaling_list_data_parser.cc:88-100; `next` = nextCoef as an `int32_t`.
`static_cast<uint32_t>(x) % 256` is `x % 256` since 256 divides 2^32. -/
def parseScalingCoefs : Nat → Int → Prog (List ScalingCoef)
  | 0, _ => ret []
  | n + 1, next => do
    let delta ← sev
    let x ← int32 (next + delta)
    let x ← int32 (x + 256)
    let coef := (x % 256).toNat
    let l ← parseScalingCoefs n coef
    return ⟨delta, coef⟩ :: l

/-- The value nextCoef before the loop, src/h265_scaling_list_data_parser.cc:71, 83-86 (`-8 + …` cannot overflow: the signed
reader returns values below 2^30). -/
def startCoef (sizeId : Nat) (dc : Int) : Prog Int := if sizeId > 1 then int32 (dc + 8) else ret 8

/-- The body of the loops over the matrices, src/h265_scaling_list_data_parser.cc:55-101.  The result records the
syntax elements that the code stores in its tables (see `ScalingListData.scaling_list_pred_mode_flag` etc.) and, in `delta`, the
local values of scaling_list_delta_coef. -/
def parseScalingMatrix (sizeId : Nat) : Prog ScalingMatrix := do
  let scaling_list_pred_mode_flag ← u 1
  let scaling_list_pred_matrix_id_delta ← opt (scaling_list_pred_mode_flag = 0) uev 0
  let scaling_list_dc_coef_minus8 ← opt (scaling_list_pred_mode_flag ≠ 0 ∧ sizeId > 1) sev 0
  let next ← startCoef sizeId scaling_list_dc_coef_minus8
  let coefs ← parseScalingCoefs (if scaling_list_pred_mode_flag ≠ 0 then min 64 (2 ^ (4 + 2 * sizeId)) else 0) next
  return { scaling_list_pred_mode_flag, scaling_list_pred_matrix_id_delta, scaling_list_dc_coef_minus8, coefs }

/-- `ParseScalingListData`, src/h265_scaling_list_data_parser.cc:33-106; matrixId runs over 0, …, 5 resp. 0, 3. -/
def parseScalingListData : Prog ScalingListData := do
  let sizes ← repI 0 4 (fun sizeId => rep (if sizeId = 3 then 2 else 6) (parseScalingMatrix sizeId))
  return { sizes }

/-- The row of a table for the matrices of one size: one element per matrixId = 0 … 5; for sizeId = 3 only 0 and 3 are
assigned, the other elements keep their initial value `d` (src/h265_scaling_list_data_parser.cc:40-53). -/
def scalingRow {α : Type} (sizeId : Nat) (d : α) (l : List α) : List α :=
  if sizeId = 3 then [l.getD 0 d, d, d, l.getD 1 d, d, d] else l

/-- `ScalingListDataState::scaling_list_pred_mode_flag`, a 4x6 table (src/h265_scaling_list_data_parser.cc:42-48, 59-64) -/
def ScalingListData.scaling_list_pred_mode_flag (s : ScalingListData) : List (List Nat) :=
  s.sizes.mapIdx fun sizeId l => scalingRow sizeId 0 (l.map (·.scaling_list_pred_mode_flag))
/-- `ScalingListDataState::scaling_list_pred_matrix_id_delta`, a 4x6 table (src/h265_scaling_list_data_parser.cc:42-50, 66-73) -/
def ScalingListData.scaling_list_pred_matrix_id_delta (s : ScalingListData) : List (List Nat) :=
  s.sizes.mapIdx fun sizeId l => scalingRow sizeId 0 (l.map (·.scaling_list_pred_matrix_id_delta))
/-- `ScalingListDataState::scaling_list_dc_coef_minus8`, a 4x6 table of which row sizeId - 2 is assigned
(src/h265_scaling_list_data_parser.cc:77-80): rows 0 and 1 are those of sizeId 2 and 3, rows 2 and 3 keep their zeros. -/
def ScalingListData.scaling_list_dc_coef_minus8 (s : ScalingListData) : List (List Int) :=
  (s.sizes.mapIdx fun sizeId l => scalingRow sizeId 0 (l.map (·.scaling_list_dc_coef_minus8))).drop 2 ++
    [List.replicate 6 0, List.replicate 6 0]
/-- `ScalingListDataState::ScalingList`, a 4x6 table of coefficient lists (src/h265_scaling_list_data_parser.cc:45-52, 100) -/
def ScalingListData.ScalingList (s : ScalingListData) : List (List (List Nat)) :=
  s.sizes.mapIdx fun sizeId l => scalingRow sizeId [] (l.map fun m => m.coefs.map (·.coef))

end H265
