/-
Syntax and semantics of scaling_list_data() (clauses 7.3.4 and 7.4.5).
-/
import Verif.Spec.Bits

namespace H265
open Spec

/-- One scaling_list_delta_coef and the coefficient derived from it. -/
structure ScalingCoef where
  delta : Int
  coef : Nat
  deriving DecidableEq, Repr, Inhabited

/-- The syntax elements of one matrix together with its coefficients. -/
structure ScalingMatrix where
  scaling_list_pred_mode_flag : Nat
  scaling_list_pred_matrix_id_delta : Nat
  scaling_list_dc_coef_minus8 : Int
  coefs : List ScalingCoef
  deriving DecidableEq, Repr, Inhabited

/-- The matrices in bitstream order: `sizes[sizeId]` lists those of matrixId = 0, 1, …, 5 (0, 3 for sizeId = 3). -/
structure ScalingListData where
  sizes : List (List ScalingMatrix)
  deriving DecidableEq, Repr, Inhabited

namespace Spec

/-- coefNum, clause 7.3.4: 16 for 4x4, 64 otherwise -/
def coefNum (sizeId : Nat) : Nat := min 64 (2 ^ (4 + 2 * sizeId))

/-- one matrix, clause 7.3.4 -/
def scalingMatrix (sizeId : Nat) (m : ScalingMatrix) : List Bool :=
  seq [u 1 m.scaling_list_pred_mode_flag,
    cond (m.scaling_list_pred_mode_flag = 0) (ue m.scaling_list_pred_matrix_id_delta),
    cond (m.scaling_list_pred_mode_flag ≠ 0 ∧ sizeId > 1) (se m.scaling_list_dc_coef_minus8),
    list (fun c => se c.delta) m.coefs]

/-- scaling_list_data(), clause 7.3.4 -/
def scalingListData (s : ScalingListData) : List Bool := listI (fun sizeId => list (scalingMatrix sizeId)) 0 s.sizes

/-- Clause 7.3.4: nextCoef = ( nextCoef + scaling_list_delta_coef + 256 ) % 256; ScalingList[ … ][ i ] = nextCoef.
`next` is the value of nextCoef before the list.  (The second conjunct says that the sums are representable in 32 bits.) -/
def CoefsFrom : Int → List ScalingCoef → Prop
  | _, [] => True
  | next, c :: l => (-(2 ^ 31) < c.delta ∧ c.delta < 2 ^ 30) ∧ (-(2 ^ 31) ≤ next + c.delta ∧ next + c.delta + 256 ≤ 2 ^ 31 - 1) ∧
    (c.coef : Int) = (next + c.delta + 256) % 256 ∧ CoefsFrom c.coef l

/-- ranges of one matrix -/
structure ValidScalingMatrix (sizeId : Nat) (m : ScalingMatrix) : Prop where
  scaling_list_pred_mode_flag : m.scaling_list_pred_mode_flag < 2
  scaling_list_pred_matrix_id_delta : Opt (m.scaling_list_pred_mode_flag = 0) (m.scaling_list_pred_matrix_id_delta < 2 ^ 32 - 1)
    (m.scaling_list_pred_matrix_id_delta = 0)
  scaling_list_dc_coef_minus8 : Opt (m.scaling_list_pred_mode_flag ≠ 0 ∧ sizeId > 1)
    (-(2 ^ 31) < m.scaling_list_dc_coef_minus8 ∧ m.scaling_list_dc_coef_minus8 < 2 ^ 30) (m.scaling_list_dc_coef_minus8 = 0)
  length : m.coefs.length = if m.scaling_list_pred_mode_flag ≠ 0 then coefNum sizeId else 0
  coefs : CoefsFrom (if sizeId > 1 then m.scaling_list_dc_coef_minus8 + 8 else 8) m.coefs

/-- ranges of scaling_list_data() -/
def ValidScalingListData (s : ScalingListData) : Prop :=
  EachI 4 (fun sizeId => Each (if sizeId = 3 then 2 else 6) (ValidScalingMatrix sizeId)) s.sizes

end Spec
end H265
