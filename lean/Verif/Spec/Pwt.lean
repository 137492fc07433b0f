/-
Syntax of pred_weight_table() (clause 7.3.6.3).
-/
import Verif.Spec.Bits

namespace H265
open Spec

/-- One entry of the vectors delta_luma_weight_l0, luma_offset_l0 (pushed in lockstep) -/
structure LumaWeight where
  delta_luma_weight_l0 : Int
  luma_offset_l0 : Int
  deriving DecidableEq, Repr, Inhabited

namespace Spec
/-- luma weight and offset of one picture, clause 7.3.6.3 -/
def lumaWeight (s : LumaWeight) : List Bool :=
  seq [se s.delta_luma_weight_l0,
    se s.luma_offset_l0]

/-- ranges -/
structure ValidLumaWeight (s : LumaWeight) : Prop where
  delta_luma_weight_l0 : -(2 ^ 31) < s.delta_luma_weight_l0 ∧ s.delta_luma_weight_l0 < 2 ^ 30
  luma_offset_l0 : -(2 ^ 31) < s.luma_offset_l0 ∧ s.luma_offset_l0 < 2 ^ 30
end Spec

/-- One entry of the vectors delta_chroma_weight_l0, delta_chroma_offset_l0 (each with the two elements j = 0, 1) -/
structure ChromaWeight where
  delta_chroma_weight_l0_0 : Int
  delta_chroma_offset_l0_0 : Int
  delta_chroma_weight_l0_1 : Int
  delta_chroma_offset_l0_1 : Int
  deriving DecidableEq, Repr, Inhabited

namespace Spec
/-- chroma weights and offsets of one picture, clause 7.3.6.3 -/
def chromaWeight (s : ChromaWeight) : List Bool :=
  seq [se s.delta_chroma_weight_l0_0,
    se s.delta_chroma_offset_l0_0,
    se s.delta_chroma_weight_l0_1,
    se s.delta_chroma_offset_l0_1]

/-- ranges -/
structure ValidChromaWeight (s : ChromaWeight) : Prop where
  delta_chroma_weight_l0_0 : -(2 ^ 31) < s.delta_chroma_weight_l0_0 ∧ s.delta_chroma_weight_l0_0 < 2 ^ 30
  delta_chroma_offset_l0_0 : -(2 ^ 31) < s.delta_chroma_offset_l0_0 ∧ s.delta_chroma_offset_l0_0 < 2 ^ 30
  delta_chroma_weight_l0_1 : -(2 ^ 31) < s.delta_chroma_weight_l0_1 ∧ s.delta_chroma_weight_l0_1 < 2 ^ 30
  delta_chroma_offset_l0_1 : -(2 ^ 31) < s.delta_chroma_offset_l0_1 ∧ s.delta_chroma_offset_l0_1 < 2 ^ 30
end Spec

/-- The entries one picture adds to the weight vectors (which hold the present entries only) -/
structure PredWeight where
  luma : Option LumaWeight
  chroma : Option ChromaWeight
  deriving DecidableEq, Repr, Inhabited

namespace Spec
/-- weights of one picture, clause 7.3.6.3 -/
def predWeight (s : PredWeight) : List Bool :=
  seq [optional lumaWeight s.luma,
    optional chromaWeight s.chroma]

/-- ranges -/
structure ValidPredWeight (luma_flag chroma_flag : Nat) (s : PredWeight) : Prop where
  luma : Maybe (luma_flag ≠ 0) ValidLumaWeight s.luma
  chroma : Maybe (chroma_flag ≠ 0) ValidChromaWeight s.chroma
end Spec

/-- `PredWeightTableState`, include/h265_pred_weight_table_parser.h:22-55, without the two input parameters and the vectors of list 1, which the parser leaves empty -/
structure PredWeightTable where
  luma_log2_weight_denom : Nat
  delta_chroma_log2_weight_denom : Int
  luma_weight_l0_flag : List Nat
  chroma_weight_l0_flag : List Nat
  weights : List PredWeight
  deriving DecidableEq, Repr, Inhabited

namespace Spec
/-- pred_weight_table(), clause 7.3.6.3, restricted to list 0 (the code does not read the weights of list 1) -/
def predWeightTable (ChromaArrayType : Nat) (s : PredWeightTable) : List Bool :=
  seq [ue s.luma_log2_weight_denom,
    cond (ChromaArrayType ≠ 0) (se s.delta_chroma_log2_weight_denom),
    list (u 1) s.luma_weight_l0_flag,
    cond (ChromaArrayType ≠ 0) (list (u 1) s.chroma_weight_l0_flag),
    list predWeight s.weights]

/-- ranges -/
structure ValidPredWeightTable (ChromaArrayType num_ref_idx_l0_active_minus1 : Nat) (s : PredWeightTable) : Prop where
  luma_log2_weight_denom : s.luma_log2_weight_denom < 2 ^ 32 - 1
  delta_chroma_log2_weight_denom : Opt (ChromaArrayType ≠ 0) (-(2 ^ 31) < s.delta_chroma_log2_weight_denom ∧ s.delta_chroma_log2_weight_denom < 2 ^ 30) (s.delta_chroma_log2_weight_denom = 0)
  luma_weight_l0_flag : Each (num_ref_idx_l0_active_minus1 + 1) (· < 2 ^ 1) s.luma_weight_l0_flag
  chroma_weight_l0_flag : Opt (ChromaArrayType ≠ 0) (Each (num_ref_idx_l0_active_minus1 + 1) (· < 2 ^ 1) s.chroma_weight_l0_flag) (s.chroma_weight_l0_flag = [])
  weights : EachI (num_ref_idx_l0_active_minus1 + 1) (fun i => ValidPredWeight (s.luma_weight_l0_flag.getD i 0) (s.chroma_weight_l0_flag.getD i 0)) s.weights
end Spec

end H265
