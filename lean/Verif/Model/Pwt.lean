/-
Model of src/h265_pred_weight_table_parser.cc.
-/
import Verif.Model.Common
import Verif.Spec.Pwt

namespace H265
open Prog

/-- src/h265_pred_weight_table_parser.cc:90-99 -/
def parseLumaWeight : Prog LumaWeight := do
  let delta_luma_weight_l0 ← sev
  let luma_offset_l0 ← sev
  return { delta_luma_weight_l0, luma_offset_l0 }

/-- src/h265_pred_weight_table_parser.cc:103-119, with the loop over j unrolled -/
def parseChromaWeight : Prog ChromaWeight := do
  let delta_chroma_weight_l0_0 ← sev
  let delta_chroma_offset_l0_0 ← sev
  let delta_chroma_weight_l0_1 ← sev
  let delta_chroma_offset_l0_1 ← sev
  return { delta_chroma_weight_l0_0, delta_chroma_offset_l0_0, delta_chroma_weight_l0_1, delta_chroma_offset_l0_1 }

/-- src/h265_pred_weight_table_parser.cc:87-122, one iteration with the flags of the picture -/
def parsePredWeight (luma_flag chroma_flag : Nat) : Prog PredWeight := do
  let luma ← maybe (luma_flag ≠ 0) parseLumaWeight
  let chroma ← maybe (chroma_flag ≠ 0) parseChromaWeight
  return { luma, chroma }

/-- One iteration of the weight loop with its vector accesses, src/h265_pred_weight_table_parser.cc:89, 101-102 -/
def parsePredWeightAt (ChromaArrayType : Nat) (luma chroma : List Nat) (i : Nat) : Prog PredWeight :=
  (at' luma i).bind fun lf => (if ChromaArrayType ≠ 0 then at' chroma i else ret 0).bind fun cf => parsePredWeight lf cf

/-- `ParsePredWeightTable`, src/h265_pred_weight_table_parser.cc:33-125 (the loops `i <= num_ref_idx_l0_active_minus1` have `num_ref_idx_l0_active_minus1 + 1` iterations since
an exponential Golomb value is at most 2^32 - 2) -/
def parsePredWeightTable (ChromaArrayType num_ref_idx_l0_active_minus1 : Nat) : Prog PredWeightTable := do
  let luma_log2_weight_denom ← uev
  let delta_chroma_log2_weight_denom ← opt (ChromaArrayType ≠ 0) sev 0
  let luma_weight_l0_flag ← rep (num_ref_idx_l0_active_minus1 + 1) (u 1)
  let chroma_weight_l0_flag ← opt (ChromaArrayType ≠ 0) (rep (num_ref_idx_l0_active_minus1 + 1) (u 1)) []
  let weights ← repI 0 (num_ref_idx_l0_active_minus1 + 1) (parsePredWeightAt ChromaArrayType luma_weight_l0_flag chroma_weight_l0_flag)
  return { luma_log2_weight_denom, delta_chroma_log2_weight_denom, luma_weight_l0_flag, chroma_weight_l0_flag, weights }

end H265
