/-
Model of src/h265_slice_parser.cc.
-/
import Verif.Model.Pwt
import Verif.Model.Pps
import Verif.Model.SpsDerived
import Verif.Model.FloatLog
import Verif.Spec.Slice

namespace H265
open Prog

/-- loop body, src/h265_slice_parser.cc:294-333 -/
def parseLtRefPicHead (numSps numLtSps pocLen i : Nat) : Prog LtRefPicHead := do
  let lt_idx_sps ← opt ((i < numSps ∧ numLtSps > 1)) (u (ceilLog2f numLtSps)) 0
  let poc_lsb_lt ← opt (numSps ≤ i) (u (pocLen)) 0
  let used_by_curr_pic_lt_flag ← opt (numSps ≤ i) (u 1) 0
  let delta_poc_msb_present_flag ← u 1
  return { lt_idx_sps, poc_lsb_lt, used_by_curr_pic_lt_flag, delta_poc_msb_present_flag }

/-- loop body, src/h265_slice_parser.cc:294-341, for the iterations in which the vector of flags has `i + 1` elements at line 335 -/
def parseLtRefPic (numSps numLtSps pocLen i : Nat) : Prog LtRefPic := do
  let head ← parseLtRefPicHead numSps numLtSps pocLen i
  let delta_poc_msb_cycle_lt ← opt (head.delta_poc_msb_present_flag ≠ 0) uev 0
  return { head, delta_poc_msb_cycle_lt }

/-- The loop `for (uint32_t i = 0; i < (uint64_t)num_long_term_sps + num_long_term_pics; i++)`, src/h265_slice_parser.cc:290-342, from index `i`
with the entries `acc` pushed so far.  The 32-bit index wraps; `fuel` bounds the number of iterations. -/
def ltLoop (numSps numPics numLtSps pocLen : Nat) : Nat → Nat → List LtRefPic → Prog (List LtRefPic)
  | 0, _, _ => bad .hang
  | fuel + 1, i, acc =>
    if i < numSps + numPics then
      (parseLtRefPicHead numSps numLtSps pocLen i).bind fun h =>
        (at' (acc.map (·.head.delta_poc_msb_present_flag) ++ [h.delta_poc_msb_present_flag]) i).bind fun f =>
          (opt (f ≠ 0) uev 0).bind fun c =>
            ltLoop numSps numPics numLtSps pocLen fuel ((i + 1) % 2 ^ 32) (acc ++ [⟨h, c⟩])
    else ret acc

/-- The same, with enough fuel (each iteration reads at least one bit), src/h265_slice_parser.cc:290-342 -/
def parseLtRefPics (numSps numPics numLtSps pocLen : Nat) : Prog (List LtRefPic) :=
  remaining fun n => ltLoop numSps numPics numLtSps pocLen (n + 1) 0 []

/-- src/h265_slice_parser.cc:108-127; BLA_W_LP = 16, RSV_IRAP_VCL23 = 23, include/h265_common.h -/
def parseSliceHead (nal_unit_type : Nat) : Prog SliceHead := do
  let first_slice_segment_in_pic_flag ← u 1
  let no_output_of_prior_pics_flag ← opt ((16 ≤ nal_unit_type ∧ nal_unit_type ≤ 23)) (u 1) 0
  let slice_pic_parameter_set_id ← uev
  return { first_slice_segment_in_pic_flag, no_output_of_prior_pics_flag, slice_pic_parameter_set_id }

/-- `if (pps->pps_scc_extension_flag) x = pps->pps_scc_extension->pps_slice_act_qp_offsets_present_flag;`, src/h265_slice_parser.cc:520-524 -/
def ppsActFlag (pps : PpsBody) : Prog Nat :=
  if pps.head.pps_scc_extension_flag ≠ 0 then
    match pps.pps_scc_extension with
    | some e => ret e.pps_slice_act_qp_offsets_present_flag
    | none => bad .nullDeref
  else ret 0

/-- slice_segment_address, src/h265_slice_parser.cc:161-178: `std::log2(0)` is minus infinity, whose conversion to `size_t` is undefined -/
def uAddress (picSizeInCtbs : Nat) : Prog Nat :=
  if picSizeInCtbs = 0 then bad .floatCast else uVar (ceilLog2f picSizeInCtbs)

/-- `ParseSliceSegmentHeader`, src/h265_slice_parser.cc:151-671 (nested conditions flattened; IDR_W_RADL = 19, IDR_N_LP = 20; slice types B = 0, P = 1,
include/h265_slice_parser.h:21; NumPicTotalCurr and chroma_qp_offset_list_enabled_flag are 0 in the code, so that the code guarded by them is left out;
without tiles and entropy sync num_entry_point_offsets is 0 and passes the check) -/
def parseSliceBody (nal_unit_type : Nat) (pps : PpsBody) (sps : SpsBody) (first : Nat) : Prog SliceBody := do
  let dependent_slice_segment_flag ← opt ((first = 0 ∧ pps.head.dependent_slice_segments_enabled_flag ≠ 0)) (u 1) 0
  let slice_segment_address ← opt (first = 0) (uAddress sps.getPicSizeInCtbsY) 0
  let slice_reserved_flag ← opt (dependent_slice_segment_flag = 0) (rep (pps.head.num_extra_slice_header_bits) (u 1)) []
  let slice_type ← opt (dependent_slice_segment_flag = 0) uev 0
  let pic_output_flag ← opt ((dependent_slice_segment_flag = 0 ∧ pps.head.output_flag_present_flag ≠ 0)) (u 1) 0
  let colour_plane_id ← opt ((dependent_slice_segment_flag = 0 ∧ sps.separate_colour_plane_flag = 1)) (u 2) 0
  let slice_pic_order_cnt_lsb ← opt ((dependent_slice_segment_flag = 0 ∧ nal_unit_type ≠ 19 ∧ nal_unit_type ≠ 20)) (u ((sps.log2_max_pic_order_cnt_lsb_minus4 + 4))) 0
  let short_term_ref_pic_set_sps_flag ← opt ((dependent_slice_segment_flag = 0 ∧ nal_unit_type ≠ 19 ∧ nal_unit_type ≠ 20)) (u 1) 0
  let st_ref_pic_set ← maybe ((dependent_slice_segment_flag = 0 ∧ nal_unit_type ≠ 19 ∧ nal_unit_type ≠ 20 ∧ short_term_ref_pic_set_sps_flag = 0)) (parseStRefPicSet sps.num_short_term_ref_pic_sets sps.num_short_term_ref_pic_sets sps.st_ref_pic_set 15)
  let short_term_ref_pic_set_idx ← opt ((dependent_slice_segment_flag = 0 ∧ nal_unit_type ≠ 19 ∧ nal_unit_type ≠ 20 ∧ short_term_ref_pic_set_sps_flag ≠ 0 ∧ sps.num_short_term_ref_pic_sets > 1)) (u (ceilLog2f sps.num_short_term_ref_pic_sets)) 0
  let num_long_term_sps ← opt ((dependent_slice_segment_flag = 0 ∧ nal_unit_type ≠ 19 ∧ nal_unit_type ≠ 20 ∧ sps.long_term_ref_pics_present_flag ≠ 0 ∧ sps.num_long_term_ref_pics_sps > 0)) uev 0
  let num_long_term_pics ← opt ((dependent_slice_segment_flag = 0 ∧ nal_unit_type ≠ 19 ∧ nal_unit_type ≠ 20 ∧ sps.long_term_ref_pics_present_flag ≠ 0)) uev 0
  let lt_ref_pics ← opt ((dependent_slice_segment_flag = 0 ∧ nal_unit_type ≠ 19 ∧ nal_unit_type ≠ 20 ∧ sps.long_term_ref_pics_present_flag ≠ 0)) (parseLtRefPics num_long_term_sps num_long_term_pics sps.num_long_term_ref_pics_sps (sps.log2_max_pic_order_cnt_lsb_minus4 + 4)) []
  let slice_temporal_mvp_enabled_flag ← opt ((dependent_slice_segment_flag = 0 ∧ nal_unit_type ≠ 19 ∧ nal_unit_type ≠ 20 ∧ sps.sps_temporal_mvp_enabled_flag ≠ 0)) (u 1) 0
  let slice_sao_luma_flag ← opt ((dependent_slice_segment_flag = 0 ∧ sps.sample_adaptive_offset_enabled_flag ≠ 0)) (u 1) 0
  let slice_sao_chroma_flag ← opt ((dependent_slice_segment_flag = 0 ∧ sps.sample_adaptive_offset_enabled_flag ≠ 0 ∧ sliceChromaArrayType sps ≠ 0)) (u 1) 0
  let num_ref_idx_active_override_flag ← opt ((dependent_slice_segment_flag = 0 ∧ (slice_type = 1 ∨ slice_type = 0))) (u 1) 0
  let num_ref_idx_l0_active_minus1 ← opt ((dependent_slice_segment_flag = 0 ∧ (slice_type = 1 ∨ slice_type = 0) ∧ num_ref_idx_active_override_flag ≠ 0)) uev 0
  let num_ref_idx_l1_active_minus1 ← opt ((dependent_slice_segment_flag = 0 ∧ slice_type = 0 ∧ num_ref_idx_active_override_flag ≠ 0)) uev 0
  let mvd_l1_zero_flag ← opt ((dependent_slice_segment_flag = 0 ∧ slice_type = 0)) (u 1) 0
  let cabac_init_flag ← opt ((dependent_slice_segment_flag = 0 ∧ (slice_type = 1 ∨ slice_type = 0) ∧ pps.head.cabac_init_present_flag ≠ 0)) (u 1) 0
  let collocated_from_l0_flag ← opt ((dependent_slice_segment_flag = 0 ∧ slice_type = 0 ∧ slice_temporal_mvp_enabled_flag ≠ 0)) (u 1) 1
  let collocated_ref_idx ← opt ((dependent_slice_segment_flag = 0 ∧ (slice_type = 1 ∨ slice_type = 0) ∧ slice_temporal_mvp_enabled_flag ≠ 0 ∧ ((collocated_from_l0_flag ≠ 0 ∧ num_ref_idx_l0_active_minus1 > 0) ∨ (collocated_from_l0_flag = 0 ∧ num_ref_idx_l1_active_minus1 > 0)))) uev 0
  let pred_weight_table ← maybe ((dependent_slice_segment_flag = 0 ∧ ((pps.head.weighted_pred_flag ≠ 0 ∧ slice_type = 1) ∨ (pps.head.weighted_bipred_flag ≠ 0 ∧ slice_type = 0)))) (parsePredWeightTable (sliceChromaArrayType sps) num_ref_idx_l0_active_minus1)
  let five_minus_max_num_merge_cand ← opt ((dependent_slice_segment_flag = 0 ∧ (slice_type = 1 ∨ slice_type = 0))) uev 0
  let use_integer_mv_flag ← opt ((dependent_slice_segment_flag = 0 ∧ (slice_type = 1 ∨ slice_type = 0) ∧ sliceMvResolution sps = 2)) (u 1) 0
  let slice_qp_delta ← opt (dependent_slice_segment_flag = 0) sev 0
  let slice_cb_qp_offset ← opt ((dependent_slice_segment_flag = 0 ∧ pps.head.pps_slice_chroma_qp_offsets_present_flag ≠ 0)) sev 0
  let slice_cr_qp_offset ← opt ((dependent_slice_segment_flag = 0 ∧ pps.head.pps_slice_chroma_qp_offsets_present_flag ≠ 0)) sev 0
  let act_qp_offsets_present ← opt (dependent_slice_segment_flag = 0) (ppsActFlag pps) 0
  let slice_act_y_qp_offset ← opt ((dependent_slice_segment_flag = 0 ∧ act_qp_offsets_present ≠ 0)) sev 0
  let slice_act_cb_qp_offset ← opt ((dependent_slice_segment_flag = 0 ∧ act_qp_offsets_present ≠ 0)) sev 0
  let slice_act_cr_qp_offset ← opt ((dependent_slice_segment_flag = 0 ∧ act_qp_offsets_present ≠ 0)) sev 0
  let deblocking_filter_override_flag ← opt ((dependent_slice_segment_flag = 0 ∧ pps.head.deblocking_filter_override_enabled_flag ≠ 0)) (u 1) 0
  let slice_deblocking_filter_disabled_flag ← opt ((dependent_slice_segment_flag = 0 ∧ deblocking_filter_override_flag ≠ 0)) (u 1) 0
  let slice_beta_offset_div2 ← opt ((dependent_slice_segment_flag = 0 ∧ deblocking_filter_override_flag ≠ 0 ∧ slice_deblocking_filter_disabled_flag = 0)) sev 0
  let slice_tc_offset_div2 ← opt ((dependent_slice_segment_flag = 0 ∧ deblocking_filter_override_flag ≠ 0 ∧ slice_deblocking_filter_disabled_flag = 0)) sev 0
  let slice_loop_filter_across_slices_enabled_flag ← opt ((dependent_slice_segment_flag = 0 ∧ pps.head.pps_loop_filter_across_slices_enabled_flag ≠ 0 ∧ (slice_sao_luma_flag ≠ 0 ∨ slice_sao_chroma_flag ≠ 0 ∨ slice_deblocking_filter_disabled_flag = 0))) (u 1) 0
  let num_entry_point_offsets ← opt ((pps.head.tiles_enabled_flag ≠ 0 ∨ pps.head.entropy_coding_sync_enabled_flag ≠ 0)) uev 0
  check (isValidNumEntryPointOffsets sps pps num_entry_point_offsets)
  let offset_len_minus1 ← opt (((pps.head.tiles_enabled_flag ≠ 0 ∨ pps.head.entropy_coding_sync_enabled_flag ≠ 0) ∧ num_entry_point_offsets > 0)) (ueRange 0 31) 0
  let entry_point_offset_minus1 ← opt (((pps.head.tiles_enabled_flag ≠ 0 ∨ pps.head.entropy_coding_sync_enabled_flag ≠ 0) ∧ num_entry_point_offsets > 0)) (rep num_entry_point_offsets (u ((offset_len_minus1 + 1)))) []
  let slice_segment_header_extension_length ← opt (pps.head.slice_segment_header_extension_present_flag ≠ 0) uev 0
  let slice_segment_header_extension_data_byte ← opt (pps.head.slice_segment_header_extension_present_flag ≠ 0) (rep slice_segment_header_extension_length (u 8)) []
  return { dependent_slice_segment_flag, slice_segment_address, slice_reserved_flag, slice_type, pic_output_flag, colour_plane_id, slice_pic_order_cnt_lsb, short_term_ref_pic_set_sps_flag, st_ref_pic_set, short_term_ref_pic_set_idx, num_long_term_sps, num_long_term_pics, lt_ref_pics, slice_temporal_mvp_enabled_flag, slice_sao_luma_flag, slice_sao_chroma_flag, num_ref_idx_active_override_flag, num_ref_idx_l0_active_minus1, num_ref_idx_l1_active_minus1, mvd_l1_zero_flag, cabac_init_flag, collocated_from_l0_flag, collocated_ref_idx, pred_weight_table, five_minus_max_num_merge_cand, use_integer_mv_flag, slice_qp_delta, slice_cb_qp_offset, slice_cr_qp_offset, act_qp_offsets_present, slice_act_y_qp_offset, slice_act_cb_qp_offset, slice_act_cr_qp_offset, deblocking_filter_override_flag, slice_deblocking_filter_disabled_flag, slice_beta_offset_div2, slice_tc_offset_div2, slice_loop_filter_across_slices_enabled_flag, num_entry_point_offsets, offset_len_minus1, entry_point_offset_minus1, slice_segment_header_extension_length, slice_segment_header_extension_data_byte }

/-- `ParseSliceSegmentHeader`, src/h265_slice_parser.cc:93-671, with the lookup functions of the parser state: `pps[id]` and `sps[id]`
(`find` fails for ids without entry; the stored pointers are never null, see `Verif/Model/NalUnit.lean`) -/
def parseSliceSegmentHeader (nal_unit_type : Nat) (pps : Nat → Option Pps) (sps : Nat → Option Sps) : Prog SliceSegmentHeader := do
  let head ← parseSliceHead nal_unit_type
  match pps head.slice_pic_parameter_set_id with
  | none => fail
  | some p =>
    match sps p.body.head.pps_seq_parameter_set_id with
    | none => fail
    | some s =>
      let body ← parseSliceBody nal_unit_type p.body s.body head.first_slice_segment_in_pic_flag
      return { nal_unit_type, head, body }

/-- `ParseSliceSegmentLayer`, src/h265_slice_parser.cc:36-60 (its result only wraps the header) -/
def parseSliceSegmentLayer (nal_unit_type : Nat) (pps : Nat → Option Pps) (sps : Nat → Option Sps) : Prog SliceSegmentHeader :=
  parseSliceSegmentHeader nal_unit_type pps sps

end H265
