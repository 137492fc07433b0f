/-
Syntax of slice_segment_header() (clause 7.3.6.1).
-/
import Verif.Spec.Pwt
import Verif.Spec.Pps
import Verif.Model.SpsDerived
import Verif.Model.FloatLog

namespace H265
open Spec

/-- What one iteration of the long-term loop pushes to the vectors lt_idx_sps (for i < num_long_term_sps, if more than one candidate),
poc_lsb_lt and used_by_curr_pic_lt_flag (for other i), and delta_poc_msb_present_flag -/
structure LtRefPicHead where
  lt_idx_sps : Nat
  poc_lsb_lt : Nat
  used_by_curr_pic_lt_flag : Nat
  delta_poc_msb_present_flag : Nat
  deriving DecidableEq, Repr, Inhabited

namespace Spec
/-- long-term picture `i` up to delta_poc_msb_present_flag, clause 7.3.6.1; `numSps` = num_long_term_sps, `numLtSps` =
num_long_term_ref_pics_sps, `pocLen` = length of a POC LSB -/
def ltRefPicHead (numSps : Nat) (numLtSps : Nat) (pocLen : Nat) (i : Nat) (s : LtRefPicHead) : List Bool :=
  seq [cond ((i < numSps ∧ numLtSps > 1)) (u (ceilLog2f numLtSps) s.lt_idx_sps),
    cond (numSps ≤ i) (u (pocLen) s.poc_lsb_lt),
    cond (numSps ≤ i) (u 1 s.used_by_curr_pic_lt_flag),
    u 1 s.delta_poc_msb_present_flag]

/-- ranges -/
structure ValidLtRefPicHead (numSps numLtSps pocLen i : Nat) (s : LtRefPicHead) : Prop where
  lt_idx_sps : Opt ((i < numSps ∧ numLtSps > 1)) (s.lt_idx_sps < 2 ^ (ceilLog2f numLtSps)) (s.lt_idx_sps = 0)
  poc_lsb_lt : Opt (numSps ≤ i) (s.poc_lsb_lt < 2 ^ (pocLen)) (s.poc_lsb_lt = 0)
  used_by_curr_pic_lt_flag : Opt (numSps ≤ i) (s.used_by_curr_pic_lt_flag < 2 ^ 1) (s.used_by_curr_pic_lt_flag = 0)
  delta_poc_msb_present_flag : s.delta_poc_msb_present_flag < 2 ^ 1
end Spec

/-- What one iteration of the long-term loop pushes to the vectors, including delta_poc_msb_cycle_lt (if present) -/
structure LtRefPic where
  head : LtRefPicHead
  delta_poc_msb_cycle_lt : Nat
  deriving DecidableEq, Repr, Inhabited

namespace Spec
/-- long-term picture `i`, clause 7.3.6.1 -/
def ltRefPic (numSps : Nat) (numLtSps : Nat) (pocLen : Nat) (i : Nat) (s : LtRefPic) : List Bool :=
  seq [ltRefPicHead numSps numLtSps pocLen i s.head,
    cond (s.head.delta_poc_msb_present_flag ≠ 0) (ue s.delta_poc_msb_cycle_lt)]

/-- ranges -/
structure ValidLtRefPic (numSps numLtSps pocLen i : Nat) (s : LtRefPic) : Prop where
  head : ValidLtRefPicHead numSps numLtSps pocLen i s.head
  delta_poc_msb_cycle_lt : Opt (s.head.delta_poc_msb_present_flag ≠ 0) (s.delta_poc_msb_cycle_lt < 2 ^ 32 - 1) (s.delta_poc_msb_cycle_lt = 0)
end Spec

namespace Spec
/-- the long-term pictures of a slice header: `numSps + numPics` entries -/
structure ValidLtRefPics (numSps numPics numLtSps pocLen : Nat) (l : List LtRefPic) : Prop where
  count : numSps + numPics < 2 ^ 32
  each : EachI (numSps + numPics) (ValidLtRefPic numSps numLtSps pocLen) l
end Spec

/-- The first fields of `SliceSegmentHeaderState`, include/h265_slice_parser.h:72-74 -/
structure SliceHead where
  first_slice_segment_in_pic_flag : Nat
  no_output_of_prior_pics_flag : Nat
  slice_pic_parameter_set_id : Nat
  deriving DecidableEq, Repr, Inhabited

namespace Spec
/-- slice_segment_header() up to the PPS id, clause 7.3.6.1 -/
def sliceHead (nal_unit_type : Nat) (s : SliceHead) : List Bool :=
  seq [u 1 s.first_slice_segment_in_pic_flag,
    cond ((16 ≤ nal_unit_type ∧ nal_unit_type ≤ 23)) (u 1 s.no_output_of_prior_pics_flag),
    ue s.slice_pic_parameter_set_id]

/-- ranges -/
structure ValidSliceHead (nal_unit_type : Nat) (s : SliceHead) : Prop where
  first_slice_segment_in_pic_flag : s.first_slice_segment_in_pic_flag < 2 ^ 1
  no_output_of_prior_pics_flag : Opt ((16 ≤ nal_unit_type ∧ nal_unit_type ≤ 23)) (s.no_output_of_prior_pics_flag < 2 ^ 1) (s.no_output_of_prior_pics_flag = 0)
  slice_pic_parameter_set_id : s.slice_pic_parameter_set_id < 2 ^ 32 - 1
end Spec

/-- ChromaArrayType as computed by the slice header parser, src/h265_slice_parser.cc:358-375: it stays 0 unless SAO is enabled (the standard: it does not
depend on SAO) -/
def sliceChromaArrayType (sps : SpsBody) : Nat :=
  if sps.sample_adaptive_offset_enabled_flag ≠ 0 then (if sps.separate_colour_plane_flag = 0 then sps.chroma_format_idc else 0) else 0

/-- motion_vector_resolution_control_idc of the SPS SCC extension, 0 without one, src/h265_slice_parser.cc:483-489 -/
def sliceMvResolution (sps : SpsBody) : Nat :=
  if sps.sps_scc_extension_flag ≠ 0 then
    match sps.sps_scc_extension with
    | some e => e.motion_vector_resolution_control_idc
    | none => 0
  else 0

/-- `isValidNumEntryPointOffsets`, src/h265_slice_parser.cc:673-713, in 32-bit unsigned arithmetic -/
def isValidNumEntryPointOffsets (sps : SpsBody) (pps : PpsBody) (n : Nat) : Prop :=
  if pps.head.tiles_enabled_flag = 0 ∧ pps.head.entropy_coding_sync_enabled_flag = 1 then
    n ≤ w32 (sps.getPicHeightInCtbsY + 2 ^ 32 - 1)
  else if pps.head.tiles_enabled_flag = 1 ∧ pps.head.entropy_coding_sync_enabled_flag = 0 then
    n ≤ w32 (w32 ((pps.head.num_tile_columns_minus1 + 1) * (pps.head.num_tile_rows_minus1 + 1)) + 2 ^ 32 - 1)
  else if pps.head.tiles_enabled_flag = 1 ∧ pps.head.entropy_coding_sync_enabled_flag = 1 then
    n ≤ w32 ((pps.head.num_tile_columns_minus1 + 1) * w32 (sps.getPicHeightInCtbsY + 2 ^ 32 - 1))
  else n = 0

instance (sps : SpsBody) (pps : PpsBody) (n : Nat) : Decidable (isValidNumEntryPointOffsets sps pps n) := by
  unfold isValidNumEntryPointOffsets; infer_instance

/-- pps_slice_act_qp_offsets_present_flag of the PPS SCC extension, 0 without one -/
def Spec.slicePpsActFlag (pps : PpsBody) : Nat :=
  if pps.head.pps_scc_extension_flag ≠ 0 then (pps.pps_scc_extension.map (·.pps_slice_act_qp_offsets_present_flag)).getD 0 else 0

/-- a value that is not in the bitstream -/
def Spec.noBits (_ : Nat) : List Bool := []

/-- `SliceSegmentHeaderState`, include/h265_slice_parser.h:75-125 (contents; the copies of SPS and PPS values are not kept, except for the ACT flag read from
the SCC extension of the PPS; the five vectors of the long-term loop are a list of records) -/
structure SliceBody where
  dependent_slice_segment_flag : Nat
  slice_segment_address : Nat
  slice_reserved_flag : List Nat
  slice_type : Nat
  pic_output_flag : Nat
  colour_plane_id : Nat
  slice_pic_order_cnt_lsb : Nat
  short_term_ref_pic_set_sps_flag : Nat
  st_ref_pic_set : Option StRefPicSet
  short_term_ref_pic_set_idx : Nat
  num_long_term_sps : Nat
  num_long_term_pics : Nat
  lt_ref_pics : List LtRefPic
  slice_temporal_mvp_enabled_flag : Nat
  slice_sao_luma_flag : Nat
  slice_sao_chroma_flag : Nat
  num_ref_idx_active_override_flag : Nat
  num_ref_idx_l0_active_minus1 : Nat
  num_ref_idx_l1_active_minus1 : Nat
  mvd_l1_zero_flag : Nat
  cabac_init_flag : Nat
  collocated_from_l0_flag : Nat
  collocated_ref_idx : Nat
  pred_weight_table : Option PredWeightTable
  five_minus_max_num_merge_cand : Nat
  use_integer_mv_flag : Nat
  slice_qp_delta : Int
  slice_cb_qp_offset : Int
  slice_cr_qp_offset : Int
  act_qp_offsets_present : Nat
  slice_act_y_qp_offset : Int
  slice_act_cb_qp_offset : Int
  slice_act_cr_qp_offset : Int
  deblocking_filter_override_flag : Nat
  slice_deblocking_filter_disabled_flag : Nat
  slice_beta_offset_div2 : Int
  slice_tc_offset_div2 : Int
  slice_loop_filter_across_slices_enabled_flag : Nat
  num_entry_point_offsets : Nat
  offset_len_minus1 : Nat
  entry_point_offset_minus1 : List Nat
  slice_segment_header_extension_length : Nat
  slice_segment_header_extension_data_byte : List Nat
  deriving DecidableEq, Repr, Inhabited

namespace Spec
/-- slice_segment_header() after the PPS id, clause 7.3.6.1, in the form the code accepts: `first` = first_slice_segment_in_pic_flag.
(ref_pic_lists_modification() and the range extension are not supported by the code.) -/
def sliceBody (nal_unit_type : Nat) (pps : PpsBody) (sps : SpsBody) (first : Nat) (s : SliceBody) : List Bool :=
  seq [cond ((first = 0 ∧ pps.head.dependent_slice_segments_enabled_flag ≠ 0)) (u 1 s.dependent_slice_segment_flag),
    cond (first = 0) (u (ceilLog2f sps.getPicSizeInCtbsY) s.slice_segment_address),
    cond (s.dependent_slice_segment_flag = 0) (list (u 1) s.slice_reserved_flag),
    cond (s.dependent_slice_segment_flag = 0) (ue s.slice_type),
    cond ((s.dependent_slice_segment_flag = 0 ∧ pps.head.output_flag_present_flag ≠ 0)) (u 1 s.pic_output_flag),
    cond ((s.dependent_slice_segment_flag = 0 ∧ sps.separate_colour_plane_flag = 1)) (u 2 s.colour_plane_id),
    cond ((s.dependent_slice_segment_flag = 0 ∧ nal_unit_type ≠ 19 ∧ nal_unit_type ≠ 20)) (u ((sps.log2_max_pic_order_cnt_lsb_minus4 + 4)) s.slice_pic_order_cnt_lsb),
    cond ((s.dependent_slice_segment_flag = 0 ∧ nal_unit_type ≠ 19 ∧ nal_unit_type ≠ 20)) (u 1 s.short_term_ref_pic_set_sps_flag),
    optional (stRefPicSet sps.num_short_term_ref_pic_sets sps.num_short_term_ref_pic_sets) s.st_ref_pic_set,
    cond ((s.dependent_slice_segment_flag = 0 ∧ nal_unit_type ≠ 19 ∧ nal_unit_type ≠ 20 ∧ s.short_term_ref_pic_set_sps_flag ≠ 0 ∧ sps.num_short_term_ref_pic_sets > 1)) (u (ceilLog2f sps.num_short_term_ref_pic_sets) s.short_term_ref_pic_set_idx),
    cond ((s.dependent_slice_segment_flag = 0 ∧ nal_unit_type ≠ 19 ∧ nal_unit_type ≠ 20 ∧ sps.long_term_ref_pics_present_flag ≠ 0 ∧ sps.num_long_term_ref_pics_sps > 0)) (ue s.num_long_term_sps),
    cond ((s.dependent_slice_segment_flag = 0 ∧ nal_unit_type ≠ 19 ∧ nal_unit_type ≠ 20 ∧ sps.long_term_ref_pics_present_flag ≠ 0)) (ue s.num_long_term_pics),
    cond ((s.dependent_slice_segment_flag = 0 ∧ nal_unit_type ≠ 19 ∧ nal_unit_type ≠ 20 ∧ sps.long_term_ref_pics_present_flag ≠ 0)) (listI (ltRefPic s.num_long_term_sps sps.num_long_term_ref_pics_sps (sps.log2_max_pic_order_cnt_lsb_minus4 + 4)) 0 s.lt_ref_pics),
    cond ((s.dependent_slice_segment_flag = 0 ∧ nal_unit_type ≠ 19 ∧ nal_unit_type ≠ 20 ∧ sps.sps_temporal_mvp_enabled_flag ≠ 0)) (u 1 s.slice_temporal_mvp_enabled_flag),
    cond ((s.dependent_slice_segment_flag = 0 ∧ sps.sample_adaptive_offset_enabled_flag ≠ 0)) (u 1 s.slice_sao_luma_flag),
    cond ((s.dependent_slice_segment_flag = 0 ∧ sps.sample_adaptive_offset_enabled_flag ≠ 0 ∧ sliceChromaArrayType sps ≠ 0)) (u 1 s.slice_sao_chroma_flag),
    cond ((s.dependent_slice_segment_flag = 0 ∧ (s.slice_type = 1 ∨ s.slice_type = 0))) (u 1 s.num_ref_idx_active_override_flag),
    cond ((s.dependent_slice_segment_flag = 0 ∧ (s.slice_type = 1 ∨ s.slice_type = 0) ∧ s.num_ref_idx_active_override_flag ≠ 0)) (ue s.num_ref_idx_l0_active_minus1),
    cond ((s.dependent_slice_segment_flag = 0 ∧ s.slice_type = 0 ∧ s.num_ref_idx_active_override_flag ≠ 0)) (ue s.num_ref_idx_l1_active_minus1),
    cond ((s.dependent_slice_segment_flag = 0 ∧ s.slice_type = 0)) (u 1 s.mvd_l1_zero_flag),
    cond ((s.dependent_slice_segment_flag = 0 ∧ (s.slice_type = 1 ∨ s.slice_type = 0) ∧ pps.head.cabac_init_present_flag ≠ 0)) (u 1 s.cabac_init_flag),
    cond ((s.dependent_slice_segment_flag = 0 ∧ s.slice_type = 0 ∧ s.slice_temporal_mvp_enabled_flag ≠ 0)) (u 1 s.collocated_from_l0_flag),
    cond ((s.dependent_slice_segment_flag = 0 ∧ (s.slice_type = 1 ∨ s.slice_type = 0) ∧ s.slice_temporal_mvp_enabled_flag ≠ 0 ∧ ((s.collocated_from_l0_flag ≠ 0 ∧ s.num_ref_idx_l0_active_minus1 > 0) ∨ (s.collocated_from_l0_flag = 0 ∧ s.num_ref_idx_l1_active_minus1 > 0)))) (ue s.collocated_ref_idx),
    optional (predWeightTable (sliceChromaArrayType sps)) s.pred_weight_table,
    cond ((s.dependent_slice_segment_flag = 0 ∧ (s.slice_type = 1 ∨ s.slice_type = 0))) (ue s.five_minus_max_num_merge_cand),
    cond ((s.dependent_slice_segment_flag = 0 ∧ (s.slice_type = 1 ∨ s.slice_type = 0) ∧ sliceMvResolution sps = 2)) (u 1 s.use_integer_mv_flag),
    cond (s.dependent_slice_segment_flag = 0) (se s.slice_qp_delta),
    cond ((s.dependent_slice_segment_flag = 0 ∧ pps.head.pps_slice_chroma_qp_offsets_present_flag ≠ 0)) (se s.slice_cb_qp_offset),
    cond ((s.dependent_slice_segment_flag = 0 ∧ pps.head.pps_slice_chroma_qp_offsets_present_flag ≠ 0)) (se s.slice_cr_qp_offset),
    cond (s.dependent_slice_segment_flag = 0) (noBits s.act_qp_offsets_present),
    cond ((s.dependent_slice_segment_flag = 0 ∧ s.act_qp_offsets_present ≠ 0)) (se s.slice_act_y_qp_offset),
    cond ((s.dependent_slice_segment_flag = 0 ∧ s.act_qp_offsets_present ≠ 0)) (se s.slice_act_cb_qp_offset),
    cond ((s.dependent_slice_segment_flag = 0 ∧ s.act_qp_offsets_present ≠ 0)) (se s.slice_act_cr_qp_offset),
    cond ((s.dependent_slice_segment_flag = 0 ∧ pps.head.deblocking_filter_override_enabled_flag ≠ 0)) (u 1 s.deblocking_filter_override_flag),
    cond ((s.dependent_slice_segment_flag = 0 ∧ s.deblocking_filter_override_flag ≠ 0)) (u 1 s.slice_deblocking_filter_disabled_flag),
    cond ((s.dependent_slice_segment_flag = 0 ∧ s.deblocking_filter_override_flag ≠ 0 ∧ s.slice_deblocking_filter_disabled_flag = 0)) (se s.slice_beta_offset_div2),
    cond ((s.dependent_slice_segment_flag = 0 ∧ s.deblocking_filter_override_flag ≠ 0 ∧ s.slice_deblocking_filter_disabled_flag = 0)) (se s.slice_tc_offset_div2),
    cond ((s.dependent_slice_segment_flag = 0 ∧ pps.head.pps_loop_filter_across_slices_enabled_flag ≠ 0 ∧ (s.slice_sao_luma_flag ≠ 0 ∨ s.slice_sao_chroma_flag ≠ 0 ∨ s.slice_deblocking_filter_disabled_flag = 0))) (u 1 s.slice_loop_filter_across_slices_enabled_flag),
    cond ((pps.head.tiles_enabled_flag ≠ 0 ∨ pps.head.entropy_coding_sync_enabled_flag ≠ 0)) (ue s.num_entry_point_offsets),
    cond (((pps.head.tiles_enabled_flag ≠ 0 ∨ pps.head.entropy_coding_sync_enabled_flag ≠ 0) ∧ s.num_entry_point_offsets > 0)) (ue s.offset_len_minus1),
    cond (((pps.head.tiles_enabled_flag ≠ 0 ∨ pps.head.entropy_coding_sync_enabled_flag ≠ 0) ∧ s.num_entry_point_offsets > 0)) (list (u ((s.offset_len_minus1 + 1))) s.entry_point_offset_minus1),
    cond (pps.head.slice_segment_header_extension_present_flag ≠ 0) (ue s.slice_segment_header_extension_length),
    cond (pps.head.slice_segment_header_extension_present_flag ≠ 0) (list (u 8) s.slice_segment_header_extension_data_byte)]

/-- ranges -/
structure ValidSliceBody (nal_unit_type : Nat) (pps : PpsBody) (sps : SpsBody) (first : Nat) (s : SliceBody) : Prop where
  dependent_slice_segment_flag : Opt ((first = 0 ∧ pps.head.dependent_slice_segments_enabled_flag ≠ 0)) (s.dependent_slice_segment_flag < 2 ^ 1) (s.dependent_slice_segment_flag = 0)
  slice_segment_address : Opt (first = 0) (ValidUVar (ceilLog2f sps.getPicSizeInCtbsY) s.slice_segment_address) (s.slice_segment_address = 0)
  slice_reserved_flag : Opt (s.dependent_slice_segment_flag = 0) (Each (pps.head.num_extra_slice_header_bits) (· < 2 ^ 1) s.slice_reserved_flag) (s.slice_reserved_flag = [])
  slice_type : Opt (s.dependent_slice_segment_flag = 0) (s.slice_type < 2 ^ 32 - 1) (s.slice_type = 0)
  pic_output_flag : Opt ((s.dependent_slice_segment_flag = 0 ∧ pps.head.output_flag_present_flag ≠ 0)) (s.pic_output_flag < 2 ^ 1) (s.pic_output_flag = 0)
  colour_plane_id : Opt ((s.dependent_slice_segment_flag = 0 ∧ sps.separate_colour_plane_flag = 1)) (s.colour_plane_id < 2 ^ 2) (s.colour_plane_id = 0)
  slice_pic_order_cnt_lsb : Opt ((s.dependent_slice_segment_flag = 0 ∧ nal_unit_type ≠ 19 ∧ nal_unit_type ≠ 20)) (s.slice_pic_order_cnt_lsb < 2 ^ ((sps.log2_max_pic_order_cnt_lsb_minus4 + 4))) (s.slice_pic_order_cnt_lsb = 0)
  short_term_ref_pic_set_sps_flag : Opt ((s.dependent_slice_segment_flag = 0 ∧ nal_unit_type ≠ 19 ∧ nal_unit_type ≠ 20)) (s.short_term_ref_pic_set_sps_flag < 2 ^ 1) (s.short_term_ref_pic_set_sps_flag = 0)
  st_ref_pic_set : Maybe ((s.dependent_slice_segment_flag = 0 ∧ nal_unit_type ≠ 19 ∧ nal_unit_type ≠ 20 ∧ s.short_term_ref_pic_set_sps_flag = 0)) (ValidStRefPicSet sps.num_short_term_ref_pic_sets sps.num_short_term_ref_pic_sets sps.st_ref_pic_set 15) s.st_ref_pic_set
  short_term_ref_pic_set_idx : Opt ((s.dependent_slice_segment_flag = 0 ∧ nal_unit_type ≠ 19 ∧ nal_unit_type ≠ 20 ∧ s.short_term_ref_pic_set_sps_flag ≠ 0 ∧ sps.num_short_term_ref_pic_sets > 1)) (s.short_term_ref_pic_set_idx < 2 ^ (ceilLog2f sps.num_short_term_ref_pic_sets)) (s.short_term_ref_pic_set_idx = 0)
  num_long_term_sps : Opt ((s.dependent_slice_segment_flag = 0 ∧ nal_unit_type ≠ 19 ∧ nal_unit_type ≠ 20 ∧ sps.long_term_ref_pics_present_flag ≠ 0 ∧ sps.num_long_term_ref_pics_sps > 0)) (s.num_long_term_sps < 2 ^ 32 - 1) (s.num_long_term_sps = 0)
  num_long_term_pics : Opt ((s.dependent_slice_segment_flag = 0 ∧ nal_unit_type ≠ 19 ∧ nal_unit_type ≠ 20 ∧ sps.long_term_ref_pics_present_flag ≠ 0)) (s.num_long_term_pics < 2 ^ 32 - 1) (s.num_long_term_pics = 0)
  lt_ref_pics : Opt ((s.dependent_slice_segment_flag = 0 ∧ nal_unit_type ≠ 19 ∧ nal_unit_type ≠ 20 ∧ sps.long_term_ref_pics_present_flag ≠ 0)) (ValidLtRefPics s.num_long_term_sps s.num_long_term_pics sps.num_long_term_ref_pics_sps (sps.log2_max_pic_order_cnt_lsb_minus4 + 4) s.lt_ref_pics) (s.lt_ref_pics = [])
  slice_temporal_mvp_enabled_flag : Opt ((s.dependent_slice_segment_flag = 0 ∧ nal_unit_type ≠ 19 ∧ nal_unit_type ≠ 20 ∧ sps.sps_temporal_mvp_enabled_flag ≠ 0)) (s.slice_temporal_mvp_enabled_flag < 2 ^ 1) (s.slice_temporal_mvp_enabled_flag = 0)
  slice_sao_luma_flag : Opt ((s.dependent_slice_segment_flag = 0 ∧ sps.sample_adaptive_offset_enabled_flag ≠ 0)) (s.slice_sao_luma_flag < 2 ^ 1) (s.slice_sao_luma_flag = 0)
  slice_sao_chroma_flag : Opt ((s.dependent_slice_segment_flag = 0 ∧ sps.sample_adaptive_offset_enabled_flag ≠ 0 ∧ sliceChromaArrayType sps ≠ 0)) (s.slice_sao_chroma_flag < 2 ^ 1) (s.slice_sao_chroma_flag = 0)
  num_ref_idx_active_override_flag : Opt ((s.dependent_slice_segment_flag = 0 ∧ (s.slice_type = 1 ∨ s.slice_type = 0))) (s.num_ref_idx_active_override_flag < 2 ^ 1) (s.num_ref_idx_active_override_flag = 0)
  num_ref_idx_l0_active_minus1 : Opt ((s.dependent_slice_segment_flag = 0 ∧ (s.slice_type = 1 ∨ s.slice_type = 0) ∧ s.num_ref_idx_active_override_flag ≠ 0)) (s.num_ref_idx_l0_active_minus1 < 2 ^ 32 - 1) (s.num_ref_idx_l0_active_minus1 = 0)
  num_ref_idx_l1_active_minus1 : Opt ((s.dependent_slice_segment_flag = 0 ∧ s.slice_type = 0 ∧ s.num_ref_idx_active_override_flag ≠ 0)) (s.num_ref_idx_l1_active_minus1 < 2 ^ 32 - 1) (s.num_ref_idx_l1_active_minus1 = 0)
  mvd_l1_zero_flag : Opt ((s.dependent_slice_segment_flag = 0 ∧ s.slice_type = 0)) (s.mvd_l1_zero_flag < 2 ^ 1) (s.mvd_l1_zero_flag = 0)
  cabac_init_flag : Opt ((s.dependent_slice_segment_flag = 0 ∧ (s.slice_type = 1 ∨ s.slice_type = 0) ∧ pps.head.cabac_init_present_flag ≠ 0)) (s.cabac_init_flag < 2 ^ 1) (s.cabac_init_flag = 0)
  collocated_from_l0_flag : Opt ((s.dependent_slice_segment_flag = 0 ∧ s.slice_type = 0 ∧ s.slice_temporal_mvp_enabled_flag ≠ 0)) (s.collocated_from_l0_flag < 2 ^ 1) (s.collocated_from_l0_flag = 1)
  collocated_ref_idx : Opt ((s.dependent_slice_segment_flag = 0 ∧ (s.slice_type = 1 ∨ s.slice_type = 0) ∧ s.slice_temporal_mvp_enabled_flag ≠ 0 ∧ ((s.collocated_from_l0_flag ≠ 0 ∧ s.num_ref_idx_l0_active_minus1 > 0) ∨ (s.collocated_from_l0_flag = 0 ∧ s.num_ref_idx_l1_active_minus1 > 0)))) (s.collocated_ref_idx < 2 ^ 32 - 1) (s.collocated_ref_idx = 0)
  pred_weight_table : Maybe ((s.dependent_slice_segment_flag = 0 ∧ ((pps.head.weighted_pred_flag ≠ 0 ∧ s.slice_type = 1) ∨ (pps.head.weighted_bipred_flag ≠ 0 ∧ s.slice_type = 0)))) (ValidPredWeightTable (sliceChromaArrayType sps) s.num_ref_idx_l0_active_minus1) s.pred_weight_table
  five_minus_max_num_merge_cand : Opt ((s.dependent_slice_segment_flag = 0 ∧ (s.slice_type = 1 ∨ s.slice_type = 0))) (s.five_minus_max_num_merge_cand < 2 ^ 32 - 1) (s.five_minus_max_num_merge_cand = 0)
  use_integer_mv_flag : Opt ((s.dependent_slice_segment_flag = 0 ∧ (s.slice_type = 1 ∨ s.slice_type = 0) ∧ sliceMvResolution sps = 2)) (s.use_integer_mv_flag < 2 ^ 1) (s.use_integer_mv_flag = 0)
  slice_qp_delta : Opt (s.dependent_slice_segment_flag = 0) (-(2 ^ 31) < s.slice_qp_delta ∧ s.slice_qp_delta < 2 ^ 30) (s.slice_qp_delta = 0)
  slice_cb_qp_offset : Opt ((s.dependent_slice_segment_flag = 0 ∧ pps.head.pps_slice_chroma_qp_offsets_present_flag ≠ 0)) (-(2 ^ 31) < s.slice_cb_qp_offset ∧ s.slice_cb_qp_offset < 2 ^ 30) (s.slice_cb_qp_offset = 0)
  slice_cr_qp_offset : Opt ((s.dependent_slice_segment_flag = 0 ∧ pps.head.pps_slice_chroma_qp_offsets_present_flag ≠ 0)) (-(2 ^ 31) < s.slice_cr_qp_offset ∧ s.slice_cr_qp_offset < 2 ^ 30) (s.slice_cr_qp_offset = 0)
  act_qp_offsets_present : Opt (s.dependent_slice_segment_flag = 0) (s.act_qp_offsets_present = slicePpsActFlag pps) (s.act_qp_offsets_present = 0)
  slice_act_y_qp_offset : Opt ((s.dependent_slice_segment_flag = 0 ∧ s.act_qp_offsets_present ≠ 0)) (-(2 ^ 31) < s.slice_act_y_qp_offset ∧ s.slice_act_y_qp_offset < 2 ^ 30) (s.slice_act_y_qp_offset = 0)
  slice_act_cb_qp_offset : Opt ((s.dependent_slice_segment_flag = 0 ∧ s.act_qp_offsets_present ≠ 0)) (-(2 ^ 31) < s.slice_act_cb_qp_offset ∧ s.slice_act_cb_qp_offset < 2 ^ 30) (s.slice_act_cb_qp_offset = 0)
  slice_act_cr_qp_offset : Opt ((s.dependent_slice_segment_flag = 0 ∧ s.act_qp_offsets_present ≠ 0)) (-(2 ^ 31) < s.slice_act_cr_qp_offset ∧ s.slice_act_cr_qp_offset < 2 ^ 30) (s.slice_act_cr_qp_offset = 0)
  deblocking_filter_override_flag : Opt ((s.dependent_slice_segment_flag = 0 ∧ pps.head.deblocking_filter_override_enabled_flag ≠ 0)) (s.deblocking_filter_override_flag < 2 ^ 1) (s.deblocking_filter_override_flag = 0)
  slice_deblocking_filter_disabled_flag : Opt ((s.dependent_slice_segment_flag = 0 ∧ s.deblocking_filter_override_flag ≠ 0)) (s.slice_deblocking_filter_disabled_flag < 2 ^ 1) (s.slice_deblocking_filter_disabled_flag = 0)
  slice_beta_offset_div2 : Opt ((s.dependent_slice_segment_flag = 0 ∧ s.deblocking_filter_override_flag ≠ 0 ∧ s.slice_deblocking_filter_disabled_flag = 0)) (-(2 ^ 31) < s.slice_beta_offset_div2 ∧ s.slice_beta_offset_div2 < 2 ^ 30) (s.slice_beta_offset_div2 = 0)
  slice_tc_offset_div2 : Opt ((s.dependent_slice_segment_flag = 0 ∧ s.deblocking_filter_override_flag ≠ 0 ∧ s.slice_deblocking_filter_disabled_flag = 0)) (-(2 ^ 31) < s.slice_tc_offset_div2 ∧ s.slice_tc_offset_div2 < 2 ^ 30) (s.slice_tc_offset_div2 = 0)
  slice_loop_filter_across_slices_enabled_flag : Opt ((s.dependent_slice_segment_flag = 0 ∧ pps.head.pps_loop_filter_across_slices_enabled_flag ≠ 0 ∧ (s.slice_sao_luma_flag ≠ 0 ∨ s.slice_sao_chroma_flag ≠ 0 ∨ s.slice_deblocking_filter_disabled_flag = 0))) (s.slice_loop_filter_across_slices_enabled_flag < 2 ^ 1) (s.slice_loop_filter_across_slices_enabled_flag = 0)
  num_entry_point_offsets : Opt ((pps.head.tiles_enabled_flag ≠ 0 ∨ pps.head.entropy_coding_sync_enabled_flag ≠ 0)) (s.num_entry_point_offsets < 2 ^ 32 - 1) (s.num_entry_point_offsets = 0)
  num_entry_point_offsets_valid : isValidNumEntryPointOffsets sps pps s.num_entry_point_offsets
  offset_len_minus1 : Opt (((pps.head.tiles_enabled_flag ≠ 0 ∨ pps.head.entropy_coding_sync_enabled_flag ≠ 0) ∧ s.num_entry_point_offsets > 0)) (0 ≤ s.offset_len_minus1 ∧ s.offset_len_minus1 ≤ 31) (s.offset_len_minus1 = 0)
  entry_point_offset_minus1 : Opt (((pps.head.tiles_enabled_flag ≠ 0 ∨ pps.head.entropy_coding_sync_enabled_flag ≠ 0) ∧ s.num_entry_point_offsets > 0)) (Each (s.num_entry_point_offsets) (· < 2 ^ ((s.offset_len_minus1 + 1))) s.entry_point_offset_minus1) (s.entry_point_offset_minus1 = [])
  slice_segment_header_extension_length : Opt (pps.head.slice_segment_header_extension_present_flag ≠ 0) (s.slice_segment_header_extension_length < 2 ^ 32 - 1) (s.slice_segment_header_extension_length = 0)
  slice_segment_header_extension_data_byte : Opt (pps.head.slice_segment_header_extension_present_flag ≠ 0) (Each (s.slice_segment_header_extension_length) (· < 2 ^ 8) s.slice_segment_header_extension_data_byte) (s.slice_segment_header_extension_data_byte = [])
end Spec

/-- `SliceSegmentHeaderState`, include/h265_slice_parser.h:29-132 -/
structure SliceSegmentHeader where
  nal_unit_type : Nat
  head : SliceHead
  body : SliceBody
  deriving DecidableEq, Repr, Inhabited

end H265
