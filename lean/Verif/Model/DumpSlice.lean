/-
`fdump` of slice segment headers.
The definitions `dumpX.items` and `dumpX` are generated from a transcription of the statements of each `fdump`.
-/
import Verif.Model.DumpParam
import Verif.Spec.Slice

set_option autoImplicit false

namespace H265
open Spec

/-- one iteration of the loop over long-term pictures in `SliceSegmentHeaderState::fdump`, src/h265_slice_parser.cc:781-826: it prints whole
vectors, each time (`lt_idx_sps` has the values of the first `num_long_term_sps` records if they were read, `poc_lsb_lt` and
`used_by_curr_pic_lt_flag` those of the other records, `delta_poc_msb_cycle_lt` those of the records whose flag is set,
src/h265_slice_parser.cc:290-342) -/
def dumpLtRefPic (S : SpsBody) (s : SliceBody) (i : Nat) : Dump :=
  .seq [
    .cond (i < s.num_long_term_sps) [
      .cond (S.num_long_term_ref_pics_sps > 1) [
        .lst "lt_idx_sps" (Dump.item putI) ((s.lt_ref_pics.take s.num_long_term_sps).map (·.head.lt_idx_sps))]],
    .cond (¬ i < s.num_long_term_sps) [
      .lst "poc_lsb_lt" (Dump.item putI) ((s.lt_ref_pics.drop s.num_long_term_sps).map (·.head.poc_lsb_lt)),
      .lst "used_by_curr_pic_lt_flag" (Dump.item putI) ((s.lt_ref_pics.drop s.num_long_term_sps).map (·.head.used_by_curr_pic_lt_flag))],
    .lst "delta_poc_msb_present_flag" (Dump.item putI) (s.lt_ref_pics.map (·.head.delta_poc_msb_present_flag)),
    .lst "delta_poc_msb_cycle_lt" (Dump.item putI)
      ((s.lt_ref_pics.filter (fun r => r.head.delta_poc_msb_present_flag ≠ 0)).map (·.delta_poc_msb_cycle_lt))]

/-- the statements between the braces of `pred_weight_table { … }`, src/h265_pred_weight_table_parser.cc:128-199 (`chroma` is `ChromaArrayType`; a vector that is only appended to when a flag is set holds the values of the records that are present) -/
def dumpPredWeightTable.items (chroma : Nat) (s : PredWeightTable) : List Dump :=
  [
    .fld "luma_log2_weight_denom" (putI s.luma_log2_weight_denom),
    .cond (chroma ≠ 0) [
      .fld "delta_chroma_log2_weight_denom" (putD s.delta_chroma_log2_weight_denom)],
    .lst "luma_weight_l0_flag" (Dump.item putU) s.luma_weight_l0_flag,
    .cond (chroma ≠ 0) [
      .lst "chroma_weight_l0_flag" (Dump.item putU) s.chroma_weight_l0_flag],
    .lst "delta_luma_weight_l0" (Dump.item putD) ((s.weights.filterMap (·.luma)).map (·.delta_luma_weight_l0)),
    .lst "luma_offset_l0" (Dump.item putD) ((s.weights.filterMap (·.luma)).map (·.luma_offset_l0)),
    .cond (chroma ≠ 0) [
      .lst "delta_chroma_weight_l0" (Dump.sub (Dump.item putD)) ((s.weights.filterMap (·.chroma)).map (fun c => [c.delta_chroma_weight_l0_0, c.delta_chroma_weight_l0_1])),
      .lst "delta_chroma_offset_l0" (Dump.sub (Dump.item putD)) ((s.weights.filterMap (·.chroma)).map (fun c => [c.delta_chroma_offset_l0_0, c.delta_chroma_offset_l0_1]))]]

/-- `fdump` of `pred_weight_table`, src/h265_pred_weight_table_parser.cc:128-199 -/
def dumpPredWeightTable (chroma : Nat) (s : PredWeightTable) : Dump := .blk "pred_weight_table" (dumpPredWeightTable.items chroma s)

/-- the statements between the braces of `slice_segment_header { … }`, src/h265_slice_parser.cc:716-998 (`P` and `S` are the PPS and SPS the header was parsed with: the object keeps copies of their values (include/h265_slice_parser.h:43-69) and prints depending on them; a copy is printed or tested only where the parser has set it. Not modelled: `cu_chroma_qp_offset_enabled_flag` (its condition is a member that is never set), and `NumPicTotalCurr > 1` (never, and nothing printed)) -/
def dumpSliceSegmentHeader.items (P : PpsBody) (S : SpsBody) (h : SliceSegmentHeader) : List Dump :=
  [
    .fld "first_slice_segment_in_pic_flag" (putI h.head.first_slice_segment_in_pic_flag),
    .fld "no_output_of_prior_pics_flag" (putI h.head.no_output_of_prior_pics_flag),
    .fld "slice_pic_parameter_set_id" (putI h.head.slice_pic_parameter_set_id),
    .fld "dependent_slice_segment_flag" (putI h.body.dependent_slice_segment_flag),
    .fld "slice_segment_address" (putI h.body.slice_segment_address),
    .cond (h.body.dependent_slice_segment_flag = 0) [
      .lst "slice_reserved_flag" (Dump.item putI) h.body.slice_reserved_flag,
      .fld "slice_type" (putI h.body.slice_type),
      .fld "pic_output_flag" (putI h.body.pic_output_flag),
      .fld "colour_plane_id" (putI h.body.colour_plane_id),
      .cond (h.nal_unit_type ≠ 19 ∧ h.nal_unit_type ≠ 20) [
        .fld "slice_pic_order_cnt_lsb" (putI h.body.slice_pic_order_cnt_lsb),
        .fld "short_term_ref_pic_set_sps_flag" (putI h.body.short_term_ref_pic_set_sps_flag),
        .cond (h.body.short_term_ref_pic_set_sps_flag = 0) [
          .on (.ifSome h.body.st_ref_pic_set (dumpStRefPicSet S.num_short_term_ref_pic_sets S.num_short_term_ref_pic_sets))],
        .cond (h.body.short_term_ref_pic_set_sps_flag ≠ 0 ∧ S.num_short_term_ref_pic_sets > 1) [
          .fld "short_term_ref_pic_set_idx" (putI h.body.short_term_ref_pic_set_idx)],
        .cond (S.long_term_ref_pics_present_flag ≠ 0) [
          .cond (S.num_long_term_ref_pics_sps > 0) [
            .fld "num_long_term_sps" (putI h.body.num_long_term_sps)],
          .fld "num_long_term_pics" (putI h.body.num_long_term_pics),
          .each (List.range (w32 (h.body.num_long_term_sps + h.body.num_long_term_pics))) (dumpLtRefPic S h.body)],
        .cond (S.sps_temporal_mvp_enabled_flag ≠ 0) [
          .fld "slice_temporal_mvp_enabled_flag" (putI h.body.slice_temporal_mvp_enabled_flag)]],
      .cond (S.sample_adaptive_offset_enabled_flag ≠ 0) [
        .fld "slice_sao_luma_flag" (putI h.body.slice_sao_luma_flag),
        .cond (sliceChromaArrayType S ≠ 0) [
          .fld "slice_sao_chroma_flag" (putI h.body.slice_sao_chroma_flag)]],
      .cond (h.body.slice_type = 1 ∨ h.body.slice_type = 0) [
        .fld "num_ref_idx_active_override_flag" (putI h.body.num_ref_idx_active_override_flag),
        .cond (h.body.num_ref_idx_active_override_flag ≠ 0) [
          .fld "num_ref_idx_l0_active_minus1" (putI h.body.num_ref_idx_l0_active_minus1),
          .cond (h.body.slice_type = 0) [
            .fld "num_ref_idx_l1_active_minus1" (putI h.body.num_ref_idx_l1_active_minus1)]],
        .cond (h.body.slice_type = 0) [
          .fld "mvd_l1_zero_flag" (putI h.body.mvd_l1_zero_flag)],
        .cond (P.head.cabac_init_present_flag ≠ 0) [
          .fld "cabac_init_flag" (putI h.body.cabac_init_flag)],
        .cond (h.body.slice_temporal_mvp_enabled_flag ≠ 0) [
          .cond (h.body.slice_type = 0) [
            .fld "collocated_from_l0_flag" (putI h.body.collocated_from_l0_flag)],
          .cond ((h.body.collocated_from_l0_flag ≠ 0 ∧ h.body.num_ref_idx_l0_active_minus1 > 0) ∨ (h.body.collocated_from_l0_flag = 0 ∧ h.body.num_ref_idx_l1_active_minus1 > 0)) [
            .fld "collocated_ref_idx" (putI h.body.collocated_ref_idx)]],
        .cond ((P.head.weighted_pred_flag ≠ 0 ∧ h.body.slice_type = 1) ∨ (P.head.weighted_bipred_flag ≠ 0 ∧ h.body.slice_type = 0)) [
          .on (.deref h.body.pred_weight_table (dumpPredWeightTable (sliceChromaArrayType S)))],
        .fld "five_minus_max_num_merge_cand" (putI h.body.five_minus_max_num_merge_cand),
        .cond (sliceMvResolution S = 2) [
          .fld "use_integer_mv_flag" (putI h.body.use_integer_mv_flag)]],
      .fld "slice_qp_delta" (putD h.body.slice_qp_delta),
      .cond (P.head.pps_slice_chroma_qp_offsets_present_flag ≠ 0) [
        .fld "slice_cb_qp_offset" (putD h.body.slice_cb_qp_offset),
        .fld "slice_cr_qp_offset" (putD h.body.slice_cr_qp_offset)],
      .cond (h.body.act_qp_offsets_present ≠ 0) [
        .fld "slice_act_y_qp_offset" (putD h.body.slice_act_y_qp_offset),
        .fld "slice_act_cb_qp_offset" (putD h.body.slice_act_cb_qp_offset),
        .fld "slice_act_cr_qp_offset" (putD h.body.slice_act_cr_qp_offset)],
      .cond (P.head.deblocking_filter_override_enabled_flag ≠ 0) [
        .fld "deblocking_filter_override_flag" (putI h.body.deblocking_filter_override_flag)],
      .cond (h.body.deblocking_filter_override_flag ≠ 0) [
        .fld "slice_deblocking_filter_disabled_flag" (putI h.body.slice_deblocking_filter_disabled_flag),
        .cond (h.body.slice_deblocking_filter_disabled_flag = 0) [
          .fld "slice_beta_offset_div2" (putD h.body.slice_beta_offset_div2),
          .fld "slice_tc_offset_div2" (putD h.body.slice_tc_offset_div2)]],
      .cond (P.head.pps_loop_filter_across_slices_enabled_flag ≠ 0 ∧ (h.body.slice_sao_luma_flag ≠ 0 ∨ h.body.slice_sao_chroma_flag ≠ 0 ∨ h.body.slice_deblocking_filter_disabled_flag = 0)) [
        .fld "slice_loop_filter_across_slices_enabled_flag" (putI h.body.slice_loop_filter_across_slices_enabled_flag)]],
    .cond (P.head.tiles_enabled_flag ≠ 0 ∨ P.head.entropy_coding_sync_enabled_flag ≠ 0) [
      .fld "num_entry_point_offsets" (putI h.body.num_entry_point_offsets),
      .cond (h.body.num_entry_point_offsets > 0) [
        .fld "offset_len_minus1" (putI h.body.offset_len_minus1),
        .lst "entry_point_offset_minus1" (Dump.item putI) h.body.entry_point_offset_minus1]],
    .cond (P.head.slice_segment_header_extension_present_flag ≠ 0) [
      .fld "slice_segment_header_extension_length" (putI h.body.slice_segment_header_extension_length),
      .lst "slice_segment_header_extension_data_byte" (Dump.item putI) h.body.slice_segment_header_extension_data_byte]]

/-- `fdump` of `slice_segment_header`, src/h265_slice_parser.cc:716-998 -/
def dumpSliceSegmentHeader (P : PpsBody) (S : SpsBody) (h : SliceSegmentHeader) : Dump := .blk "slice_segment_header" (dumpSliceSegmentHeader.items P S h)

/-- the statements between the braces of `slice_segment_layer { … }`, src/h265_slice_parser.cc:63-79 (the header of a slice_segment_layer that was returned is never null, src/h265_slice_parser.cc:49-56) -/
def dumpSliceSegmentLayer.items (P : PpsBody) (S : SpsBody) (h : SliceSegmentHeader) : List Dump :=
  [
    .on (dumpSliceSegmentHeader P S h)]

/-- `fdump` of `slice_segment_layer`, src/h265_slice_parser.cc:63-79 -/
def dumpSliceSegmentLayer (P : PpsBody) (S : SpsBody) (h : SliceSegmentHeader) : Dump := .blk "slice_segment_layer" (dumpSliceSegmentLayer.items P S h)

end H265
