/-
Every well-formed syntax structure stores at most linearly many values in the number of its bits.
-/
import Verif.Spec.Size
import Verif.Proof.Bits

namespace H265
open Spec

theorem size_nat (n : Nat) : size n = 1 := rfl
theorem size_int (n : Int) : size n = 1 := rfl
theorem size_profileType (n : ProfileType) : size n = 1 := rfl
theorem size_pair {α β : Type} [Size α] [Size β] (p : α × β) : size p = size p.1 + size p.2 := rfl
theorem size_none {α : Type} [Size α] : size (none : Option α) = 1 := rfl
theorem size_some {α : Type} [Size α] (a : α) : size (some a) = 1 + size a := rfl
theorem size_nil {α : Type} [Size α] : size ([] : List α) = 0 := rfl
theorem size_cons {α : Type} [Size α] (a : α) (l : List α) : size (a :: l) = size a + 1 + size l := by
  show (a :: l).length + ((a :: l).map size).sum = size a + 1 + (l.length + (l.map size).sum)
  simp only [List.length_cons, List.map_cons, List.sum_cons]; omega

theorem ue_pos (v : Nat) : 1 ≤ (ue v).length := by rw [ue_length]; omega
theorem se_pos (v : Int) : 1 ≤ (se v).length := ue_pos _

/-- a list whose elements cost at most `D` plus `C` per bit -/
theorem size_list_add {α : Type} [Size α] {W : α → List Bool} (D C : Nat) : ∀ {l : List α},
    (∀ a ∈ l, size a + 1 ≤ D + C * (W a).length) → size l ≤ D * l.length + C * (list W l).length
  | [], _ => by simp [size_nil]
  | a :: l, h => by
    have h1 := h a (by simp)
    have h2 := size_list_add D C (l := l) (W := W) fun x hx => h x (by simp [hx])
    rw [size_cons]
    simp only [list, List.map_cons, List.flatten_cons, List.length_append, List.length_cons, Nat.mul_add] at h2 ⊢
    omega

theorem size_list {α : Type} [Size α] {W : α → List Bool} (C : Nat) {l : List α}
    (h : ∀ a ∈ l, size a + 1 ≤ C * (W a).length) : size l ≤ C * (list W l).length := by
  have := size_list_add 0 C (l := l) (W := W) fun a ha => by have := h a ha; omega
  omega

theorem size_listI {α : Type} [Size α] {W : Nat → α → List Bool} (C : Nat) : ∀ {l : List α} {k : Nat},
    (∀ i a, l[i]? = some a → size a + 1 ≤ C * (W (k + i) a).length) → size l ≤ C * (listI W k l).length
  | [], _, _ => by simp [size_nil]
  | a :: l, k, h => by
    have h1 := h 0 a (by simp)
    have h2 := size_listI C (l := l) (k := k + 1) (W := W) fun i x hx => by
      have := h (i + 1) x (by simpa using hx)
      rwa [show k + (i + 1) = k + 1 + i by omega] at this
    rw [size_cons]
    simp only [listI, List.length_append, Nat.mul_add, Nat.add_zero] at h1 h2 ⊢
    omega

theorem size_cond {α : Type} [Size α] {l : List α} {c v : Prop} [Decidable c] {w : List Bool} (C : Nat)
    (h : Opt c v (l = [])) (hp : v → size l ≤ C * w.length) : size l ≤ C * (Spec.cond c w).length := by
  unfold Spec.cond
  split
  · rename_i hc; exact hp (h.present hc)
  · rename_i hc; rw [h.absent hc, size_nil]; omega

theorem size_optional {α : Type} [Size α] {W : α → List Bool} {V : α → Prop} {c : Prop} {o : Option α} (K C : Nat)
    (h : Maybe c V o) (hp : ∀ a, V a → size a ≤ K + C * (W a).length) : size o ≤ 1 + K + C * (optional W o).length := by
  cases o with
  | none => rw [size_none]; omega
  | some a => rw [size_some]; have := hp a (h.valid a rfl); simp only [Spec.optional]; omega

theorem size_list_u {n b : Nat} {l : List Nat} (hn : 1 ≤ n) (_h : Each b (· < 2 ^ n) l) : size l ≤ 2 * (list (u n) l).length :=
  size_list 2 fun a _ => by rw [u_length, size_nat]; omega

theorem each_pos {α : Type} {V : α → Prop} {W : α → List Bool} {l : List α} {n : Nat} (h : Each n V l) (hn : 0 < n)
    (hp : ∀ a, V a → 1 ≤ (W a).length) : 1 ≤ (list W l).length := by
  cases l with
  | nil => have := h.length; simp at this; omega
  | cons a l => have := hp a (h.valid a (by simp)); simp only [list, List.map_cons, List.flatten_cons, List.length_append]; omega

/-- lengths of a sequence of syntax elements -/
macro "lens" "[" ls:Lean.Parser.Tactic.simpLemma,* "]" : tactic =>
  `(tactic| simp only [Spec.seq, List.flatten_cons, List.flatten_nil, List.length_append, List.length_nil, u_length,
    size_nat, size_int, size_profileType, size_pair, $ls,*])

theorem NalUnitHeader.size_eq (s : NalUnitHeader) : size s = size s.forbidden_zero_bit + size s.nal_unit_type +
    size s.nuh_layer_id + size s.nuh_temporal_id_plus1 := rfl
theorem Aud.size_eq (s : Aud) : size s = size s.pic_type := rfl
theorem ProfileConstraints.size_eq (s : ProfileConstraints) : size s = size s.max_12bit_constraint_flag +
    size s.max_10bit_constraint_flag + size s.max_8bit_constraint_flag + size s.max_422chroma_constraint_flag +
    size s.max_420chroma_constraint_flag + size s.max_monochrome_constraint_flag +
    size s.intra_constraint_flag + size s.reserved_zero_7bits + size s.one_picture_only_constraint_flag +
    size s.lower_bit_rate_constraint_flag + size s.max_14bit_constraint_flag + size s.reserved_zero_33bits +
    size s.reserved_zero_34bits + size s.reserved_zero_35bits + size s.reserved_zero_43bits := rfl
theorem ProfileInfo.size_eq (s : ProfileInfo) : size s = size s.profile_space + size s.tier_flag +
    size s.profile_idc + size s.profile_compatibility_flag + size s.progressive_source_flag +
    size s.interlaced_source_flag + size s.non_packed_constraint_flag + size s.frame_only_constraint_flag +
    size s.constraints + size s.profile_type + size s.inbld_flag + size s.reserved_zero_bit := rfl
theorem ProfileTierLevel.size_eq (s : ProfileTierLevel) : size s = size s.general + size s.general_level_idc +
    size s.sub_layer_flags + size s.reserved_zero_2bits + size s.sub_layers := rfl
theorem SubLayerHrdEntry.size_eq (s : SubLayerHrdEntry) : size s = size s.bit_rate_value_minus1 +
    size s.cpb_size_value_minus1 + size s.cpb_size_du_value_minus1 + size s.bit_rate_du_value_minus1 +
    size s.cbr_flag := rfl
theorem HrdSubLayer.size_eq (s : HrdSubLayer) : size s = size s.fixed_pic_rate_general_flag +
    size s.fixed_pic_rate_within_cvs_flag + size s.elemental_duration_in_tc_minus1 + size s.low_delay_hrd_flag +
    size s.cpb_cnt_minus1 + size s.nal_hrd + size s.vcl_hrd := rfl
theorem HrdParameters.size_eq (s : HrdParameters) : size s = size s.nal_hrd_parameters_present_flag +
    size s.vcl_hrd_parameters_present_flag + size s.sub_pic_hrd_params_present_flag +
    size s.tick_divisor_minus2 + size s.du_cpb_removal_delay_increment_length_minus1 +
    size s.sub_pic_cpb_params_in_pic_timing_sei_flag + size s.dpb_output_delay_du_length_minus1 +
    size s.bit_rate_scale + size s.cpb_size_scale + size s.cpb_size_du_scale +
    size s.initial_cpb_removal_delay_length_minus1 + size s.au_cpb_removal_delay_length_minus1 +
    size s.dpb_output_delay_length_minus1 + size s.sub_layers := rfl
theorem SubLayerOrdering.size_eq (s : SubLayerOrdering) : size s = size s.max_dec_pic_buffering_minus1 +
    size s.max_num_reorder_pics + size s.max_latency_increase_plus1 := rfl
theorem VpsHrd.size_eq (s : VpsHrd) : size s = size s.hrd_layer_set_idx + size s.cprms_present_flag +
    size s.hrd_parameters := rfl
theorem VpsBody.size_eq (s : VpsBody) : size s = size s.vps_video_parameter_set_id +
    size s.vps_base_layer_internal_flag + size s.vps_base_layer_available_flag + size s.vps_max_layers_minus1 +
    size s.vps_max_sub_layers_minus1 + size s.vps_temporal_id_nesting_flag + size s.vps_reserved_0xffff_16bits +
    size s.profile_tier_level + size s.vps_sub_layer_ordering_info_present_flag + size s.sub_layer_ordering +
    size s.vps_max_layer_id + size s.vps_num_layer_sets_minus1 + size s.layer_id_included_flag +
    size s.vps_timing_info_present_flag + size s.vps_num_units_in_tick + size s.vps_time_scale +
    size s.vps_poc_proportional_to_timing_flag + size s.vps_num_ticks_poc_diff_one_minus1 +
    size s.vps_num_hrd_parameters + size s.hrds + size s.vps_extension_flag := rfl
theorem Vps.size_eq (s : Vps) : size s = size s.body + size s.vps_extension_data_flag := rfl
theorem VuiParameters.size_eq (s : VuiParameters) : size s = size s.aspect_ratio_info_present_flag +
    size s.aspect_ratio_idc + size s.sar_width + size s.sar_height + size s.overscan_info_present_flag +
    size s.overscan_appropriate_flag + size s.video_signal_type_present_flag + size s.video_format +
    size s.video_full_range_flag + size s.colour_description_present_flag + size s.colour_primaries +
    size s.transfer_characteristics + size s.matrix_coeffs + size s.chroma_loc_info_present_flag +
    size s.chroma_sample_loc_type_top_field + size s.chroma_sample_loc_type_bottom_field +
    size s.neutral_chroma_indication_flag + size s.field_seq_flag + size s.frame_field_info_present_flag +
    size s.default_display_window_flag + size s.def_disp_win_left_offset + size s.def_disp_win_right_offset +
    size s.def_disp_win_top_offset + size s.def_disp_win_bottom_offset + size s.vui_timing_info_present_flag +
    size s.vui_num_units_in_tick + size s.vui_time_scale + size s.vui_poc_proportional_to_timing_flag +
    size s.vui_num_ticks_poc_diff_one_minus1 + size s.vui_hrd_parameters_present_flag + size s.hrd_parameters +
    size s.bitstream_restriction_flag + size s.tiles_fixed_structure_flag +
    size s.motion_vectors_over_pic_boundaries_flag + size s.restricted_ref_pic_lists_flag +
    size s.min_spatial_segmentation_idc + size s.max_bytes_per_pic_denom + size s.max_bits_per_min_cu_denom +
    size s.log2_max_mv_length_horizontal + size s.log2_max_mv_length_vertical := rfl
theorem ScalingCoef.size_eq (s : ScalingCoef) : size s = size s.delta + size s.coef := rfl
theorem ScalingMatrix.size_eq (s : ScalingMatrix) : size s = size s.scaling_list_pred_mode_flag +
    size s.scaling_list_pred_matrix_id_delta + size s.scaling_list_dc_coef_minus8 + size s.coefs := rfl
theorem ScalingListData.size_eq (s : ScalingListData) : size s = size s.sizes := rfl
theorem RpsEntry.size_eq (s : RpsEntry) : size s = size s.delta_poc_minus1 + size s.used_by_curr_pic := rfl
theorem RpsFlags.size_eq (s : RpsFlags) : size s = size s.used_by_curr_pic_flag + size s.use_delta_flag := rfl
theorem StRefPicSet.size_eq (s : StRefPicSet) : size s = size s.inter_ref_pic_set_prediction_flag +
    size s.delta_idx_minus1 + size s.delta_rps_sign + size s.abs_delta_rps_minus1 + size s.flags +
    size s.num_negative_pics + size s.num_positive_pics + size s.s0 + size s.s1 := rfl
theorem SpsRangeExtension.size_eq (s : SpsRangeExtension) : size s = 
    size s.transform_skip_rotation_enabled_flag + size s.transform_skip_context_enabled_flag +
    size s.implicit_rdpcm_enabled_flag + size s.explicit_rdpcm_enabled_flag +
    size s.extended_precision_processing_flag + size s.intra_smoothing_disabled_flag +
    size s.high_precision_offsets_enabled_flag + size s.persistent_rice_adaptation_enabled_flag +
    size s.cabac_bypass_alignment_enabled_flag := rfl
theorem SpsMultilayerExtension.size_eq (s : SpsMultilayerExtension) : size s = 
    size s.inter_view_mv_vert_constraint_flag := rfl
theorem Sps3dExtension.size_eq (s : Sps3dExtension) : size s = size s.iv_di_mc_enabled_flag_0 +
    size s.iv_mv_scal_enabled_flag_0 + size s.log2_ivmc_sub_pb_size_minus3 + size s.iv_res_pred_enabled_flag +
    size s.depth_ref_enabled_flag + size s.vsp_mc_enabled_flag + size s.dbbp_enabled_flag +
    size s.iv_di_mc_enabled_flag_1 + size s.iv_mv_scal_enabled_flag_1 + size s.tex_mc_enabled_flag +
    size s.log2_texmc_sub_pb_size_minus3 + size s.intra_contour_enabled_flag +
    size s.intra_dc_only_wedge_enabled_flag + size s.cqt_cu_part_pred_enabled_flag +
    size s.inter_dc_only_enabled_flag + size s.skip_intra_enabled_flag := rfl
theorem SpsSccExtension.size_eq (s : SpsSccExtension) : size s = size s.sps_curr_pic_ref_enabled_flag +
    size s.palette_mode_enabled_flag + size s.palette_max_size + size s.delta_palette_max_predictor_size +
    size s.sps_palette_predictor_initializers_present_flag +
    size s.sps_num_palette_predictor_initializers_minus1 + size s.sps_palette_predictor_initializers +
    size s.motion_vector_resolution_control_idc + size s.intra_boundary_filtering_disabled_flag := rfl
theorem SpsSubLayerOrdering.size_eq (s : SpsSubLayerOrdering) : size s = 
    size s.sps_max_dec_pic_buffering_minus1 + size s.sps_max_num_reorder_pics +
    size s.sps_max_latency_increase_plus1 := rfl
theorem LtRefPicSps.size_eq (s : LtRefPicSps) : size s = size s.lt_ref_pic_poc_lsb_sps +
    size s.used_by_curr_pic_lt_sps_flag := rfl
theorem SpsBody.size_eq (s : SpsBody) : size s = size s.sps_video_parameter_set_id +
    size s.sps_max_sub_layers_minus1 + size s.sps_temporal_id_nesting_flag + size s.profile_tier_level +
    size s.sps_seq_parameter_set_id + size s.chroma_format_idc + size s.separate_colour_plane_flag +
    size s.pic_width_in_luma_samples + size s.pic_height_in_luma_samples + size s.conformance_window_flag +
    size s.conf_win_left_offset + size s.conf_win_right_offset + size s.conf_win_top_offset +
    size s.conf_win_bottom_offset + size s.bit_depth_luma_minus8 + size s.bit_depth_chroma_minus8 +
    size s.log2_max_pic_order_cnt_lsb_minus4 + size s.sps_sub_layer_ordering_info_present_flag +
    size s.sub_layer_ordering + size s.log2_min_luma_coding_block_size_minus3 +
    size s.log2_diff_max_min_luma_coding_block_size + size s.log2_min_luma_transform_block_size_minus2 +
    size s.log2_diff_max_min_luma_transform_block_size + size s.max_transform_hierarchy_depth_inter +
    size s.max_transform_hierarchy_depth_intra + size s.scaling_list_enabled_flag +
    size s.sps_scaling_list_data_present_flag + size s.scaling_list_data + size s.amp_enabled_flag +
    size s.sample_adaptive_offset_enabled_flag + size s.pcm_enabled_flag +
    size s.pcm_sample_bit_depth_luma_minus1 + size s.pcm_sample_bit_depth_chroma_minus1 +
    size s.log2_min_pcm_luma_coding_block_size_minus3 + size s.log2_diff_max_min_pcm_luma_coding_block_size +
    size s.pcm_loop_filter_disabled_flag + size s.num_short_term_ref_pic_sets + size s.st_ref_pic_set +
    size s.long_term_ref_pics_present_flag + size s.num_long_term_ref_pics_sps + size s.lt_ref_pics +
    size s.sps_temporal_mvp_enabled_flag + size s.strong_intra_smoothing_enabled_flag +
    size s.vui_parameters_present_flag + size s.vui_parameters + size s.sps_extension_present_flag +
    size s.sps_range_extension_flag + size s.sps_multilayer_extension_flag + size s.sps_3d_extension_flag +
    size s.sps_scc_extension_flag + size s.sps_extension_4bits + size s.sps_range_extension +
    size s.sps_multilayer_extension + size s.sps_3d_extension + size s.sps_scc_extension := rfl
theorem Sps.size_eq (s : Sps) : size s = size s.body + size s.sps_extension_data_flag := rfl
theorem RefLayerOffsets.size_eq (s : RefLayerOffsets) : size s = size s.scaled_ref_layer_left_offset +
    size s.scaled_ref_layer_top_offset + size s.scaled_ref_layer_right_offset +
    size s.scaled_ref_layer_bottom_offset := rfl
theorem RefRegionOffsets.size_eq (s : RefRegionOffsets) : size s = size s.ref_region_left_offset +
    size s.ref_region_top_offset + size s.ref_region_right_offset + size s.ref_region_bottom_offset := rfl
theorem ResamplePhase.size_eq (s : ResamplePhase) : size s = size s.phase_hor_luma + size s.phase_ver_luma +
    size s.phase_hor_chroma_plus8 + size s.phase_ver_chroma_plus8 := rfl
theorem RefLocOffset.size_eq (s : RefLocOffset) : size s = size s.ref_loc_offset_layer_id +
    size s.scaled_ref_layer_offset_present_flag + size s.scaled_ref_layer_offset +
    size s.ref_region_offset_present_flag + size s.ref_region_offset + size s.resample_phase_set_present_flag +
    size s.resample_phase_set := rfl
theorem PpsMultilayerExtension.size_eq (s : PpsMultilayerExtension) : size s = 
    size s.poc_reset_info_present_flag + size s.pps_infer_scaling_list_flag +
    size s.pps_scaling_list_ref_layer_id + size s.num_ref_loc_offsets + size s.ref_loc_offset +
    size s.colour_mapping_enabled_flag := rfl
theorem PpsSccExtension.size_eq (s : PpsSccExtension) : size s = size s.pps_curr_pic_ref_enabled_flag +
    size s.residual_adaptive_colour_transform_enabled_flag + size s.pps_slice_act_qp_offsets_present_flag +
    size s.pps_act_y_qp_offset_plus5 + size s.pps_act_cb_qp_offset_plus5 + size s.pps_act_cr_qp_offset_plus3 +
    size s.pps_palette_predictor_initializer_present_flag + size s.pps_num_palette_predictor_initializer +
    size s.monochrome_palette_flag + size s.luma_bit_depth_entry_minus8 + size s.chroma_bit_depth_entry_minus8 +
    size s.pps_palette_predictor_initializers := rfl
theorem PpsHead.size_eq (s : PpsHead) : size s = size s.pps_pic_parameter_set_id +
    size s.pps_seq_parameter_set_id + size s.dependent_slice_segments_enabled_flag +
    size s.output_flag_present_flag + size s.num_extra_slice_header_bits +
    size s.sign_data_hiding_enabled_flag + size s.cabac_init_present_flag +
    size s.num_ref_idx_l0_default_active_minus1 + size s.num_ref_idx_l1_default_active_minus1 +
    size s.init_qp_minus26 + size s.constrained_intra_pred_flag + size s.transform_skip_enabled_flag +
    size s.cu_qp_delta_enabled_flag + size s.diff_cu_qp_delta_depth + size s.pps_cb_qp_offset +
    size s.pps_cr_qp_offset + size s.pps_slice_chroma_qp_offsets_present_flag + size s.weighted_pred_flag +
    size s.weighted_bipred_flag + size s.transquant_bypass_enabled_flag + size s.tiles_enabled_flag +
    size s.entropy_coding_sync_enabled_flag + size s.num_tile_columns_minus1 + size s.num_tile_rows_minus1 +
    size s.uniform_spacing_flag + size s.column_width_minus1 + size s.row_height_minus1 +
    size s.loop_filter_across_tiles_enabled_flag + size s.pps_loop_filter_across_slices_enabled_flag +
    size s.deblocking_filter_control_present_flag + size s.deblocking_filter_override_enabled_flag +
    size s.pps_deblocking_filter_disabled_flag + size s.pps_beta_offset_div2 + size s.pps_tc_offset_div2 +
    size s.pps_scaling_list_data_present_flag + size s.scaling_list_data +
    size s.lists_modification_present_flag + size s.log2_parallel_merge_level_minus2 +
    size s.slice_segment_header_extension_present_flag + size s.pps_extension_present_flag +
    size s.pps_range_extension_flag + size s.pps_multilayer_extension_flag + size s.pps_3d_extension_flag +
    size s.pps_scc_extension_flag + size s.pps_extension_4bits := rfl
theorem PpsBody.size_eq (s : PpsBody) : size s = size s.head + size s.pps_multilayer_extension +
    size s.pps_scc_extension := rfl
theorem Pps.size_eq (s : Pps) : size s = size s.body + size s.pps_extension_data_flag := rfl
theorem LumaWeight.size_eq (s : LumaWeight) : size s = size s.delta_luma_weight_l0 + size s.luma_offset_l0 := rfl
theorem ChromaWeight.size_eq (s : ChromaWeight) : size s = size s.delta_chroma_weight_l0_0 +
    size s.delta_chroma_offset_l0_0 + size s.delta_chroma_weight_l0_1 + size s.delta_chroma_offset_l0_1 := rfl
theorem PredWeight.size_eq (s : PredWeight) : size s = size s.luma + size s.chroma := rfl
theorem PredWeightTable.size_eq (s : PredWeightTable) : size s = size s.luma_log2_weight_denom +
    size s.delta_chroma_log2_weight_denom + size s.luma_weight_l0_flag + size s.chroma_weight_l0_flag +
    size s.weights := rfl
theorem LtRefPicHead.size_eq (s : LtRefPicHead) : size s = size s.lt_idx_sps + size s.poc_lsb_lt +
    size s.used_by_curr_pic_lt_flag + size s.delta_poc_msb_present_flag := rfl
theorem LtRefPic.size_eq (s : LtRefPic) : size s = size s.head + size s.delta_poc_msb_cycle_lt := rfl
theorem SliceHead.size_eq (s : SliceHead) : size s = size s.first_slice_segment_in_pic_flag +
    size s.no_output_of_prior_pics_flag + size s.slice_pic_parameter_set_id := rfl
theorem SliceBody.size_eq (s : SliceBody) : size s = size s.dependent_slice_segment_flag +
    size s.slice_segment_address + size s.slice_reserved_flag + size s.slice_type + size s.pic_output_flag +
    size s.colour_plane_id + size s.slice_pic_order_cnt_lsb + size s.short_term_ref_pic_set_sps_flag +
    size s.st_ref_pic_set + size s.short_term_ref_pic_set_idx + size s.num_long_term_sps +
    size s.num_long_term_pics + size s.lt_ref_pics + size s.slice_temporal_mvp_enabled_flag +
    size s.slice_sao_luma_flag + size s.slice_sao_chroma_flag + size s.num_ref_idx_active_override_flag +
    size s.num_ref_idx_l0_active_minus1 + size s.num_ref_idx_l1_active_minus1 + size s.mvd_l1_zero_flag +
    size s.cabac_init_flag + size s.collocated_from_l0_flag + size s.collocated_ref_idx +
    size s.pred_weight_table + size s.five_minus_max_num_merge_cand + size s.use_integer_mv_flag +
    size s.slice_qp_delta + size s.slice_cb_qp_offset + size s.slice_cr_qp_offset +
    size s.act_qp_offsets_present + size s.slice_act_y_qp_offset + size s.slice_act_cb_qp_offset +
    size s.slice_act_cr_qp_offset + size s.deblocking_filter_override_flag +
    size s.slice_deblocking_filter_disabled_flag + size s.slice_beta_offset_div2 + size s.slice_tc_offset_div2 +
    size s.slice_loop_filter_across_slices_enabled_flag + size s.num_entry_point_offsets +
    size s.offset_len_minus1 + size s.entry_point_offset_minus1 + size s.slice_segment_header_extension_length +
    size s.slice_segment_header_extension_data_byte := rfl
theorem SliceSegmentHeader.size_eq (s : SliceSegmentHeader) : size s = size s.nal_unit_type + size s.head +
    size s.body := rfl
theorem SeiUserDataRegistered.size_eq (s : SeiUserDataRegistered) : size s = size s.itu_t_t35_country_code +
    size s.itu_t_t35_country_code_extension_byte + size s.payload := rfl
theorem SeiUserDataUnregistered.size_eq (s : SeiUserDataUnregistered) : size s = size s.uuid_iso_iec_11578_1 +
    size s.uuid_iso_iec_11578_2 + size s.payload := rfl
theorem SeiAlphaChannelInfo.size_eq (s : SeiAlphaChannelInfo) : size s = size s.alpha_channel_cancel_flag +
    size s.alpha_channel_use_idc + size s.alpha_channel_bit_depth_minus8 + size s.alpha_transparent_value +
    size s.alpha_opaque_value + size s.alpha_channel_incr_flag + size s.alpha_channel_clip_flag +
    size s.alpha_channel_clip_type_flag := rfl
theorem SeiPrimaries.size_eq (s : SeiPrimaries) : size s = size s.x + size s.y := rfl
theorem SeiMasteringDisplay.size_eq (s : SeiMasteringDisplay) : size s = size s.display_primaries +
    size s.white_point_x + size s.white_point_y + size s.max_display_mastering_luminance +
    size s.min_display_mastering_luminance := rfl
theorem SeiContentLightLevel.size_eq (s : SeiContentLightLevel) : size s = size s.max_content_light_level +
    size s.max_pic_average_light_level := rfl
theorem SeiKneePoint.size_eq (s : SeiKneePoint) : size s = size s.input_knee_point + size s.output_knee_point := rfl
theorem SeiKneeFunction.size_eq (s : SeiKneeFunction) : size s = size s.knee_function_id +
    size s.knee_function_cancel_flag + size s.knee_function_persistence_flag + size s.input_d_range +
    size s.input_disp_luminance + size s.output_d_range + size s.output_disp_luminance +
    size s.num_knee_points_minus1 + size s.knee_points := rfl
theorem SeiLutEntry.size_eq (s : SeiLutEntry) : size s = size s.coded_value + size s.target_value := rfl
theorem SeiLut.size_eq (s : SeiLut) : size s = size s.num_val_minus1 + size s.entries := rfl
theorem SeiColourRemapping.size_eq (s : SeiColourRemapping) : size s = size s.colour_remap_id +
    size s.colour_remap_cancel_flag + size s.colour_remap_persistence_flag +
    size s.colour_remap_video_signal_info_present_flag + size s.colour_remap_full_range_flag +
    size s.colour_remap_primaries + size s.colour_remap_transfer_function +
    size s.colour_remap_matrix_coefficients + size s.colour_remap_input_bit_depth +
    size s.colour_remap_output_bit_depth + size s.pre_lut + size s.colour_remap_matrix_present_flag +
    size s.log2_matrix_denom + size s.colour_remap_coeffs + size s.post_lut := rfl
theorem SeiCcvPrimaries.size_eq (s : SeiCcvPrimaries) : size s = size s.x + size s.y := rfl
theorem SeiContentColourVolume.size_eq (s : SeiContentColourVolume) : size s = size s.ccv_cancel_flag +
    size s.ccv_persistence_flag + size s.ccv_primaries_present_flag +
    size s.ccv_min_luminance_value_present_flag + size s.ccv_max_luminance_value_present_flag +
    size s.ccv_avg_luminance_value_present_flag + size s.ccv_reserved_zero_2bits + size s.ccv_primaries +
    size s.ccv_min_luminance_value + size s.ccv_max_luminance_value + size s.ccv_avg_luminance_value := rfl
theorem SeiAlternativeTransfer.size_eq (s : SeiAlternativeTransfer) : size s = 
    size s.preferred_transfer_characteristics := rfl
theorem SeiAmbientViewing.size_eq (s : SeiAmbientViewing) : size s = size s.ambient_illuminance +
    size s.ambient_light_x + size s.ambient_light_y := rfl
theorem SeiUnknown.size_eq (s : SeiUnknown) : size s = size s.payload := rfl
theorem SeiMessage.size_eq (s : SeiMessage) : size s = size s.payload_type + size s.payload_size +
    size s.payload_state := rfl

/-! ### profile, tier and level -/

theorem size_profileInfo {p : ProfileInfo} (h : ValidProfileInfo p) : size p ≤ 25 + 2 * (profileInfo p).length ∧ 1 ≤ (profileInfo p).length := by
  have h1 := size_list_u (by omega) h.profile_compatibility_flag
  unfold profileInfo
  lens [ProfileInfo.size_eq, ProfileConstraints.size_eq]
  omega

theorem size_ptl {present : Bool} {m : Nat} {p : ProfileTierLevel} (h : ValidProfileTierLevel present m p) :
    size p ≤ 27 + 30 * (profileTierLevel p).length := by
  have h1 := size_optional (W := profileInfo) 25 2 h.general fun a ha => (size_profileInfo ha).1
  have h2 : size p.sub_layer_flags ≤ 2 * (list (fun f : Nat × Nat => u 1 f.1 ++ u 1 f.2) p.sub_layer_flags).length :=
    size_list 2 fun a _ => by lens []; omega
  have h3 := size_list_u (by omega) h.reserved_zero_2bits
  have h4 : size p.sub_layers ≤ 2 * p.sub_layers.length + 30 * (list (Spec.optional subLayerProfile) p.sub_layers).length := by
    refine size_list_add 2 30 fun a ha => ?_
    obtain ⟨i, hi⟩ := List.getElem?_of_mem ha
    have hv := h.sub_layers.valid i a hi
    cases a with
    | none => rw [size_none]; omega
    | some x =>
      have := size_profileInfo (hv.valid x rfl).1
      rw [size_some]
      simp only [Spec.optional, subLayerProfile]
      lens []
      omega
  have h5 : 2 * p.sub_layer_flags.length ≤ (list (fun f : Nat × Nat => u 1 f.1 ++ u 1 f.2) p.sub_layer_flags).length := by
    generalize p.sub_layer_flags = l
    induction l with
    | nil => simp
    | cons a l ih => simp only [list, List.map_cons, List.flatten_cons, List.length_append, List.length_cons, u_length] at ih ⊢; omega
  have h6 := h.sub_layers.length
  have h7 := h.sub_layer_flags.length
  unfold profileTierLevel
  lens [ProfileTierLevel.size_eq]
  omega

/-! ### hypothetical reference decoder, VUI, VPS -/

theorem size_hrdEntry {sp : Nat} {s : SubLayerHrdEntry} (_h : ValidSubLayerHrdEntry sp s) : size s + 1 ≤ 6 * (subLayerHrdEntry sp s).length := by
  unfold subLayerHrdEntry
  lens [SubLayerHrdEntry.size_eq]
  omega

theorem size_hrdEntries {sp n : Nat} {l : List SubLayerHrdEntry} (h : Each n (ValidSubLayerHrdEntry sp) l) :
    size l ≤ 0 + 6 * (list (subLayerHrdEntry sp) l).length := by
  have := size_list 6 (W := subLayerHrdEntry sp) (l := l) fun a ha => size_hrdEntry (h.valid a ha)
  omega

theorem size_hrdSubLayer {nal vcl sp : Nat} {s : HrdSubLayer} (h : ValidHrdSubLayer nal vcl sp s) : size s + 1 ≤ 8 * (hrdSubLayer sp s).length := by
  have h1 := size_optional (W := list (subLayerHrdEntry sp)) 0 6 h.nal_hrd fun a ha => size_hrdEntries ha
  have h2 := size_optional (W := list (subLayerHrdEntry sp)) 0 6 h.vcl_hrd fun a ha => size_hrdEntries ha
  unfold hrdSubLayer
  lens [HrdSubLayer.size_eq]
  omega

theorem size_hrd {common m : Nat} {s : HrdParameters} (h : ValidHrdParameters common m s) : size s ≤ 13 + 8 * (hrdParameters common s).length := by
  have h1 := size_list 8 (W := hrdSubLayer s.sub_pic_hrd_params_present_flag) fun a ha => size_hrdSubLayer (h.sub_layers.valid a ha)
  unfold hrdParameters
  lens [HrdParameters.size_eq]
  omega

theorem size_vui {m : Nat} {s : VuiParameters} (h : ValidVuiParameters m s) : size s ≤ 53 + 8 * (vuiParameters s).length := by
  have h1 := size_optional (W := hrdParameters 1) 13 8 h.hrd_parameters fun a ha => size_hrd ha
  unfold vuiParameters
  lens [VuiParameters.size_eq]
  omega

theorem size_vps {s : VpsBody} (h : ValidVpsBody s) : size s ≤ 44 + 30 * (vpsBody s).length := by
  have h1 := size_ptl h.profile_tier_level
  have h2 : size s.sub_layer_ordering ≤ 4 * (list subLayerOrdering s.sub_layer_ordering).length := size_list 4 fun a _ => by
    have := ue_pos a.max_dec_pic_buffering_minus1
    unfold subLayerOrdering; lens [SubLayerOrdering.size_eq]; omega
  have h3 : size s.layer_id_included_flag ≤ 3 * (list (list (u 1)) s.layer_id_included_flag).length := size_list 3 fun a ha => by
    have hv := h.layer_id_included_flag.valid a ha
    have := size_list_u (by omega) hv
    have := each_pos hv (by omega) (W := u 1) fun a _ => by rw [u_length]; omega
    omega
  have h4 : size s.hrds ≤ 24 * (listI (fun i => vpsHrd i) 0 s.hrds).length := size_listI 24 fun i a ha => by
    have := size_hrd (h.hrds.valid i a ha).hrd_parameters
    have := ue_pos a.hrd_layer_set_idx
    unfold vpsHrd; lens [VpsHrd.size_eq]; omega
  unfold vpsBody
  lens [VpsBody.size_eq]
  omega

/-! ### scaling lists and reference picture sets -/

theorem size_scalingMatrix (k : Nat) (m : ScalingMatrix) : size m + 1 ≤ 4 * (scalingMatrix k m).length := by
  have h1 : size m.coefs ≤ 3 * (list (fun c : ScalingCoef => se c.delta) m.coefs).length := size_list 3 fun a _ => by
    have := se_pos a.delta
    lens [ScalingCoef.size_eq]; omega
  unfold scalingMatrix
  lens [ScalingMatrix.size_eq]
  omega

theorem size_scaling {s : ScalingListData} (h : ValidScalingListData s) : size s ≤ 0 + 5 * (scalingListData s).length := by
  have h1 : size s.sizes ≤ 5 * (listI (fun k => list (scalingMatrix k)) 0 s.sizes).length := size_listI 5 fun i a ha => by
    have hv := EachI.valid h i a ha
    have h1 := size_list 4 (l := a) (W := scalingMatrix (0 + i)) fun m _ => size_scalingMatrix _ m
    have h2 := each_pos hv (by split <;> omega) (W := scalingMatrix (0 + i)) fun m _ => by
      unfold scalingMatrix; lens []; omega
    omega
  unfold scalingListData
  lens [ScalingListData.size_eq]
  omega

theorem size_rpsEntries (l : List RpsEntry) : size l = 3 * l.length := by
  induction l with
  | nil => rfl
  | cons a l ih => rw [size_cons, ih, RpsEntry.size_eq]; simp only [size_nat, List.length_cons]; omega

theorem differences_len (sgn : Int) : ∀ (p : Int) (l : List (Int × Nat)), (differences sgn p l).length = l.length
  | _, [] => rfl
  | _, (d, _) :: l => by simp [differences, differences_len sgn d l]

theorem deltaPocs_len (sgn : Int) : ∀ (p : Int) (l : List RpsEntry), (deltaPocs sgn p l).length = l.length
  | _, [] => rfl
  | _, e :: l => by simp [deltaPocs, deltaPocs_len sgn _ l]

theorem list_length_ge {α : Type} {W : α → List Bool} : ∀ {l : List α}, (∀ a ∈ l, 1 ≤ (W a).length) → l.length ≤ (list W l).length
  | [], _ => by simp
  | a :: l, h => by
    have h1 := h a (by simp)
    have h2 := list_length_ge (l := l) (W := W) fun x hx => h x (by simp [hx])
    simp only [list, List.map_cons, List.flatten_cons, List.length_append, List.length_cons] at h2 ⊢
    omega

theorem size_rps {idx num m : Nat} {prev : List StRefPicSet} {s : StRefPicSet} (h : ValidStRefPicSet idx num prev m s) :
    size s + 1 ≤ 9 * (stRefPicSet idx num s).length := by
  have hf : size s.flags ≤ 3 * (list rpsFlags s.flags).length := size_list 3 fun a _ => by
    unfold rpsFlags; lens [RpsFlags.size_eq]; omega
  have hfl : s.flags.length ≤ (list rpsFlags s.flags).length := list_length_ge fun a _ => by
    unfold rpsFlags; lens []; omega
  have h0 : s.s0.length ≤ (list rpsEntry s.s0).length := list_length_ge fun a _ => by
    unfold rpsEntry; lens []; omega
  have h1 : s.s1.length ≤ (list rpsEntry s.s1).length := list_length_ge fun a _ => by
    unfold rpsEntry; lens []; omega
  have hn := ue_pos s.num_negative_pics
  have hp := ue_pos s.num_positive_pics
  have ha := ue_pos s.abs_delta_rps_minus1
  unfold stRefPicSet
  rcases h.2 with he | ⟨_, hi⟩
  · rw [if_neg (by simp [he.inter_ref_pic_set_prediction_flag])]
    lens [StRefPicSet.size_eq, size_rpsEntries]
    rw [he.flags, size_nil]
    omega
  · rw [if_pos (by simp [hi.inter_ref_pic_set_prediction_flag])]
    have hl := hi.flags.length
    have e0 : s.s0.length ≤ s.flags.length := by
      rw [hi.derived.s0, differences_len, derivedS0, List.length_map]
      refine Nat.le_trans (List.length_filter_le _ _) ?_
      simp only [candS0, List.length_append, List.length_reverse, List.length_zip, List.length_cons, deltaPocs_len, List.length_drop]
      omega
    have e1 : s.s1.length ≤ s.flags.length := by
      rw [hi.derived.s1, differences_len, derivedS1, List.length_map]
      refine Nat.le_trans (List.length_filter_le _ _) ?_
      simp only [candS1, List.length_append, List.length_reverse, List.length_zip, List.length_cons, deltaPocs_len, List.length_drop]
      omega
    lens [StRefPicSet.size_eq, size_rpsEntries]
    omega

/-! ### SPS -/

theorem size_spsScc {c l ch : Nat} {s : SpsSccExtension} (h : ValidSpsSccExtension c l ch s) : size s ≤ 8 + 3 * (spsSccExtension l ch s).length := by
  have h1 := size_cond 3 (w := listI (fun comp => list (u (if comp = 0 then 8 + l else 8 + ch))) 0 s.sps_palette_predictor_initializers)
    h.sps_palette_predictor_initializers fun hv => size_listI 3 fun i a ha => by
      have hv := hv.valid i a ha
      have hu : ∀ v, 1 ≤ (u (if 0 + i = 0 then 8 + l else 8 + ch) v).length := fun v => by rw [u_length]; split <;> omega
      have h1 := size_list 2 (l := a) (W := u (if 0 + i = 0 then 8 + l else 8 + ch)) fun m _ => by rw [size_nat]; have := hu m; omega
      have h2 := each_pos hv (by omega) fun v _ => hu v
      omega
  unfold spsSccExtension
  lens [SpsSccExtension.size_eq]
  omega

theorem size_sps {s : SpsBody} (h : ValidSpsBody s) : size s ≤ 180 + 30 * (spsBody s).length := by
  have h1 := size_ptl h.profile_tier_level
  have h2 : size s.sub_layer_ordering ≤ 4 * (list spsSubLayerOrdering s.sub_layer_ordering).length := size_list 4 fun a _ => by
    have := ue_pos a.sps_max_dec_pic_buffering_minus1
    unfold spsSubLayerOrdering; lens [SpsSubLayerOrdering.size_eq]; omega
  have h3 := size_optional (W := scalingListData) 0 5 h.scaling_list_data fun a ha => size_scaling ha
  have h4 : size s.st_ref_pic_set ≤ 9 * (stRefPicSets s.num_short_term_ref_pic_sets s.st_ref_pic_set).length :=
    size_listI 9 fun i a ha => by
      have := size_rps (h.st_ref_pic_set.valid i a ha)
      rwa [Nat.zero_add]
  have h5 : size s.lt_ref_pics ≤ 3 * (list (ltRefPicSps (s.log2_max_pic_order_cnt_lsb_minus4 + 4)) s.lt_ref_pics).length :=
    size_list 3 fun a _ => by unfold ltRefPicSps; lens [LtRefPicSps.size_eq]; omega
  have h6 := size_optional (W := vuiParameters) 53 8 h.vui_parameters fun a ha => size_vui ha
  have h7 := size_optional (W := spsRangeExtension) 9 0 h.sps_range_extension fun a ha => by lens [SpsRangeExtension.size_eq]; omega
  have h8 := size_optional (W := spsMultilayerExtension) 1 0 h.sps_multilayer_extension fun a ha => by lens [SpsMultilayerExtension.size_eq]; omega
  have h9 := size_optional (W := sps3dExtension) 16 0 h.sps_3d_extension fun a ha => by lens [Sps3dExtension.size_eq]; omega
  have h10 := size_optional (W := spsSccExtension s.bit_depth_luma_minus8 s.bit_depth_chroma_minus8) 8 3 h.sps_scc_extension fun a ha => size_spsScc ha
  unfold spsBody
  lens [SpsBody.size_eq]
  omega

/-! ### PPS -/

theorem size_ppsMultilayer {s : PpsMultilayerExtension} (h : ValidPpsMultilayerExtension s) :
    size s ≤ 5 + 20 * (ppsMultilayerExtension s).length := by
  have h1 : size s.ref_loc_offset ≤ 20 * (list refLocOffset s.ref_loc_offset).length := size_list 20 fun a ha => by
    have hv := h.ref_loc_offset.valid a ha
    have h1 := size_optional (W := refLayerOffsets) 4 0 hv.scaled_ref_layer_offset fun a ha => by lens [RefLayerOffsets.size_eq]; omega
    have h2 := size_optional (W := refRegionOffsets) 4 0 hv.ref_region_offset fun a ha => by lens [RefRegionOffsets.size_eq]; omega
    have h3 := size_optional (W := resamplePhase) 4 0 hv.resample_phase_set fun a ha => by lens [ResamplePhase.size_eq]; omega
    unfold refLocOffset
    lens [RefLocOffset.size_eq]; omega
  unfold ppsMultilayerExtension
  lens [PpsMultilayerExtension.size_eq]
  omega

theorem size_ppsScc {s : PpsSccExtension} (h : ValidPpsSccExtension s) : size s ≤ 11 + 3 * (ppsSccExtension s).length := by
  have h1 : size s.pps_palette_predictor_initializers ≤ 3 * (Spec.cond (s.pps_num_palette_predictor_initializer > 0)
      (listI (fun comp => list (u (if comp = 0 then (s.luma_bit_depth_entry_minus8 + 8) % 2 ^ 32 else (s.chroma_bit_depth_entry_minus8 + 8) % 2 ^ 32))) 0 s.pps_palette_predictor_initializers)).length := by
    unfold Spec.cond
    split
    · rename_i hc
      refine size_listI 3 fun i a ha => ?_
      have hv := (h.pps_palette_predictor_initializers.present hc).valid i a ha
      simp only [Nat.zero_add]
      have h1 := size_list 2 (l := a) (W := u (if i = 0 then (s.luma_bit_depth_entry_minus8 + 8) % 2 ^ 32 else (s.chroma_bit_depth_entry_minus8 + 8) % 2 ^ 32)) fun m hm => by
        rw [size_nat, u_length]; have := (hv.valid m hm).pos; omega
      have h2 := each_pos hv hc (W := u (if i = 0 then (s.luma_bit_depth_entry_minus8 + 8) % 2 ^ 32 else (s.chroma_bit_depth_entry_minus8 + 8) % 2 ^ 32)) fun v hv => by
        rw [u_length]; exact hv.pos
      omega
    · rename_i hc; rw [h.pps_palette_predictor_initializers.absent hc, size_nil]; omega
  unfold ppsSccExtension
  lens [PpsSccExtension.size_eq]
  omega

theorem size_ppsHead {s : PpsHead} (h : ValidPpsHead s) : size s ≤ 44 + 5 * (ppsHead s).length := by
  have h1 := size_cond 2 (w := list ue s.column_width_minus1) h.column_width_minus1 fun _ => size_list 2 fun a _ => by
    have := ue_pos a; rw [size_nat]; omega
  have h2 := size_cond 2 (w := list ue s.row_height_minus1) h.row_height_minus1 fun _ => size_list 2 fun a _ => by
    have := ue_pos a; rw [size_nat]; omega
  have h3 := size_optional (W := scalingListData) 0 5 h.scaling_list_data fun a ha => size_scaling ha
  unfold ppsHead
  lens [PpsHead.size_eq]
  omega

/-! ### slice segment header -/

theorem size_pwt {c n : Nat} {s : PredWeightTable} (h : ValidPredWeightTable c n s) : size s ≤ 2 + 30 * (predWeightTable c s).length := by
  have h1 := size_list_u (by omega) h.luma_weight_l0_flag
  have h2 := size_cond 2 (w := list (u 1) s.chroma_weight_l0_flag) h.chroma_weight_l0_flag fun hv => size_list_u (by omega) hv
  have h3 : size s.weights ≤ 9 * s.weights.length + 0 * (list predWeight s.weights).length := size_list_add 9 0 fun a ha => by
    obtain ⟨i, hi⟩ := List.getElem?_of_mem ha
    have hv := h.weights.valid i a hi
    have h1 := size_optional (W := lumaWeight) 2 0 hv.luma fun a ha => by lens [LumaWeight.size_eq]; omega
    have h2 := size_optional (W := chromaWeight) 4 0 hv.chroma fun a ha => by lens [ChromaWeight.size_eq]; omega
    rw [PredWeight.size_eq]; omega
  have h4 : s.luma_weight_l0_flag.length ≤ (list (u 1) s.luma_weight_l0_flag).length := list_length_ge fun a _ => by rw [u_length]; omega
  have h5 := h.weights.length
  have h6 := h.luma_weight_l0_flag.length
  unfold predWeightTable
  lens [PredWeightTable.size_eq]
  omega

theorem size_sliceBody {t first : Nat} {p : PpsBody} {sps : SpsBody} {s : SliceBody} (h : ValidSliceBody t p sps first s) :
    size s ≤ 50 + 30 * (sliceBody t p sps first s).length := by
  have h1 := size_cond 2 (w := list (u 1) s.slice_reserved_flag) h.slice_reserved_flag fun hv => size_list_u (by omega) hv
  have h2 := size_optional (W := stRefPicSet sps.num_short_term_ref_pic_sets sps.num_short_term_ref_pic_sets) 0 9 h.st_ref_pic_set
    fun a ha => by have := size_rps ha; omega
  have h3 := size_cond 6 (w := listI (ltRefPic s.num_long_term_sps sps.num_long_term_ref_pics_sps (sps.log2_max_pic_order_cnt_lsb_minus4 + 4)) 0 s.lt_ref_pics)
    h.lt_ref_pics fun hv => size_listI 6 fun i a ha => by
      unfold ltRefPic ltRefPicHead; lens [LtRefPic.size_eq, LtRefPicHead.size_eq]; omega
  have h4 := size_optional (W := predWeightTable (sliceChromaArrayType sps)) 2 30 h.pred_weight_table fun a ha => size_pwt ha
  have h5 := size_cond 2 (w := list (u (s.offset_len_minus1 + 1)) s.entry_point_offset_minus1) h.entry_point_offset_minus1
    fun hv => size_list_u (by omega) hv
  have h6 := size_cond 2 (w := list (u 8) s.slice_segment_header_extension_data_byte) h.slice_segment_header_extension_data_byte
    fun hv => size_list_u (by omega) hv
  unfold sliceBody
  lens [SliceBody.size_eq]
  omega

/-! ### SEI -/

theorem size_lut {b : Nat} {s : SeiLut} (h : ValidSeiLut b s) : size s + 1 ≤ 3 * (seiLut b s).length := by
  have h1 := size_cond 3 (w := list (seiLutEntry b) s.entries) h.entries fun hv => size_list 3 fun a ha => by
    have := (hv.valid a ha).coded_value.pos
    unfold seiLutEntry; lens [SeiLutEntry.size_eq]; omega
  unfold seiLut
  lens [SeiLut.size_eq]
  omega

theorem size_seiPayload {t n : Nat} {p : SeiPayload} (h : ValidSeiPayload t n p) : size p ≤ 30 + 5 * (seiPayload p).length := by
  cases p with
  | userDataRegistered s =>
    have h1 := size_list_u (by omega) h.2.payload
    show size s ≤ 30 + 5 * (seiUserDataRegistered s).length
    unfold seiUserDataRegistered; lens [SeiUserDataRegistered.size_eq]; omega
  | userDataUnregistered s =>
    have h1 := size_list_u (by omega) h.2.payload
    show size s ≤ 30 + 5 * (seiUserDataUnregistered s).length
    unfold seiUserDataUnregistered; lens [SeiUserDataUnregistered.size_eq]; omega
  | masteringDisplay s =>
    have h1 : size s.display_primaries ≤ 3 * (list seiPrimaries s.display_primaries).length := size_list 3 fun a _ => by
      unfold seiPrimaries; lens [SeiPrimaries.size_eq]; omega
    show size s ≤ 30 + 5 * (seiMasteringDisplay s).length
    unfold seiMasteringDisplay; lens [SeiMasteringDisplay.size_eq]; omega
  | contentLightLevel s =>
    show size s ≤ 30 + 5 * (seiContentLightLevel s).length
    lens [SeiContentLightLevel.size_eq]; omega
  | kneeFunction s =>
    have h1 := size_cond 3 (w := list seiKneePoint s.knee_points) h.2.knee_points fun _ => size_list 3 fun a _ => by
      unfold seiKneePoint; lens [SeiKneePoint.size_eq]; omega
    show size s ≤ 30 + 5 * (seiKneeFunction s).length
    unfold seiKneeFunction; lens [SeiKneeFunction.size_eq]; omega
  | colourRemapping s =>
    have h1 := size_cond 3 (w := list (seiLut ((s.colour_remap_input_bit_depth + 7) / 8 * 8)) s.pre_lut) h.2.pre_lut
      fun hv => size_list 3 fun a ha => size_lut (hv.valid a ha)
    have h2 := size_cond 3 (w := list (seiLut ((s.colour_remap_output_bit_depth + 7) / 8 * 8)) s.post_lut) h.2.post_lut
      fun hv => size_list 3 fun a ha => size_lut (hv.valid a ha)
    have h3 := size_cond 3 (w := list (list se) s.colour_remap_coeffs) h.2.colour_remap_coeffs
      fun hv => size_list 3 fun a ha => by
        have h1 := size_list 2 (l := a) (W := se) fun m _ => by rw [size_int]; have := se_pos m; omega
        have h2 := each_pos (hv.valid a ha) (by omega) (W := se) fun v _ => se_pos v
        omega
    show size s ≤ 30 + 5 * (seiColourRemapping s).length
    unfold seiColourRemapping; lens [SeiColourRemapping.size_eq]; omega
  | contentColourVolume s =>
    have h1 : size s.ccv_primaries ≤ 9 := by
      have : ∀ l : List SeiCcvPrimaries, size l = 3 * l.length := by
        intro l
        induction l with
        | nil => rfl
        | cons a l ih => rw [size_cons, ih, SeiCcvPrimaries.size_eq]; simp only [size_int, List.length_cons]; omega
      rw [this]
      by_cases hc : s.ccv_cancel_flag = 0 ∧ s.ccv_primaries_present_flag ≠ 0
      · rw [(h.2.ccv_primaries.present hc).length]; omega
      · rw [h.2.ccv_primaries.absent hc]; decide
    show size s ≤ 30 + 5 * (seiContentColourVolume s).length
    lens [SeiContentColourVolume.size_eq]; omega
  | alternativeTransfer s =>
    show size s ≤ 30 + 5 * (seiAlternativeTransfer s).length
    lens [SeiAlternativeTransfer.size_eq]; omega
  | ambientViewing s =>
    show size s ≤ 30 + 5 * (seiAmbientViewing s).length
    lens [SeiAmbientViewing.size_eq]; omega
  | alphaChannelInfo s =>
    show size s ≤ 30 + 5 * (seiAlphaChannelInfo s).length
    lens [SeiAlphaChannelInfo.size_eq]; omega
  | unknown s =>
    have h1 := size_list_u (by omega) h.2.payload
    show size s ≤ 30 + 5 * (seiUnknown s).length
    unfold seiUnknown; lens [SeiUnknown.size_eq]; omega

end H265
