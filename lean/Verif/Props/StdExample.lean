/- C48, hypotheses met: the parameter sets and the slice of h265_bitstream_parser_unittest.cc:25-52 and a P slice after them, as values of
the standard's syntax elements. -/
import Verif.Props.Std

namespace H265.Std
open Spec

set_option autoImplicit false

def exPtl : StdPtl := { general := { profile_space := 0, tier_flag := 0, profile_idc := 1, profile_compatibility_flag := [0, 1, 1, 0, 0, 0, 0, 0, 0, 0, 0, 0, 0, 0, 0, 0, 0, 0, 0, 0, 0, 0, 0, 0, 0, 0, 0, 0, 0, 0, 0, 0], progressive_source_flag := 1, interlaced_source_flag := 0, non_packed_constraint_flag := 1, frame_only_constraint_flag := 1, constraints := { max_12bit_constraint_flag := 0, max_10bit_constraint_flag := 0, max_8bit_constraint_flag := 0, max_422chroma_constraint_flag := 0, max_420chroma_constraint_flag := 0, max_monochrome_constraint_flag := 0, intra_constraint_flag := 0, reserved_zero_7bits := 0, one_picture_only_constraint_flag := 0, lower_bit_rate_constraint_flag := 0, max_14bit_constraint_flag := 0, reserved_zero_33bits := 0, reserved_zero_34bits := 0, reserved_zero_35bits := 0, reserved_zero_43bits := 0 }, profile_type := H265.ProfileType.MAIN, inbld_flag := 0, reserved_zero_bit := 0 }, general_level_idc := 93, sub_layers := [] }

def exVps : VpsBody := { vps_video_parameter_set_id := 0, vps_base_layer_internal_flag := 1, vps_base_layer_available_flag := 1, vps_max_layers_minus1 := 0, vps_max_sub_layers_minus1 := 0, vps_temporal_id_nesting_flag := 1, vps_reserved_0xffff_16bits := 65535, profile_tier_level := exPtl.reported 0, vps_sub_layer_ordering_info_present_flag := 1, sub_layer_ordering := [{ max_dec_pic_buffering_minus1 := 1, max_num_reorder_pics := 0, max_latency_increase_plus1 := 0 }], vps_max_layer_id := 5, vps_num_layer_sets_minus1 := 0, layer_id_included_flag := [], vps_timing_info_present_flag := 0, vps_num_units_in_tick := 0, vps_time_scale := 0, vps_poc_proportional_to_timing_flag := 0, vps_num_ticks_poc_diff_one_minus1 := 0, vps_num_hrd_parameters := 0, hrds := [], vps_extension_flag := 0 }

def exSps : SpsBody := { sps_video_parameter_set_id := 0, sps_max_sub_layers_minus1 := 0, sps_temporal_id_nesting_flag := 1, profile_tier_level := exPtl.reported 0, sps_seq_parameter_set_id := 0, chroma_format_idc := 1, separate_colour_plane_flag := 0, pic_width_in_luma_samples := 1280, pic_height_in_luma_samples := 736, conformance_window_flag := 1, conf_win_left_offset := 0, conf_win_right_offset := 0, conf_win_top_offset := 0, conf_win_bottom_offset := 8, bit_depth_luma_minus8 := 0, bit_depth_chroma_minus8 := 0, log2_max_pic_order_cnt_lsb_minus4 := 4, sps_sub_layer_ordering_info_present_flag := 1, sub_layer_ordering := [{ sps_max_dec_pic_buffering_minus1 := 1, sps_max_num_reorder_pics := 0, sps_max_latency_increase_plus1 := 0 }], log2_min_luma_coding_block_size_minus3 := 0, log2_diff_max_min_luma_coding_block_size := 2, log2_min_luma_transform_block_size_minus2 := 0, log2_diff_max_min_luma_transform_block_size := 3, max_transform_hierarchy_depth_inter := 0, max_transform_hierarchy_depth_intra := 0, scaling_list_enabled_flag := 0, sps_scaling_list_data_present_flag := 0, scaling_list_data := none, amp_enabled_flag := 0, sample_adaptive_offset_enabled_flag := 1, pcm_enabled_flag := 0, pcm_sample_bit_depth_luma_minus1 := 0, pcm_sample_bit_depth_chroma_minus1 := 0, log2_min_pcm_luma_coding_block_size_minus3 := 0, log2_diff_max_min_pcm_luma_coding_block_size := 0, pcm_loop_filter_disabled_flag := 0, num_short_term_ref_pic_sets := 1, st_ref_pic_set := [{ inter_ref_pic_set_prediction_flag := 0, delta_idx_minus1 := 0, delta_rps_sign := 0, abs_delta_rps_minus1 := 0, flags := [], num_negative_pics := 1, num_positive_pics := 0, s0 := [{ delta_poc_minus1 := 0, used_by_curr_pic := 1 }], s1 := [] }], long_term_ref_pics_present_flag := 0, num_long_term_ref_pics_sps := 0, lt_ref_pics := [], sps_temporal_mvp_enabled_flag := 1, strong_intra_smoothing_enabled_flag := 1, vui_parameters_present_flag := 1, vui_parameters := some { aspect_ratio_info_present_flag := 0, aspect_ratio_idc := 0, sar_width := 0, sar_height := 0, overscan_info_present_flag := 0, overscan_appropriate_flag := 0, video_signal_type_present_flag := 1, video_format := 2, video_full_range_flag := 1, colour_description_present_flag := 1, colour_primaries := 5, transfer_characteristics := 6, matrix_coeffs := 6, chroma_loc_info_present_flag := 0, chroma_sample_loc_type_top_field := 0, chroma_sample_loc_type_bottom_field := 0, neutral_chroma_indication_flag := 0, field_seq_flag := 0, frame_field_info_present_flag := 0, default_display_window_flag := 0, def_disp_win_left_offset := 0, def_disp_win_right_offset := 0, def_disp_win_top_offset := 0, def_disp_win_bottom_offset := 0, vui_timing_info_present_flag := 0, vui_num_units_in_tick := 0, vui_time_scale := 0, vui_poc_proportional_to_timing_flag := 0, vui_num_ticks_poc_diff_one_minus1 := 0, vui_hrd_parameters_present_flag := 0, hrd_parameters := none, bitstream_restriction_flag := 1, tiles_fixed_structure_flag := 0, motion_vectors_over_pic_boundaries_flag := 1, restricted_ref_pic_lists_flag := 1, min_spatial_segmentation_idc := 0, max_bytes_per_pic_denom := 2, max_bits_per_min_cu_denom := 1, log2_max_mv_length_horizontal := 9, log2_max_mv_length_vertical := 8 }, sps_extension_present_flag := 0, sps_range_extension_flag := 0, sps_multilayer_extension_flag := 0, sps_3d_extension_flag := 0, sps_scc_extension_flag := 0, sps_extension_4bits := 0, sps_range_extension := none, sps_multilayer_extension := none, sps_3d_extension := none, sps_scc_extension := none }

def exPps : PpsBody := { head := { pps_pic_parameter_set_id := 0, pps_seq_parameter_set_id := 0, dependent_slice_segments_enabled_flag := 0, output_flag_present_flag := 0, num_extra_slice_header_bits := 0, sign_data_hiding_enabled_flag := 0, cabac_init_present_flag := 1, num_ref_idx_l0_default_active_minus1 := 0, num_ref_idx_l1_default_active_minus1 := 0, init_qp_minus26 := 0, constrained_intra_pred_flag := 0, transform_skip_enabled_flag := 0, cu_qp_delta_enabled_flag := 1, diff_cu_qp_delta_depth := 0, pps_cb_qp_offset := 0, pps_cr_qp_offset := 0, pps_slice_chroma_qp_offsets_present_flag := 0, weighted_pred_flag := 0, weighted_bipred_flag := 0, transquant_bypass_enabled_flag := 0, tiles_enabled_flag := 0, entropy_coding_sync_enabled_flag := 0, num_tile_columns_minus1 := 0, num_tile_rows_minus1 := 0, uniform_spacing_flag := 0, column_width_minus1 := [], row_height_minus1 := [], loop_filter_across_tiles_enabled_flag := 0, pps_loop_filter_across_slices_enabled_flag := 0, deblocking_filter_control_present_flag := 0, deblocking_filter_override_enabled_flag := 0, pps_deblocking_filter_disabled_flag := 0, pps_beta_offset_div2 := 0, pps_tc_offset_div2 := 0, pps_scaling_list_data_present_flag := 0, scaling_list_data := none, lists_modification_present_flag := 0, log2_parallel_merge_level_minus2 := 3, slice_segment_header_extension_present_flag := 0, pps_extension_present_flag := 0, pps_range_extension_flag := 0, pps_multilayer_extension_flag := 0, pps_3d_extension_flag := 0, pps_scc_extension_flag := 0, pps_extension_4bits := 0 }, pps_multilayer_extension := none, pps_scc_extension := none }

def exHead : SliceHead := { first_slice_segment_in_pic_flag := 1, no_output_of_prior_pics_flag := 0, slice_pic_parameter_set_id := 0 }

def exSlice : SliceBody := { dependent_slice_segment_flag := 0, slice_segment_address := 0, slice_reserved_flag := [], slice_type := 2, pic_output_flag := 0, colour_plane_id := 0, slice_pic_order_cnt_lsb := 0, short_term_ref_pic_set_sps_flag := 0, st_ref_pic_set := none, short_term_ref_pic_set_idx := 0, num_long_term_sps := 0, num_long_term_pics := 0, lt_ref_pics := [], slice_temporal_mvp_enabled_flag := 0, slice_sao_luma_flag := 1, slice_sao_chroma_flag := 1, num_ref_idx_active_override_flag := 0, num_ref_idx_l0_active_minus1 := 0, num_ref_idx_l1_active_minus1 := 0, mvd_l1_zero_flag := 0, cabac_init_flag := 0, collocated_from_l0_flag := 1, collocated_ref_idx := 0, pred_weight_table := none, five_minus_max_num_merge_cand := 0, use_integer_mv_flag := 0, slice_qp_delta := 9, slice_cb_qp_offset := 0, slice_cr_qp_offset := 0, act_qp_offsets_present := 0, slice_act_y_qp_offset := 0, slice_act_cb_qp_offset := 0, slice_act_cr_qp_offset := 0, deblocking_filter_override_flag := 0, slice_deblocking_filter_disabled_flag := 0, slice_beta_offset_div2 := 0, slice_tc_offset_div2 := 0, slice_loop_filter_across_slices_enabled_flag := 0, num_entry_point_offsets := 0, offset_len_minus1 := 0, entry_point_offset_minus1 := [], slice_segment_header_extension_length := 0, slice_segment_header_extension_data_byte := [] }

def exSliceP : SliceBody := { dependent_slice_segment_flag := 0, slice_segment_address := 0, slice_reserved_flag := [], slice_type := 1, pic_output_flag := 0, colour_plane_id := 0, slice_pic_order_cnt_lsb := 1, short_term_ref_pic_set_sps_flag := 1, st_ref_pic_set := none, short_term_ref_pic_set_idx := 0, num_long_term_sps := 0, num_long_term_pics := 0, lt_ref_pics := [], slice_temporal_mvp_enabled_flag := 1, slice_sao_luma_flag := 1, slice_sao_chroma_flag := 1, num_ref_idx_active_override_flag := 0, num_ref_idx_l0_active_minus1 := 0, num_ref_idx_l1_active_minus1 := 0, mvd_l1_zero_flag := 0, cabac_init_flag := 1, collocated_from_l0_flag := 1, collocated_ref_idx := 0, pred_weight_table := none, five_minus_max_num_merge_cand := 2, use_integer_mv_flag := 0, slice_qp_delta := (-3), slice_cb_qp_offset := 0, slice_cr_qp_offset := 0, act_qp_offsets_present := 0, slice_act_y_qp_offset := 0, slice_act_cb_qp_offset := 0, slice_act_cr_qp_offset := 0, deblocking_filter_override_flag := 0, slice_deblocking_filter_disabled_flag := 0, slice_beta_offset_div2 := 0, slice_tc_offset_div2 := 0, slice_loop_filter_across_slices_enabled_flag := 0, num_entry_point_offsets := 0, offset_len_minus1 := 0, entry_point_offset_minus1 := [], slice_segment_header_extension_length := 0, slice_segment_header_extension_data_byte := [] }

/-- closes the conditions on literal values -/
local macro "conf" : tactic => `(tactic| repeat' (first
  | decide
  | (intro x hx; simp only [exVps, exSps, exPps, exSlice, exSliceP, exPtl, List.mem_cons, List.not_mem_nil, or_false, reduceCtorEq, Option.some.injEq] at hx; subst hx)
  | (intro i x hx; simp only [exVps, exSps, exPps, exSlice, exSliceP, exPtl, List.getElem?_nil, reduceCtorEq] at hx)
  | (intro h; exact absurd h (by decide))
  | (intro h; contradiction)
  | (intro h1 h2; exact ⟨0, 0, 0, by decide⟩)
  | (intro x hx; cases hx; done)
  | constructor
  | (intro _; constructor)))

theorem exPtl_conforms : ConformsPtl 0 exPtl := by conf

theorem exVps_conforms : ConformsVpsBody exPtl exVps := by
  constructor
  case profile_tier_level => exact ⟨exPtl_conforms, rfl⟩
  all_goals conf

theorem exSps_conforms : ConformsSpsBody exPtl exSps := by
  constructor
  case profile_tier_level => exact ⟨exPtl_conforms, rfl⟩
  case st_ref_pic_set =>
    refine ⟨rfl, fun i s h => ?_⟩
    match i, h with
    | 0, h => cases h; left; conf
    | i + 1, h => cases h
  all_goals conf

theorem exPps_conforms : ConformsPpsBody exPps := by conf
theorem exHead_conforms : ConformsSliceHead 19 exHead := by conf
theorem exHead_conformsP : ConformsSliceHead 1 exHead := by conf
theorem exSlice_conforms : ConformsSliceBody 19 exPps exSps 1 exSlice := by conf
theorem exSliceP_conforms : ConformsSliceBody 1 exPps exSps 1 exSliceP := by conf

/-- the bytes of the units without start codes and emulation prevention; the last one (a P slice) is new -/
def exBytes : List (List UInt8) :=
  [[0x40, 0x01, 0x0c, 0x01, 0xff, 0xff, 0x01, 0x60, 0x00, 0x00, 0x00, 0xb0, 0x00, 0x00, 0x00, 0x00, 0x00, 0x5d, 0xac, 0x59],
   [0x42, 0x01, 0x01, 0x01, 0x60, 0x00, 0x00, 0x00, 0xb0, 0x00, 0x00, 0x00, 0x00, 0x00, 0x5d,
    0xa0, 0x02, 0x80, 0x80, 0x2e, 0x1f, 0x13, 0x96, 0xbb, 0x93, 0x24, 0xbb, 0x95, 0x82, 0x83, 0x03, 0x01, 0x76, 0x85, 0x09, 0x40],
   [0x44, 0x01, 0xc0, 0xf3, 0xc0, 0x02, 0x10],
   [0x26, 0x01] ++ testSlice,
   [0x02, 0x01, 0xd0, 0x0f, 0xac, 0xf0, 0x55, 0x80]]

/-- a unit with these contents; everything behind them is its tail -/
def exNal (t : Nat) (u : StdUnit) (w : List Bool) (rbsp : List UInt8) : StdNal :=
  { header := ⟨0, t, 0, 1⟩, unit := u, tail := (bitsOf rbsp).drop (16 + w.length), rbsp := rbsp }

def exNals : List StdNal :=
  [exNal 32 (.vps exPtl exVps) (Std.vps exPtl exVps) (exBytes.getD 0 []), exNal 33 (.sps exPtl exSps) (Std.sps exPtl exSps) (exBytes.getD 1 []),
   exNal 34 (.pps exPps) (Std.pps exPps) (exBytes.getD 2 []),
   exNal 19 (.slice exHead exSlice default) (Std.sliceSegmentHeader 19 exPps exSps exHead exSlice default) (exBytes.getD 3 []),
   exNal 1 (.slice exHead exSliceP default) (Std.sliceSegmentHeader 1 exPps exSps exHead exSliceP default) (exBytes.getD 4 [])]

theorem exSupportedPtl : SupportedPtl exPtl := by conf
theorem exSupportedSps : SupportedSps exPtl exSps := by
  refine ⟨exSupportedPtl, fun x hx => ?_⟩
  cases hx
  refine ⟨fun h hh => ?_, ?_, ?_, ?_, ?_⟩
  · cases hh
  all_goals decide
theorem exSupportedPps : SupportedPps exPps := by conf
theorem exSupportedSlice : SupportedSlice 19 exPps exSps exSlice := by constructor <;> decide
theorem exSupportedSliceP : SupportedSlice 1 exPps exSps exSliceP := by constructor <;> decide

/-- hypotheses met: the stream of the unit test, with a P slice added, is a sequence of NAL units of the standard -/
theorem exNals_sent : ∃ d, SentAll .none exNals d := by
  refine ⟨_, .cons ⟨?_, ⟨_, .vps exPtl exVps rfl exVps_conforms exSupportedPtl rfl, ?_⟩, ?_⟩ <|
    .cons ⟨?_, ⟨_, .sps exPtl exSps rfl exSps_conforms exSupportedSps, ?_⟩, ?_⟩ <|
    .cons ⟨?_, ⟨_, .pps exPps rfl exPps_conforms exSupportedPps, ?_⟩, ?_⟩ <|
    .cons ⟨?_, ⟨_, .slice exHead exSlice default exPps exPtl exSps (by decide) rfl rfl exHead_conforms exSlice_conforms exSupportedSlice, ?_⟩, ?_⟩ <|
    .cons ⟨?_, ⟨_, .slice exHead exSliceP default exPps exPtl exSps (by decide) rfl rfl exHead_conformsP exSliceP_conforms exSupportedSliceP, ?_⟩, ?_⟩ <|
    .nil _⟩
  all_goals first | decide +kernel | (constructor <;> decide)

/-- … which is the stream of the unit test -/
example : annexB (((List.replicate 5 true).zip (exNals.map fun x => escape x.rbsp)).take 4) = testStream := by decide +kernel

end H265.Std
