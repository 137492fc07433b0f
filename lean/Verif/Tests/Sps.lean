import Verif.Model.Fuzz
import Verif.Model.Printable

/-! The assertions of `/repo/test/h265_sps_parser_unittest.cc` run on the model by the kernel. This is
validation of the transcription, not proof: each `example` is one unit test, its bytes and its
expectations copied from the test file. -/

set_option autoImplicit false
set_option maxRecDepth 100000
set_option maxHeartbeats 0
set_option linter.unusedVariables false

namespace H265.Tests

open H265

/-- `test/h265_sps_parser_unittest.cc:21` `TestSampleSPS` (98 expectations). -/
example : (
  match parseSpsBytes [1, 1, 96, 0, 0, 3, 0, 176, 0, 0, 3, 0, 0, 3, 0, 93, 160, 2, 128, 128, 46, 31, 19, 150, 187, 147, 36, 187, 149, 130, 131, 3, 1, 118, 133, 9, 64] with
  | .ok v1 _ =>
    [true, v1.body.sps_video_parameter_set_id == 0, v1.body.sps_max_sub_layers_minus1 == 0, v1.body.sps_temporal_id_nesting_flag == 1,
      (v1.body.profile_tier_level.general.map fun x => x.profile_space) == some 0,
      (v1.body.profile_tier_level.general.map fun x => x.tier_flag) == some 0,
      (v1.body.profile_tier_level.general.map fun x => x.profile_idc) == some 1,
      (v1.body.profile_tier_level.general.map fun x => x.profile_compatibility_flag) == some [0, 1, 1, 0, 0, 0, 0, 0, 0, 0, 0, 0, 0, 0, 0, 0, 0, 0, 0, 0, 0, 0, 0, 0, 0, 0, 0, 0, 0, 0, 0, 0],
      (v1.body.profile_tier_level.general.map fun x => x.progressive_source_flag) == some 1,
      (v1.body.profile_tier_level.general.map fun x => x.interlaced_source_flag) == some 0,
      (v1.body.profile_tier_level.general.map fun x => x.non_packed_constraint_flag) == some 1,
      (v1.body.profile_tier_level.general.map fun x => x.frame_only_constraint_flag) == some 1,
      (v1.body.profile_tier_level.general.map fun x => x.constraints.max_12bit_constraint_flag) == some 0,
      (v1.body.profile_tier_level.general.map fun x => x.constraints.max_10bit_constraint_flag) == some 0,
      (v1.body.profile_tier_level.general.map fun x => x.constraints.max_8bit_constraint_flag) == some 0,
      (v1.body.profile_tier_level.general.map fun x => x.constraints.max_422chroma_constraint_flag) == some 0,
      (v1.body.profile_tier_level.general.map fun x => x.constraints.max_420chroma_constraint_flag) == some 0,
      (v1.body.profile_tier_level.general.map fun x => x.constraints.max_monochrome_constraint_flag) == some 0,
      (v1.body.profile_tier_level.general.map fun x => x.constraints.intra_constraint_flag) == some 0,
      (v1.body.profile_tier_level.general.map fun x => x.constraints.one_picture_only_constraint_flag) == some 0,
      (v1.body.profile_tier_level.general.map fun x => x.constraints.lower_bit_rate_constraint_flag) == some 0,
      (v1.body.profile_tier_level.general.map fun x => x.constraints.max_14bit_constraint_flag) == some 0,
      (v1.body.profile_tier_level.general.map fun x => x.constraints.reserved_zero_33bits) == some 0,
      (v1.body.profile_tier_level.general.map fun x => x.constraints.reserved_zero_34bits) == some 0,
      (v1.body.profile_tier_level.general.map fun x => x.constraints.reserved_zero_43bits) == some 0,
      (v1.body.profile_tier_level.general.map fun x => x.inbld_flag) == some 0,
      (v1.body.profile_tier_level.general.map fun x => x.reserved_zero_bit) == some 0, v1.body.profile_tier_level.general_level_idc == 93,
      (v1.body.profile_tier_level.sub_layer_flags.map (·.1)).length == 0, (v1.body.profile_tier_level.sub_layer_flags.map (·.2)).length == 0,
      v1.body.profile_tier_level.reserved_zero_2bits.length == 0, v1.body.profile_tier_level.sub_layers.length == 0,
      v1.body.sps_seq_parameter_set_id == 0, v1.body.chroma_format_idc == 1, v1.body.pic_width_in_luma_samples == 1280,
      v1.body.pic_height_in_luma_samples == 736, v1.body.conformance_window_flag == 1, v1.body.conf_win_left_offset == 0,
      v1.body.conf_win_right_offset == 0, v1.body.conf_win_top_offset == 0, v1.body.conf_win_bottom_offset == 8, v1.body.bit_depth_luma_minus8 == 0,
      v1.body.bit_depth_chroma_minus8 == 0, v1.body.log2_max_pic_order_cnt_lsb_minus4 == 4, v1.body.sps_sub_layer_ordering_info_present_flag == 1,
      (v1.body.sub_layer_ordering.map (·.sps_max_dec_pic_buffering_minus1)) == [1],
      (v1.body.sub_layer_ordering.map (·.sps_max_num_reorder_pics)) == [0],
      (v1.body.sub_layer_ordering.map (·.sps_max_latency_increase_plus1)) == [0], v1.body.log2_min_luma_coding_block_size_minus3 == 0,
      v1.body.log2_diff_max_min_luma_coding_block_size == 2, v1.body.log2_min_luma_transform_block_size_minus2 == 0,
      v1.body.log2_diff_max_min_luma_transform_block_size == 3, v1.body.max_transform_hierarchy_depth_inter == 0,
      v1.body.max_transform_hierarchy_depth_intra == 0, v1.body.scaling_list_enabled_flag == 0, v1.body.amp_enabled_flag == 0,
      v1.body.sample_adaptive_offset_enabled_flag == 1, v1.body.pcm_enabled_flag == 0, v1.body.num_short_term_ref_pic_sets == 1,
      (v1.body.st_ref_pic_set[0]?.map fun x => x.num_negative_pics) == some 1,
      (v1.body.st_ref_pic_set[0]?.map fun x => x.num_positive_pics) == some 0,
      (v1.body.st_ref_pic_set[0]?.map fun x => x.s0.map (·.delta_poc_minus1)) == some [0],
      (v1.body.st_ref_pic_set[0]?.map fun x => x.s0.map (·.delta_poc_minus1)) == some [0], v1.body.long_term_ref_pics_present_flag == 0,
      v1.body.sps_temporal_mvp_enabled_flag == 1, v1.body.strong_intra_smoothing_enabled_flag == 1, v1.body.vui_parameters_present_flag == 1,
      (v1.body.vui_parameters.map fun x => x.aspect_ratio_info_present_flag) == some 0,
      (v1.body.vui_parameters.map fun x => x.overscan_info_present_flag) == some 0,
      (v1.body.vui_parameters.map fun x => x.video_signal_type_present_flag) == some 1,
      (v1.body.vui_parameters.map fun x => x.video_format) == some 2, (v1.body.vui_parameters.map fun x => x.video_full_range_flag) == some 1,
      (v1.body.vui_parameters.map fun x => x.colour_description_present_flag) == some 1,
      (v1.body.vui_parameters.map fun x => x.colour_primaries) == some 5, (v1.body.vui_parameters.map fun x => x.transfer_characteristics) == some 6,
      (v1.body.vui_parameters.map fun x => x.matrix_coeffs) == some 6,
      (v1.body.vui_parameters.map fun x => x.chroma_loc_info_present_flag) == some 0,
      (v1.body.vui_parameters.map fun x => x.neutral_chroma_indication_flag) == some 0,
      (v1.body.vui_parameters.map fun x => x.field_seq_flag) == some 0,
      (v1.body.vui_parameters.map fun x => x.frame_field_info_present_flag) == some 0,
      (v1.body.vui_parameters.map fun x => x.default_display_window_flag) == some 0,
      (v1.body.vui_parameters.map fun x => x.vui_timing_info_present_flag) == some 0,
      (v1.body.vui_parameters.map fun x => x.bitstream_restriction_flag) == some 1,
      (v1.body.vui_parameters.map fun x => x.tiles_fixed_structure_flag) == some 0,
      (v1.body.vui_parameters.map fun x => x.motion_vectors_over_pic_boundaries_flag) == some 1,
      (v1.body.vui_parameters.map fun x => x.restricted_ref_pic_lists_flag) == some 1,
      (v1.body.vui_parameters.map fun x => x.min_spatial_segmentation_idc) == some 0,
      (v1.body.vui_parameters.map fun x => x.max_bytes_per_pic_denom) == some 2,
      (v1.body.vui_parameters.map fun x => x.max_bits_per_min_cu_denom) == some 1,
      (v1.body.vui_parameters.map fun x => x.log2_max_mv_length_horizontal) == some 9,
      (v1.body.vui_parameters.map fun x => x.log2_max_mv_length_vertical) == some 8, v1.body.sps_extension_present_flag == 0,
      v1.body.sps_range_extension_flag == 0, v1.body.sps_multilayer_extension_flag == 0, v1.body.sps_3d_extension_flag == 0,
      v1.body.sps_scc_extension_flag == 0, v1.body.sps_extension_4bits == 0, v1.body.getPicSizeInCtbsY == 920].all id
  | _ => false) = true := by
  decide +kernel

/-- `test/h265_sps_parser_unittest.cc:161` `TestSPSBadWidth` (1 expectations). -/
example : (
  match parseSpsBytes [1, 1, 96, 0, 0, 3, 0, 176, 0, 0, 3, 0, 0, 3, 0, 93, 161, 2, 128, 128, 46, 31, 19, 150, 187, 147, 36, 187, 149, 130, 131, 3, 1, 118, 133, 9, 64] with
  | .fail _ =>
    true
  | _ => false) = true := by
  decide +kernel

/-- `test/h265_sps_parser_unittest.cc:176` `TestSPSBadHeight` (1 expectations). -/
example : (
  match parseSpsBytes [1, 1, 96, 0, 0, 3, 0, 176, 0, 0, 3, 0, 0, 3, 0, 93, 160, 2, 128, 128, 30, 31, 19, 150, 187, 147, 36, 187, 149, 130, 131, 3, 1, 118, 133, 9, 64] with
  | .fail _ =>
    true
  | _ => false) = true := by
  decide +kernel

/-- `test/h265_sps_parser_unittest.cc:191` `TestComplexStRefPicSet` (135 expectations). -/
example : (
  match parseSpsBytes [1, 1, 96, 0, 0, 0, 0, 0, 0, 0, 0, 0, 153, 160, 3, 192, 128, 17, 7, 249, 101, 38, 73, 27, 97, 165, 136, 170, 147, 19, 12, 190, 207, 175, 55, 229, 159, 94, 20, 70, 39, 46, 218, 192, 255, 255] with
  | .ok v1 _ =>
    [true, v1.body.sps_video_parameter_set_id == 0, v1.body.sps_max_sub_layers_minus1 == 0, v1.body.sps_temporal_id_nesting_flag == 1,
      (v1.body.profile_tier_level.general.map fun x => x.profile_space) == some 0,
      (v1.body.profile_tier_level.general.map fun x => x.tier_flag) == some 0,
      (v1.body.profile_tier_level.general.map fun x => x.profile_idc) == some 1,
      (v1.body.profile_tier_level.general.map fun x => x.profile_compatibility_flag) == some [0, 1, 1, 0, 0, 0, 0, 0, 0, 0, 0, 0, 0, 0, 0, 0, 0, 0, 0, 0, 0, 0, 0, 0, 0, 0, 0, 0, 0, 0, 0, 0],
      (v1.body.profile_tier_level.general.map fun x => x.progressive_source_flag) == some 0,
      (v1.body.profile_tier_level.general.map fun x => x.interlaced_source_flag) == some 0,
      (v1.body.profile_tier_level.general.map fun x => x.non_packed_constraint_flag) == some 0,
      (v1.body.profile_tier_level.general.map fun x => x.frame_only_constraint_flag) == some 0,
      (v1.body.profile_tier_level.general.map fun x => x.constraints.max_12bit_constraint_flag) == some 0,
      (v1.body.profile_tier_level.general.map fun x => x.constraints.max_10bit_constraint_flag) == some 0,
      (v1.body.profile_tier_level.general.map fun x => x.constraints.max_8bit_constraint_flag) == some 0,
      (v1.body.profile_tier_level.general.map fun x => x.constraints.max_422chroma_constraint_flag) == some 0,
      (v1.body.profile_tier_level.general.map fun x => x.constraints.max_420chroma_constraint_flag) == some 0,
      (v1.body.profile_tier_level.general.map fun x => x.constraints.max_monochrome_constraint_flag) == some 0,
      (v1.body.profile_tier_level.general.map fun x => x.constraints.intra_constraint_flag) == some 0,
      (v1.body.profile_tier_level.general.map fun x => x.constraints.one_picture_only_constraint_flag) == some 0,
      (v1.body.profile_tier_level.general.map fun x => x.constraints.lower_bit_rate_constraint_flag) == some 0,
      (v1.body.profile_tier_level.general.map fun x => x.constraints.max_14bit_constraint_flag) == some 0,
      (v1.body.profile_tier_level.general.map fun x => x.constraints.reserved_zero_33bits) == some 0,
      (v1.body.profile_tier_level.general.map fun x => x.constraints.reserved_zero_34bits) == some 0,
      (v1.body.profile_tier_level.general.map fun x => x.constraints.reserved_zero_43bits) == some 0,
      (v1.body.profile_tier_level.general.map fun x => x.inbld_flag) == some 0,
      (v1.body.profile_tier_level.general.map fun x => x.reserved_zero_bit) == some 0, v1.body.profile_tier_level.general_level_idc == 153,
      (v1.body.profile_tier_level.sub_layer_flags.map (·.1)).length == 0, (v1.body.profile_tier_level.sub_layer_flags.map (·.2)).length == 0,
      v1.body.profile_tier_level.reserved_zero_2bits.length == 0, v1.body.profile_tier_level.sub_layers.length == 0,
      v1.body.sps_seq_parameter_set_id == 0, v1.body.chroma_format_idc == 1, v1.body.pic_width_in_luma_samples == 1920,
      v1.body.pic_height_in_luma_samples == 1088, v1.body.conformance_window_flag == 1, v1.body.conf_win_left_offset == 0,
      v1.body.conf_win_right_offset == 0, v1.body.conf_win_top_offset == 0, v1.body.conf_win_bottom_offset == 0, v1.body.bit_depth_luma_minus8 == 0,
      v1.body.bit_depth_chroma_minus8 == 0, v1.body.log2_max_pic_order_cnt_lsb_minus4 == 4, v1.body.sps_sub_layer_ordering_info_present_flag == 1,
      (v1.body.sub_layer_ordering.map (·.sps_max_dec_pic_buffering_minus1)) == [4],
      (v1.body.sub_layer_ordering.map (·.sps_max_num_reorder_pics)) == [3],
      (v1.body.sub_layer_ordering.map (·.sps_max_latency_increase_plus1)) == [0], v1.body.log2_min_luma_coding_block_size_minus3 == 0,
      v1.body.log2_diff_max_min_luma_coding_block_size == 3, v1.body.log2_min_luma_transform_block_size_minus2 == 0,
      v1.body.log2_diff_max_min_luma_transform_block_size == 3, v1.body.max_transform_hierarchy_depth_inter == 2,
      v1.body.max_transform_hierarchy_depth_intra == 2, v1.body.scaling_list_enabled_flag == 0, v1.body.amp_enabled_flag == 1,
      v1.body.sample_adaptive_offset_enabled_flag == 1, v1.body.pcm_enabled_flag == 0, v1.body.num_short_term_ref_pic_sets == 12,
      (v1.body.st_ref_pic_set[0]?.map fun x => x.num_negative_pics) == some 4,
      (v1.body.st_ref_pic_set[0]?.map fun x => x.num_positive_pics) == some 0,
      (v1.body.st_ref_pic_set[0]?.map fun x => x.s0.map (·.delta_poc_minus1)) == some [7, 1, 1, 3],
      (v1.body.st_ref_pic_set[0]?.map fun x => x.s0.map (·.used_by_curr_pic)) == some [1, 1, 1, 1],
      ((v1.body.st_ref_pic_set[0]?.map fun x => x.s1.map (·.delta_poc_minus1)).map fun x => x.length) == some 0,
      ((v1.body.st_ref_pic_set[0]?.map fun x => x.s1.map (·.used_by_curr_pic)).map fun x => x.length) == some 0,
      (v1.body.st_ref_pic_set[1]?.map fun x => x.inter_ref_pic_set_prediction_flag) == some 1,
      (v1.body.st_ref_pic_set[1]?.map fun x => x.delta_rps_sign) == some 0,
      (v1.body.st_ref_pic_set[1]?.map fun x => x.abs_delta_rps_minus1) == some 3,
      (v1.body.st_ref_pic_set[1]?.map fun x => x.flags.map (·.used_by_curr_pic_flag)) == some [1, 1, 0, 0, 1],
      (v1.body.st_ref_pic_set[1]?.map fun x => x.flags.map (·.use_delta_flag)) == some [1, 1, 0, 0, 1],
      (v1.body.st_ref_pic_set[2]?.map fun x => x.inter_ref_pic_set_prediction_flag) == some 1,
      (v1.body.st_ref_pic_set[2]?.map fun x => x.delta_rps_sign) == some 0,
      (v1.body.st_ref_pic_set[2]?.map fun x => x.abs_delta_rps_minus1) == some 1,
      (v1.body.st_ref_pic_set[2]?.map fun x => x.flags.map (·.used_by_curr_pic_flag)) == some [1, 1, 1, 1],
      (v1.body.st_ref_pic_set[2]?.map fun x => x.flags.map (·.use_delta_flag)) == some [1, 1, 1, 1],
      (v1.body.st_ref_pic_set[3]?.map fun x => x.inter_ref_pic_set_prediction_flag) == some 1,
      (v1.body.st_ref_pic_set[3]?.map fun x => x.delta_rps_sign) == some 0,
      (v1.body.st_ref_pic_set[3]?.map fun x => x.abs_delta_rps_minus1) == some 0,
      (v1.body.st_ref_pic_set[3]?.map fun x => x.flags.map (·.used_by_curr_pic_flag)) == some [1, 0, 1, 1, 1],
      (v1.body.st_ref_pic_set[3]?.map fun x => x.flags.map (·.use_delta_flag)) == some [1, 0, 1, 1, 1],
      (v1.body.st_ref_pic_set[4]?.map fun x => x.inter_ref_pic_set_prediction_flag) == some 1,
      (v1.body.st_ref_pic_set[4]?.map fun x => x.delta_rps_sign) == some 1,
      (v1.body.st_ref_pic_set[4]?.map fun x => x.abs_delta_rps_minus1) == some 1,
      (v1.body.st_ref_pic_set[4]?.map fun x => x.flags.map (·.used_by_curr_pic_flag)) == some [1, 1, 1, 1, 0],
      (v1.body.st_ref_pic_set[4]?.map fun x => x.flags.map (·.use_delta_flag)) == some [1, 1, 1, 1, 0],
      (v1.body.st_ref_pic_set[5]?.map fun x => x.inter_ref_pic_set_prediction_flag) == some 1,
      (v1.body.st_ref_pic_set[5]?.map fun x => x.delta_rps_sign) == some 1,
      (v1.body.st_ref_pic_set[5]?.map fun x => x.abs_delta_rps_minus1) == some 2,
      (v1.body.st_ref_pic_set[5]?.map fun x => x.flags.map (·.used_by_curr_pic_flag)) == some [1, 1, 1, 1, 0],
      (v1.body.st_ref_pic_set[5]?.map fun x => x.flags.map (·.use_delta_flag)) == some [1, 1, 1, 1, 0],
      (v1.body.st_ref_pic_set[6]?.map fun x => x.inter_ref_pic_set_prediction_flag) == some 1,
      (v1.body.st_ref_pic_set[6]?.map fun x => x.delta_rps_sign) == some 0,
      (v1.body.st_ref_pic_set[6]?.map fun x => x.abs_delta_rps_minus1) == some 0,
      (v1.body.st_ref_pic_set[6]?.map fun x => x.flags.map (·.used_by_curr_pic_flag)) == some [1, 0, 1, 1, 1],
      (v1.body.st_ref_pic_set[6]?.map fun x => x.flags.map (·.use_delta_flag)) == some [1, 0, 1, 1, 1],
      (v1.body.st_ref_pic_set[7]?.map fun x => x.inter_ref_pic_set_prediction_flag) == some 1,
      (v1.body.st_ref_pic_set[7]?.map fun x => x.delta_rps_sign) == some 1,
      (v1.body.st_ref_pic_set[7]?.map fun x => x.abs_delta_rps_minus1) == some 1,
      (v1.body.st_ref_pic_set[7]?.map fun x => x.flags.map (·.used_by_curr_pic_flag)) == some [1, 1, 1, 1, 0],
      (v1.body.st_ref_pic_set[7]?.map fun x => x.flags.map (·.use_delta_flag)) == some [1, 1, 1, 1, 0],
      (v1.body.st_ref_pic_set[8]?.map fun x => x.inter_ref_pic_set_prediction_flag) == some 0,
      (v1.body.st_ref_pic_set[8]?.map fun x => x.num_negative_pics) == some 1,
      (v1.body.st_ref_pic_set[8]?.map fun x => x.num_positive_pics) == some 0,
      (v1.body.st_ref_pic_set[8]?.map fun x => x.s0.map (·.delta_poc_minus1)) == some [7],
      (v1.body.st_ref_pic_set[8]?.map fun x => x.s0.map (·.used_by_curr_pic)) == some [1],
      ((v1.body.st_ref_pic_set[8]?.map fun x => x.s1.map (·.delta_poc_minus1)).map fun x => x.length) == some 0,
      ((v1.body.st_ref_pic_set[8]?.map fun x => x.s1.map (·.used_by_curr_pic)).map fun x => x.length) == some 0,
      (v1.body.st_ref_pic_set[9]?.map fun x => x.inter_ref_pic_set_prediction_flag) == some 1,
      (v1.body.st_ref_pic_set[9]?.map fun x => x.delta_rps_sign) == some 0,
      (v1.body.st_ref_pic_set[9]?.map fun x => x.abs_delta_rps_minus1) == some 3,
      (v1.body.st_ref_pic_set[9]?.map fun x => x.flags.map (·.used_by_curr_pic_flag)) == some [1, 1],
      (v1.body.st_ref_pic_set[9]?.map fun x => x.flags.map (·.use_delta_flag)) == some [1, 1],
      (v1.body.st_ref_pic_set[10]?.map fun x => x.inter_ref_pic_set_prediction_flag) == some 1,
      (v1.body.st_ref_pic_set[10]?.map fun x => x.delta_rps_sign) == some 0,
      (v1.body.st_ref_pic_set[10]?.map fun x => x.abs_delta_rps_minus1) == some 1,
      (v1.body.st_ref_pic_set[10]?.map fun x => x.flags.map (·.used_by_curr_pic_flag)) == some [1, 1, 1],
      (v1.body.st_ref_pic_set[10]?.map fun x => x.flags.map (·.use_delta_flag)) == some [1, 1, 1],
      (v1.body.st_ref_pic_set[11]?.map fun x => x.inter_ref_pic_set_prediction_flag) == some 0,
      (v1.body.st_ref_pic_set[11]?.map fun x => x.num_negative_pics) == some 0,
      (v1.body.st_ref_pic_set[11]?.map fun x => x.num_positive_pics) == some 0,
      ((v1.body.st_ref_pic_set[11]?.map fun x => x.s0.map (·.delta_poc_minus1)).map fun x => x.length) == some 0,
      ((v1.body.st_ref_pic_set[11]?.map fun x => x.s0.map (·.used_by_curr_pic)).map fun x => x.length) == some 0,
      ((v1.body.st_ref_pic_set[11]?.map fun x => x.s1.map (·.delta_poc_minus1)).map fun x => x.length) == some 0,
      ((v1.body.st_ref_pic_set[11]?.map fun x => x.s1.map (·.used_by_curr_pic)).map fun x => x.length) == some 0,
      v1.body.long_term_ref_pics_present_flag == 0, v1.body.sps_temporal_mvp_enabled_flag == 1, v1.body.strong_intra_smoothing_enabled_flag == 1,
      v1.body.vui_parameters_present_flag == 0, v1.body.sps_extension_present_flag == 1, v1.body.sps_range_extension_flag == 0,
      v1.body.sps_multilayer_extension_flag == 1, v1.body.sps_3d_extension_flag == 1, v1.body.sps_scc_extension_flag == 0,
      v1.body.sps_extension_4bits == 0, v1.body.getPicSizeInCtbsY == 510].all id
  | _ => false) = true := by
  decide +kernel

end H265.Tests
