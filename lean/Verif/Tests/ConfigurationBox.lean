import Verif.Model.Fuzz
import Verif.Model.Printable

/-! The assertions of `/repo/test/h265_configuration_box_parser_unittest.cc` run on the model by the kernel. This is
validation of the transcription, not proof: each `example` is one unit test, its bytes and its
expectations copied from the test file. -/

set_option autoImplicit false
set_option maxRecDepth 100000
set_option maxHeartbeats 0
set_option linter.unusedVariables false

namespace H265.Tests

open H265

/-- `test/h265_configuration_box_parser_unittest.cc:21` `TestSampleConfigurationBox` (216 expectations). -/
example : (
  match parseConfigurationBoxBytes true ParserState.empty [1, 1, 96, 0, 0, 0, 128, 0, 0, 0, 0, 0, 120, 240, 0, 252, 253, 248, 248, 0, 0, 15, 3, 160, 0, 1, 0, 24, 64, 1, 12, 1, 255, 255, 1, 96, 0, 0, 3, 0, 128, 0, 0, 3, 0, 0, 3, 0, 120, 157, 192, 144, 161, 0, 1, 0, 39, 66, 1, 1, 1, 96, 0, 0, 3, 0, 128, 0, 0, 3, 0, 0, 3, 0, 120, 160, 3, 192, 128, 50, 22, 89, 222, 73, 27, 107, 128, 64, 0, 0, 250, 0, 0, 23, 112, 2, 162, 0, 1, 0, 6, 68, 1, 193, 115, 209, 137] with
  | .ok (some v1, st2) _ =>
    [true, v1.head.configurationVersion == 1, v1.head.general_profile_space == 0, v1.head.general_tier_flag == 0, v1.head.general_profile_idc == 1,
      v1.head.general_profile_compatibility_flags == [0, 1, 1, 0, 0, 0, 0, 0, 0, 0, 0, 0, 0, 0, 0, 0, 0, 0, 0, 0, 0, 0, 0, 0, 0, 0, 0, 0, 0, 0, 0, 0],
      v1.head.general_constraint_indicator_flags == 140737488355328, v1.head.general_level_idc == 120, v1.head.reserved1 == 15,
      v1.head.min_spatial_segmentation_idc == 0, v1.head.reserved2 == 63, v1.head.parallelismType == 0, v1.head.reserved3 == 63,
      v1.head.chroma_format_idc == 1, v1.head.reserved4 == 31, v1.head.bit_depth_luma_minus8 == 0, v1.head.reserved5 == 31,
      v1.head.bit_depth_chroma_minus8 == 0, v1.head.avgFrameRate == 0, v1.head.constantFrameRate == 0, v1.head.numTemporalLayers == 1,
      v1.head.temporalIdNested == 1, v1.head.lengthSizeMinusOne == 3, v1.head.numOfArrays == 3,
      (v1.arrays.map (·.head.array_completeness)) == [1, 1, 1], (v1.arrays.map (·.head.reserved6)) == [0, 0, 0],
      (v1.arrays.map (·.head.NAL_unit_type)) == [32, 33, 34], (v1.arrays.map (·.head.numNalus)) == [1, 1, 1],
      (v1.arrays.map (·.units.map (·.nalUnitLength)))[0]? == some [24], (v1.arrays.map (·.units.map (·.nalUnitLength)))[1]? == some [39],
      (v1.arrays.map (·.units.map (·.nalUnitLength)))[2]? == some [6]].all id &&
    (
      match ((v1.arrays.map (·.units.map (·.nalUnit)))[0]?.bind fun x => (x[0]?).bind id) with
      | some nalUnit0_3 =>
        [nalUnit0_3.nal_unit_header.forbidden_zero_bit == 0, nalUnit0_3.nal_unit_header.nal_unit_type == 32,
          nalUnit0_3.nal_unit_header.nuh_layer_id == 0, nalUnit0_3.nal_unit_header.nuh_temporal_id_plus1 == 1].all id &&
        (
          match nalUnit0_3.nal_unit_payload.vps with
          | some vps_4 =>
            [vps_4.body.vps_video_parameter_set_id == 0, vps_4.body.vps_base_layer_internal_flag == 1, vps_4.body.vps_base_layer_available_flag == 1,
              vps_4.body.vps_max_layers_minus1 == 0, vps_4.body.vps_max_sub_layers_minus1 == 0, vps_4.body.vps_temporal_id_nesting_flag == 1,
              vps_4.body.vps_reserved_0xffff_16bits == 65535, (vps_4.body.profile_tier_level.general.map fun x => x.profile_space) == some 0,
              (vps_4.body.profile_tier_level.general.map fun x => x.tier_flag) == some 0,
              (vps_4.body.profile_tier_level.general.map fun x => x.profile_idc) == some 1,
              (vps_4.body.profile_tier_level.general.map fun x => x.profile_compatibility_flag) == some [0, 1, 1, 0, 0, 0, 0, 0, 0, 0, 0, 0, 0, 0, 0, 0, 0, 0, 0, 0, 0, 0, 0, 0, 0, 0, 0, 0, 0, 0, 0, 0],
              (vps_4.body.profile_tier_level.general.map fun x => x.progressive_source_flag) == some 1,
              (vps_4.body.profile_tier_level.general.map fun x => x.interlaced_source_flag) == some 0,
              (vps_4.body.profile_tier_level.general.map fun x => x.non_packed_constraint_flag) == some 0,
              (vps_4.body.profile_tier_level.general.map fun x => x.frame_only_constraint_flag) == some 0,
              (vps_4.body.profile_tier_level.general.map fun x => x.constraints.max_12bit_constraint_flag) == some 0,
              (vps_4.body.profile_tier_level.general.map fun x => x.constraints.max_10bit_constraint_flag) == some 0,
              (vps_4.body.profile_tier_level.general.map fun x => x.constraints.max_8bit_constraint_flag) == some 0,
              (vps_4.body.profile_tier_level.general.map fun x => x.constraints.max_422chroma_constraint_flag) == some 0,
              (vps_4.body.profile_tier_level.general.map fun x => x.constraints.max_420chroma_constraint_flag) == some 0,
              (vps_4.body.profile_tier_level.general.map fun x => x.constraints.max_monochrome_constraint_flag) == some 0,
              (vps_4.body.profile_tier_level.general.map fun x => x.constraints.intra_constraint_flag) == some 0,
              (vps_4.body.profile_tier_level.general.map fun x => x.constraints.one_picture_only_constraint_flag) == some 0,
              (vps_4.body.profile_tier_level.general.map fun x => x.constraints.lower_bit_rate_constraint_flag) == some 0,
              (vps_4.body.profile_tier_level.general.map fun x => x.constraints.max_14bit_constraint_flag) == some 0,
              (vps_4.body.profile_tier_level.general.map fun x => x.constraints.reserved_zero_33bits) == some 0,
              (vps_4.body.profile_tier_level.general.map fun x => x.constraints.reserved_zero_34bits) == some 0,
              (vps_4.body.profile_tier_level.general.map fun x => x.constraints.reserved_zero_43bits) == some 0,
              (vps_4.body.profile_tier_level.general.map fun x => x.inbld_flag) == some 0,
              (vps_4.body.profile_tier_level.general.map fun x => x.reserved_zero_bit) == some 0,
              vps_4.body.profile_tier_level.general_level_idc == 120, (vps_4.body.profile_tier_level.sub_layer_flags.map (·.1)).length == 0,
              (vps_4.body.profile_tier_level.sub_layer_flags.map (·.2)).length == 0, vps_4.body.profile_tier_level.reserved_zero_2bits.length == 0,
              vps_4.body.profile_tier_level.sub_layers.length == 0, vps_4.body.vps_sub_layer_ordering_info_present_flag == 1,
              (vps_4.body.sub_layer_ordering.map (·.max_dec_pic_buffering_minus1)) == [6],
              (vps_4.body.sub_layer_ordering.map (·.max_num_reorder_pics)) == [2],
              (vps_4.body.sub_layer_ordering.map (·.max_latency_increase_plus1)) == [0], vps_4.body.vps_max_layer_id == 0,
              vps_4.body.vps_num_layer_sets_minus1 == 0, vps_4.body.layer_id_included_flag.length == 0, vps_4.body.vps_timing_info_present_flag == 0,
              vps_4.body.vps_num_units_in_tick == 0, vps_4.body.vps_time_scale == 0, vps_4.body.vps_poc_proportional_to_timing_flag == 0,
              vps_4.body.vps_num_ticks_poc_diff_one_minus1 == 0, vps_4.body.vps_num_hrd_parameters == 0,
              (vps_4.body.hrds.map (·.hrd_layer_set_idx)).length == 0, (vps_4.body.hrds.map (·.cprms_present_flag)).length == 0,
              vps_4.body.vps_extension_flag == 0, vps_4.vps_extension_data_flag == 0].all id &&
            (
              match ((v1.arrays.map (·.units.map (·.nalUnit)))[1]?.bind fun x => (x[0]?).bind id) with
              | some nalUnit1_5 =>
                [nalUnit1_5.nal_unit_header.forbidden_zero_bit == 0, nalUnit1_5.nal_unit_header.nal_unit_type == 33,
                  nalUnit1_5.nal_unit_header.nuh_layer_id == 0, nalUnit1_5.nal_unit_header.nuh_temporal_id_plus1 == 1].all id &&
                (
                  match nalUnit1_5.nal_unit_payload.sps with
                  | some sps_6 =>
                    [sps_6.body.sps_video_parameter_set_id == 0, sps_6.body.sps_max_sub_layers_minus1 == 0,
                      sps_6.body.sps_temporal_id_nesting_flag == 1, (sps_6.body.profile_tier_level.general.map fun x => x.profile_space) == some 0,
                      (sps_6.body.profile_tier_level.general.map fun x => x.tier_flag) == some 0,
                      (sps_6.body.profile_tier_level.general.map fun x => x.profile_idc) == some 1,
                      (sps_6.body.profile_tier_level.general.map fun x => x.profile_compatibility_flag) == some [0, 1, 1, 0, 0, 0, 0, 0, 0, 0, 0, 0, 0, 0, 0, 0, 0, 0, 0, 0, 0, 0, 0, 0, 0, 0, 0, 0, 0, 0, 0, 0],
                      (sps_6.body.profile_tier_level.general.map fun x => x.progressive_source_flag) == some 1,
                      (sps_6.body.profile_tier_level.general.map fun x => x.interlaced_source_flag) == some 0,
                      (sps_6.body.profile_tier_level.general.map fun x => x.non_packed_constraint_flag) == some 0,
                      (sps_6.body.profile_tier_level.general.map fun x => x.frame_only_constraint_flag) == some 0,
                      (sps_6.body.profile_tier_level.general.map fun x => x.constraints.max_12bit_constraint_flag) == some 0,
                      (sps_6.body.profile_tier_level.general.map fun x => x.constraints.max_10bit_constraint_flag) == some 0,
                      (sps_6.body.profile_tier_level.general.map fun x => x.constraints.max_8bit_constraint_flag) == some 0,
                      (sps_6.body.profile_tier_level.general.map fun x => x.constraints.max_422chroma_constraint_flag) == some 0,
                      (sps_6.body.profile_tier_level.general.map fun x => x.constraints.max_420chroma_constraint_flag) == some 0,
                      (sps_6.body.profile_tier_level.general.map fun x => x.constraints.max_monochrome_constraint_flag) == some 0,
                      (sps_6.body.profile_tier_level.general.map fun x => x.constraints.intra_constraint_flag) == some 0,
                      (sps_6.body.profile_tier_level.general.map fun x => x.constraints.one_picture_only_constraint_flag) == some 0,
                      (sps_6.body.profile_tier_level.general.map fun x => x.constraints.lower_bit_rate_constraint_flag) == some 0,
                      (sps_6.body.profile_tier_level.general.map fun x => x.constraints.max_14bit_constraint_flag) == some 0,
                      (sps_6.body.profile_tier_level.general.map fun x => x.constraints.reserved_zero_33bits) == some 0,
                      (sps_6.body.profile_tier_level.general.map fun x => x.constraints.reserved_zero_34bits) == some 0,
                      (sps_6.body.profile_tier_level.general.map fun x => x.constraints.reserved_zero_43bits) == some 0,
                      (sps_6.body.profile_tier_level.general.map fun x => x.inbld_flag) == some 0,
                      (sps_6.body.profile_tier_level.general.map fun x => x.reserved_zero_bit) == some 0,
                      sps_6.body.profile_tier_level.general_level_idc == 120, (sps_6.body.profile_tier_level.sub_layer_flags.map (·.1)).length == 0,
                      (sps_6.body.profile_tier_level.sub_layer_flags.map (·.2)).length == 0,
                      sps_6.body.profile_tier_level.reserved_zero_2bits.length == 0, sps_6.body.profile_tier_level.sub_layers.length == 0,
                      sps_6.body.sps_seq_parameter_set_id == 0, sps_6.body.chroma_format_idc == 1, sps_6.body.pic_width_in_luma_samples == 1920,
                      sps_6.body.pic_height_in_luma_samples == 800, sps_6.body.conformance_window_flag == 0, sps_6.body.conf_win_left_offset == 0,
                      sps_6.body.conf_win_right_offset == 0, sps_6.body.conf_win_top_offset == 0, sps_6.body.conf_win_bottom_offset == 0,
                      sps_6.body.bit_depth_luma_minus8 == 0, sps_6.body.bit_depth_chroma_minus8 == 0,
                      sps_6.body.log2_max_pic_order_cnt_lsb_minus4 == 4, sps_6.body.sps_sub_layer_ordering_info_present_flag == 1,
                      (sps_6.body.sub_layer_ordering.map (·.sps_max_dec_pic_buffering_minus1)) == [6],
                      (sps_6.body.sub_layer_ordering.map (·.sps_max_num_reorder_pics)) == [2],
                      (sps_6.body.sub_layer_ordering.map (·.sps_max_latency_increase_plus1)) == [0],
                      sps_6.body.log2_min_luma_coding_block_size_minus3 == 0, sps_6.body.log2_diff_max_min_luma_coding_block_size == 3,
                      sps_6.body.log2_min_luma_transform_block_size_minus2 == 0, sps_6.body.log2_diff_max_min_luma_transform_block_size == 3,
                      sps_6.body.max_transform_hierarchy_depth_inter == 2, sps_6.body.max_transform_hierarchy_depth_intra == 2,
                      sps_6.body.scaling_list_enabled_flag == 0, sps_6.body.amp_enabled_flag == 1,
                      sps_6.body.sample_adaptive_offset_enabled_flag == 1, sps_6.body.pcm_enabled_flag == 0,
                      sps_6.body.num_short_term_ref_pic_sets == 0,
                      (sps_6.body.vui_parameters.map fun x => x.aspect_ratio_info_present_flag) == some 0,
                      (sps_6.body.vui_parameters.map fun x => x.overscan_info_present_flag) == some 0,
                      (sps_6.body.vui_parameters.map fun x => x.video_signal_type_present_flag) == some 0,
                      (sps_6.body.vui_parameters.map fun x => x.video_format) == some 0,
                      (sps_6.body.vui_parameters.map fun x => x.video_full_range_flag) == some 0,
                      (sps_6.body.vui_parameters.map fun x => x.colour_description_present_flag) == some 0,
                      (sps_6.body.vui_parameters.map fun x => x.colour_primaries) == some 0,
                      (sps_6.body.vui_parameters.map fun x => x.transfer_characteristics) == some 0,
                      (sps_6.body.vui_parameters.map fun x => x.matrix_coeffs) == some 0,
                      (sps_6.body.vui_parameters.map fun x => x.chroma_loc_info_present_flag) == some 0,
                      (sps_6.body.vui_parameters.map fun x => x.neutral_chroma_indication_flag) == some 0,
                      (sps_6.body.vui_parameters.map fun x => x.field_seq_flag) == some 0,
                      (sps_6.body.vui_parameters.map fun x => x.frame_field_info_present_flag) == some 0,
                      (sps_6.body.vui_parameters.map fun x => x.default_display_window_flag) == some 0,
                      (sps_6.body.vui_parameters.map fun x => x.vui_timing_info_present_flag) == some 1,
                      (sps_6.body.vui_parameters.map fun x => x.vui_num_units_in_tick) == some 1000,
                      (sps_6.body.vui_parameters.map fun x => x.vui_time_scale) == some 24000,
                      (sps_6.body.vui_parameters.map fun x => x.vui_poc_proportional_to_timing_flag) == some 0,
                      (sps_6.body.vui_parameters.map fun x => x.vui_num_ticks_poc_diff_one_minus1) == some 0,
                      (sps_6.body.vui_parameters.map fun x => x.bitstream_restriction_flag) == some 0,
                      (sps_6.body.vui_parameters.map fun x => x.tiles_fixed_structure_flag) == some 0,
                      (sps_6.body.vui_parameters.map fun x => x.motion_vectors_over_pic_boundaries_flag) == some 0,
                      (sps_6.body.vui_parameters.map fun x => x.restricted_ref_pic_lists_flag) == some 0,
                      (sps_6.body.vui_parameters.map fun x => x.min_spatial_segmentation_idc) == some 0,
                      (sps_6.body.vui_parameters.map fun x => x.max_bytes_per_pic_denom) == some 0,
                      (sps_6.body.vui_parameters.map fun x => x.max_bits_per_min_cu_denom) == some 0,
                      (sps_6.body.vui_parameters.map fun x => x.log2_max_mv_length_horizontal) == some 0,
                      (sps_6.body.vui_parameters.map fun x => x.log2_max_mv_length_vertical) == some 0, sps_6.body.sps_extension_present_flag == 0,
                      sps_6.body.sps_range_extension_flag == 0, sps_6.body.sps_multilayer_extension_flag == 0, sps_6.body.sps_3d_extension_flag == 0,
                      sps_6.body.sps_scc_extension_flag == 0, sps_6.body.sps_extension_4bits == 0].all id &&
                    (
                      match ((v1.arrays.map (·.units.map (·.nalUnit)))[2]?.bind fun x => (x[0]?).bind id) with
                      | some nalUnit2_7 =>
                        [nalUnit2_7.nal_unit_header.forbidden_zero_bit == 0, nalUnit2_7.nal_unit_header.nal_unit_type == 34,
                          nalUnit2_7.nal_unit_header.nuh_layer_id == 0, nalUnit2_7.nal_unit_header.nuh_temporal_id_plus1 == 1].all id &&
                        (
                          match nalUnit2_7.nal_unit_payload.pps with
                          | some pps_8 =>
                            [pps_8.body.head.pps_pic_parameter_set_id == 0, pps_8.body.head.pps_seq_parameter_set_id == 0,
                              pps_8.body.head.dependent_slice_segments_enabled_flag == 0, pps_8.body.head.output_flag_present_flag == 0,
                              pps_8.body.head.num_extra_slice_header_bits == 0, pps_8.body.head.sign_data_hiding_enabled_flag == 1,
                              pps_8.body.head.cabac_init_present_flag == 0, pps_8.body.head.num_ref_idx_l0_default_active_minus1 == 0,
                              pps_8.body.head.num_ref_idx_l1_default_active_minus1 == 0, pps_8.body.head.init_qp_minus26 == 0,
                              pps_8.body.head.constrained_intra_pred_flag == 0, pps_8.body.head.transform_skip_enabled_flag == 0,
                              pps_8.body.head.cu_qp_delta_enabled_flag == 1, pps_8.body.head.diff_cu_qp_delta_depth == 0,
                              pps_8.body.head.pps_cb_qp_offset == 0, pps_8.body.head.pps_cr_qp_offset == 0,
                              pps_8.body.head.pps_slice_chroma_qp_offsets_present_flag == 0, pps_8.body.head.weighted_pred_flag == 1,
                              pps_8.body.head.weighted_bipred_flag == 0, pps_8.body.head.transquant_bypass_enabled_flag == 0,
                              pps_8.body.head.tiles_enabled_flag == 0, pps_8.body.head.entropy_coding_sync_enabled_flag == 1,
                              pps_8.body.head.pps_loop_filter_across_slices_enabled_flag == 1,
                              pps_8.body.head.deblocking_filter_control_present_flag == 0, pps_8.body.head.pps_scaling_list_data_present_flag == 0,
                              pps_8.body.head.lists_modification_present_flag == 0, pps_8.body.head.log2_parallel_merge_level_minus2 == 0,
                              pps_8.body.head.slice_segment_header_extension_present_flag == 0, pps_8.body.head.pps_extension_present_flag == 0].all id
                          | _ => false)
                      | _ => false)
                  | _ => false)
              | _ => false)
          | _ => false)
      | _ => false)
  | _ => false) = true := by
  decide +kernel

end H265.Tests
