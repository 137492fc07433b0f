import Verif.Model.Fuzz
import Verif.Model.Printable

/-! The assertions of `/repo/test/h265_vui_parameters_parser_unittest.cc` run on the model by the kernel. This is
validation of the transcription, not proof: each `example` is one unit test, its bytes and its
expectations copied from the test file. -/

set_option autoImplicit false
set_option maxRecDepth 100000
set_option maxHeartbeats 0
set_option linter.unusedVariables false

namespace H265.Tests

open H265

/-- `test/h265_vui_parameters_parser_unittest.cc:21` `TestSampleVuiParameters` (25 expectations). -/
example : (
  match parseVuiParametersBytes [43, 5, 6, 6, 2, 237, 10, 18] 0 with
  | .ok v1 _ =>
    [true, v1.aspect_ratio_info_present_flag == 0, v1.overscan_info_present_flag == 0, v1.video_signal_type_present_flag == 1, v1.video_format == 2,
      v1.video_full_range_flag == 1, v1.colour_description_present_flag == 1, v1.colour_primaries == 5, v1.transfer_characteristics == 6,
      v1.matrix_coeffs == 6, v1.chroma_loc_info_present_flag == 0, v1.neutral_chroma_indication_flag == 0, v1.field_seq_flag == 0,
      v1.frame_field_info_present_flag == 0, v1.default_display_window_flag == 0, v1.vui_timing_info_present_flag == 0,
      v1.bitstream_restriction_flag == 1, v1.tiles_fixed_structure_flag == 0, v1.motion_vectors_over_pic_boundaries_flag == 1,
      v1.restricted_ref_pic_lists_flag == 1, v1.min_spatial_segmentation_idc == 0, v1.max_bytes_per_pic_denom == 2,
      v1.max_bits_per_min_cu_denom == 1, v1.log2_max_mv_length_horizontal == 9, v1.log2_max_mv_length_vertical == 8].all id
  | _ => false) = true := by
  decide +kernel

/-- `test/h265_vui_parameters_parser_unittest.cc:61` `TestSampleVuiParameters2` (21 expectations). -/
example : (
  match parseVuiParametersBytes [255, 128, 64, 0, 58, 180, 4, 0, 0, 15, 164, 0, 1, 212, 192, 32] 0 with
  | .ok v1 _ =>
    [true, v1.aspect_ratio_info_present_flag == 1, v1.aspect_ratio_idc == 255, v1.sar_width == 128, v1.sar_height == 117,
      v1.overscan_info_present_flag == 0, v1.video_signal_type_present_flag == 1, v1.video_format == 5, v1.video_full_range_flag == 0,
      v1.colour_description_present_flag == 0, v1.chroma_loc_info_present_flag == 0, v1.neutral_chroma_indication_flag == 0, v1.field_seq_flag == 0,
      v1.frame_field_info_present_flag == 0, v1.default_display_window_flag == 0, v1.vui_timing_info_present_flag == 1,
      v1.vui_num_units_in_tick == 1001, v1.vui_time_scale == 30000, v1.vui_poc_proportional_to_timing_flag == 0,
      v1.vui_hrd_parameters_present_flag == 0, v1.bitstream_restriction_flag == 0].all id
  | _ => false) = true := by
  decide +kernel

/-- `test/h265_vui_parameters_parser_unittest.cc:98` `TestSampleVuiParametersNvenc` (47 expectations). -/
example : (
  match parseVuiParametersBytes [128, 128, 128, 0, 0, 0, 128, 0, 0, 30, 48, 2, 239, 40, 128, 0, 183, 27, 0, 0, 244, 36, 0] 0 with
  | .ok v1 _ =>
    [true, v1.aspect_ratio_info_present_flag == 1, v1.aspect_ratio_idc == 1, v1.sar_width == 0, v1.sar_height == 0,
      v1.overscan_info_present_flag == 0, v1.video_signal_type_present_flag == 0, v1.video_format == 0, v1.video_full_range_flag == 0,
      v1.colour_description_present_flag == 0, v1.chroma_loc_info_present_flag == 0, v1.neutral_chroma_indication_flag == 0, v1.field_seq_flag == 0,
      v1.frame_field_info_present_flag == 0, v1.default_display_window_flag == 0, v1.vui_timing_info_present_flag == 1,
      v1.vui_num_units_in_tick == 1, v1.vui_time_scale == 60, v1.vui_poc_proportional_to_timing_flag == 0, v1.vui_hrd_parameters_present_flag == 1,
      v1.bitstream_restriction_flag == 0].all id &&
    (
      match v1.hrd_parameters with
      | some hrd_parameters_2 =>
        [true, hrd_parameters_2.nal_hrd_parameters_present_flag == 1, hrd_parameters_2.vcl_hrd_parameters_present_flag == 0,
          hrd_parameters_2.sub_pic_hrd_params_present_flag == 0, hrd_parameters_2.tick_divisor_minus2 == 0,
          hrd_parameters_2.du_cpb_removal_delay_increment_length_minus1 == 0, hrd_parameters_2.sub_pic_cpb_params_in_pic_timing_sei_flag == 0,
          hrd_parameters_2.dpb_output_delay_du_length_minus1 == 0, hrd_parameters_2.bit_rate_scale == 0, hrd_parameters_2.cpb_size_scale == 0,
          hrd_parameters_2.cpb_size_du_scale == 0, hrd_parameters_2.initial_cpb_removal_delay_length_minus1 == 23,
          hrd_parameters_2.au_cpb_removal_delay_length_minus1 == 15, hrd_parameters_2.dpb_output_delay_length_minus1 == 5,
          (hrd_parameters_2.sub_layers.map (·.fixed_pic_rate_general_flag)) == [0],
          (hrd_parameters_2.sub_layers.map (·.fixed_pic_rate_within_cvs_flag)) == [0],
          (hrd_parameters_2.sub_layers.map (·.elemental_duration_in_tc_minus1)) == [0],
          (hrd_parameters_2.sub_layers.map (·.low_delay_hrd_flag)) == [0], (hrd_parameters_2.sub_layers.map (·.cpb_cnt_minus1)) == [0],
          (hrd_parameters_2.sub_layers.filterMap (fun y => y.nal_hrd.or y.vcl_hrd)).length == 1,
          (hrd_parameters_2.sub_layers.filterMap (fun y => y.nal_hrd.or y.vcl_hrd))[0]?.isSome,
          ((hrd_parameters_2.sub_layers.filterMap (fun y => y.nal_hrd.or y.vcl_hrd))[0]?.map fun x => x.map (·.bit_rate_value_minus1)) == some [46874],
          ((hrd_parameters_2.sub_layers.filterMap (fun y => y.nal_hrd.or y.vcl_hrd))[0]?.map fun x => x.map (·.cpb_size_value_minus1)) == some [124999],
          ((hrd_parameters_2.sub_layers.filterMap (fun y => y.nal_hrd.or y.vcl_hrd))[0]?.map fun x => x.map (·.cpb_size_du_value_minus1)) == some [0],
          ((hrd_parameters_2.sub_layers.filterMap (fun y => y.nal_hrd.or y.vcl_hrd))[0]?.map fun x => x.map (·.bit_rate_du_value_minus1)) == some [0],
          ((hrd_parameters_2.sub_layers.filterMap (fun y => y.nal_hrd.or y.vcl_hrd))[0]?.map fun x => x.map (·.cbr_flag)) == some [0]].all id
      | _ => false)
  | _ => false) = true := by
  decide +kernel

end H265.Tests
