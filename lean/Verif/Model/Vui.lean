/-
Model of src/h265_vui_parameters_parser.cc.
-/
import Verif.Model.Hrd
import Verif.Spec.Vui

namespace H265
open Prog

/-- `ParseVuiParameters`, src/h265_vui_parameters_parser.cc:33-403; range constants include/h265_vui_parameters_parser.h:43-88
(nested conditions flattened) -/
def parseVuiParameters (max_sub : Nat) : Prog VuiParameters := do
  let aspect_ratio_info_present_flag ← u 1
  let aspect_ratio_idc ← opt (aspect_ratio_info_present_flag ≠ 0) (u 8) 0
  let sar_width ← opt (aspect_ratio_info_present_flag ≠ 0 ∧ aspect_ratio_idc = 255) (u 16) 0
  let sar_height ← opt (aspect_ratio_info_present_flag ≠ 0 ∧ aspect_ratio_idc = 255) (u 16) 0
  let overscan_info_present_flag ← u 1
  let overscan_appropriate_flag ← opt (overscan_info_present_flag ≠ 0) (u 1) 0
  let video_signal_type_present_flag ← u 1
  let video_format ← opt (video_signal_type_present_flag ≠ 0) (u 3) 0
  let video_full_range_flag ← opt (video_signal_type_present_flag ≠ 0) (u 1) 0
  let colour_description_present_flag ← opt (video_signal_type_present_flag ≠ 0) (u 1) 0
  let colour_primaries ← opt (video_signal_type_present_flag ≠ 0 ∧ colour_description_present_flag ≠ 0) (u 8) 0
  let transfer_characteristics ← opt (video_signal_type_present_flag ≠ 0 ∧ colour_description_present_flag ≠ 0) (u 8) 0
  let matrix_coeffs ← opt (video_signal_type_present_flag ≠ 0 ∧ colour_description_present_flag ≠ 0) (u 8) 0
  let chroma_loc_info_present_flag ← u 1
  let chroma_sample_loc_type_top_field ← opt (chroma_loc_info_present_flag ≠ 0) (ueRange 0 5) 0
  let chroma_sample_loc_type_bottom_field ← opt (chroma_loc_info_present_flag ≠ 0) (ueRange 0 5) 0
  let neutral_chroma_indication_flag ← u 1
  let field_seq_flag ← u 1
  let frame_field_info_present_flag ← u 1
  let default_display_window_flag ← u 1
  let def_disp_win_left_offset ← opt (default_display_window_flag ≠ 0) (ueRange 0 16384) 0
  let def_disp_win_right_offset ← opt (default_display_window_flag ≠ 0) (ueRange 0 16384) 0
  let def_disp_win_top_offset ← opt (default_display_window_flag ≠ 0) (ueRange 0 16384) 0
  let def_disp_win_bottom_offset ← opt (default_display_window_flag ≠ 0) (ueRange 0 16384) 0
  let vui_timing_info_present_flag ← u 1
  let vui_num_units_in_tick ← opt (vui_timing_info_present_flag ≠ 0) (u 32) 0
  let vui_time_scale ← opt (vui_timing_info_present_flag ≠ 0) (u 32) 0
  let vui_poc_proportional_to_timing_flag ← opt (vui_timing_info_present_flag ≠ 0) (u 1) 0
  let vui_num_ticks_poc_diff_one_minus1 ← opt (vui_timing_info_present_flag ≠ 0 ∧ vui_poc_proportional_to_timing_flag ≠ 0) (ueRange 0 (2 ^ 32 - 2)) 0
  let vui_hrd_parameters_present_flag ← opt (vui_timing_info_present_flag ≠ 0) (u 1) 0
  let hrd_parameters ← maybe (vui_timing_info_present_flag ≠ 0 ∧ vui_hrd_parameters_present_flag ≠ 0) (parseHrdParameters 1 max_sub)
  let bitstream_restriction_flag ← u 1
  let tiles_fixed_structure_flag ← opt (bitstream_restriction_flag ≠ 0) (u 1) 0
  let motion_vectors_over_pic_boundaries_flag ← opt (bitstream_restriction_flag ≠ 0) (u 1) 0
  let restricted_ref_pic_lists_flag ← opt (bitstream_restriction_flag ≠ 0) (u 1) 0
  let min_spatial_segmentation_idc ← opt (bitstream_restriction_flag ≠ 0) (ueRange 0 4095) 0
  let max_bytes_per_pic_denom ← opt (bitstream_restriction_flag ≠ 0) (ueRange 0 16) 0
  let max_bits_per_min_cu_denom ← opt (bitstream_restriction_flag ≠ 0) (ueRange 0 16) 0
  let log2_max_mv_length_horizontal ← opt (bitstream_restriction_flag ≠ 0) (ueRange 0 16) 0
  let log2_max_mv_length_vertical ← opt (bitstream_restriction_flag ≠ 0) (ueRange 0 15) 0
  return { aspect_ratio_info_present_flag, aspect_ratio_idc, sar_width, sar_height, overscan_info_present_flag, overscan_appropriate_flag, video_signal_type_present_flag, video_format, video_full_range_flag, colour_description_present_flag, colour_primaries, transfer_characteristics, matrix_coeffs, chroma_loc_info_present_flag, chroma_sample_loc_type_top_field, chroma_sample_loc_type_bottom_field, neutral_chroma_indication_flag, field_seq_flag, frame_field_info_present_flag, default_display_window_flag, def_disp_win_left_offset, def_disp_win_right_offset, def_disp_win_top_offset, def_disp_win_bottom_offset, vui_timing_info_present_flag, vui_num_units_in_tick, vui_time_scale, vui_poc_proportional_to_timing_flag, vui_num_ticks_poc_diff_one_minus1, vui_hrd_parameters_present_flag, hrd_parameters, bitstream_restriction_flag, tiles_fixed_structure_flag, motion_vectors_over_pic_boundaries_flag, restricted_ref_pic_lists_flag, min_spatial_segmentation_idc, max_bytes_per_pic_denom, max_bits_per_min_cu_denom, log2_max_mv_length_horizontal, log2_max_mv_length_vertical }

end H265
