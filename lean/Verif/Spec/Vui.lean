/-
Syntax of vui_parameters() (Annex E).
-/
import Verif.Spec.Hrd

namespace H265
open Spec

/-- `VuiParametersState`, include/h265_vui_parameters_parser.h:106-156, without the input parameter. -/
structure VuiParameters where
  aspect_ratio_info_present_flag : Nat
  aspect_ratio_idc : Nat
  sar_width : Nat
  sar_height : Nat
  overscan_info_present_flag : Nat
  overscan_appropriate_flag : Nat
  video_signal_type_present_flag : Nat
  video_format : Nat
  video_full_range_flag : Nat
  colour_description_present_flag : Nat
  colour_primaries : Nat
  transfer_characteristics : Nat
  matrix_coeffs : Nat
  chroma_loc_info_present_flag : Nat
  chroma_sample_loc_type_top_field : Nat
  chroma_sample_loc_type_bottom_field : Nat
  neutral_chroma_indication_flag : Nat
  field_seq_flag : Nat
  frame_field_info_present_flag : Nat
  default_display_window_flag : Nat
  def_disp_win_left_offset : Nat
  def_disp_win_right_offset : Nat
  def_disp_win_top_offset : Nat
  def_disp_win_bottom_offset : Nat
  vui_timing_info_present_flag : Nat
  vui_num_units_in_tick : Nat
  vui_time_scale : Nat
  vui_poc_proportional_to_timing_flag : Nat
  vui_num_ticks_poc_diff_one_minus1 : Nat
  vui_hrd_parameters_present_flag : Nat
  hrd_parameters : Option HrdParameters
  bitstream_restriction_flag : Nat
  tiles_fixed_structure_flag : Nat
  motion_vectors_over_pic_boundaries_flag : Nat
  restricted_ref_pic_lists_flag : Nat
  min_spatial_segmentation_idc : Nat
  max_bytes_per_pic_denom : Nat
  max_bits_per_min_cu_denom : Nat
  log2_max_mv_length_horizontal : Nat
  log2_max_mv_length_vertical : Nat
  deriving DecidableEq, Repr, Inhabited

namespace Spec
/-- vui_parameters(), clause E.2.1 -/
def vuiParameters (s : VuiParameters) : List Bool :=
  seq [u 1 s.aspect_ratio_info_present_flag,
    cond (s.aspect_ratio_info_present_flag ≠ 0) (u 8 s.aspect_ratio_idc),
    cond (s.aspect_ratio_info_present_flag ≠ 0 ∧ s.aspect_ratio_idc = 255) (u 16 s.sar_width),
    cond (s.aspect_ratio_info_present_flag ≠ 0 ∧ s.aspect_ratio_idc = 255) (u 16 s.sar_height),
    u 1 s.overscan_info_present_flag,
    cond (s.overscan_info_present_flag ≠ 0) (u 1 s.overscan_appropriate_flag),
    u 1 s.video_signal_type_present_flag,
    cond (s.video_signal_type_present_flag ≠ 0) (u 3 s.video_format),
    cond (s.video_signal_type_present_flag ≠ 0) (u 1 s.video_full_range_flag),
    cond (s.video_signal_type_present_flag ≠ 0) (u 1 s.colour_description_present_flag),
    cond (s.video_signal_type_present_flag ≠ 0 ∧ s.colour_description_present_flag ≠ 0) (u 8 s.colour_primaries),
    cond (s.video_signal_type_present_flag ≠ 0 ∧ s.colour_description_present_flag ≠ 0) (u 8 s.transfer_characteristics),
    cond (s.video_signal_type_present_flag ≠ 0 ∧ s.colour_description_present_flag ≠ 0) (u 8 s.matrix_coeffs),
    u 1 s.chroma_loc_info_present_flag,
    cond (s.chroma_loc_info_present_flag ≠ 0) (ue s.chroma_sample_loc_type_top_field),
    cond (s.chroma_loc_info_present_flag ≠ 0) (ue s.chroma_sample_loc_type_bottom_field),
    u 1 s.neutral_chroma_indication_flag,
    u 1 s.field_seq_flag,
    u 1 s.frame_field_info_present_flag,
    u 1 s.default_display_window_flag,
    cond (s.default_display_window_flag ≠ 0) (ue s.def_disp_win_left_offset),
    cond (s.default_display_window_flag ≠ 0) (ue s.def_disp_win_right_offset),
    cond (s.default_display_window_flag ≠ 0) (ue s.def_disp_win_top_offset),
    cond (s.default_display_window_flag ≠ 0) (ue s.def_disp_win_bottom_offset),
    u 1 s.vui_timing_info_present_flag,
    cond (s.vui_timing_info_present_flag ≠ 0) (u 32 s.vui_num_units_in_tick),
    cond (s.vui_timing_info_present_flag ≠ 0) (u 32 s.vui_time_scale),
    cond (s.vui_timing_info_present_flag ≠ 0) (u 1 s.vui_poc_proportional_to_timing_flag),
    cond (s.vui_timing_info_present_flag ≠ 0 ∧ s.vui_poc_proportional_to_timing_flag ≠ 0) (ue s.vui_num_ticks_poc_diff_one_minus1),
    cond (s.vui_timing_info_present_flag ≠ 0) (u 1 s.vui_hrd_parameters_present_flag),
    optional (hrdParameters 1) s.hrd_parameters,
    u 1 s.bitstream_restriction_flag,
    cond (s.bitstream_restriction_flag ≠ 0) (u 1 s.tiles_fixed_structure_flag),
    cond (s.bitstream_restriction_flag ≠ 0) (u 1 s.motion_vectors_over_pic_boundaries_flag),
    cond (s.bitstream_restriction_flag ≠ 0) (u 1 s.restricted_ref_pic_lists_flag),
    cond (s.bitstream_restriction_flag ≠ 0) (ue s.min_spatial_segmentation_idc),
    cond (s.bitstream_restriction_flag ≠ 0) (ue s.max_bytes_per_pic_denom),
    cond (s.bitstream_restriction_flag ≠ 0) (ue s.max_bits_per_min_cu_denom),
    cond (s.bitstream_restriction_flag ≠ 0) (ue s.log2_max_mv_length_horizontal),
    cond (s.bitstream_restriction_flag ≠ 0) (ue s.log2_max_mv_length_vertical)]

/-- ranges -/
structure ValidVuiParameters (max_sub : Nat) (s : VuiParameters) : Prop where
  aspect_ratio_info_present_flag : s.aspect_ratio_info_present_flag < 2 ^ 1
  aspect_ratio_idc : Opt (s.aspect_ratio_info_present_flag ≠ 0) (s.aspect_ratio_idc < 2 ^ 8) (s.aspect_ratio_idc = 0)
  sar_width : Opt (s.aspect_ratio_info_present_flag ≠ 0 ∧ s.aspect_ratio_idc = 255) (s.sar_width < 2 ^ 16) (s.sar_width = 0)
  sar_height : Opt (s.aspect_ratio_info_present_flag ≠ 0 ∧ s.aspect_ratio_idc = 255) (s.sar_height < 2 ^ 16) (s.sar_height = 0)
  overscan_info_present_flag : s.overscan_info_present_flag < 2 ^ 1
  overscan_appropriate_flag : Opt (s.overscan_info_present_flag ≠ 0) (s.overscan_appropriate_flag < 2 ^ 1) (s.overscan_appropriate_flag = 0)
  video_signal_type_present_flag : s.video_signal_type_present_flag < 2 ^ 1
  video_format : Opt (s.video_signal_type_present_flag ≠ 0) (s.video_format < 2 ^ 3) (s.video_format = 0)
  video_full_range_flag : Opt (s.video_signal_type_present_flag ≠ 0) (s.video_full_range_flag < 2 ^ 1) (s.video_full_range_flag = 0)
  colour_description_present_flag : Opt (s.video_signal_type_present_flag ≠ 0) (s.colour_description_present_flag < 2 ^ 1) (s.colour_description_present_flag = 0)
  colour_primaries : Opt (s.video_signal_type_present_flag ≠ 0 ∧ s.colour_description_present_flag ≠ 0) (s.colour_primaries < 2 ^ 8) (s.colour_primaries = 0)
  transfer_characteristics : Opt (s.video_signal_type_present_flag ≠ 0 ∧ s.colour_description_present_flag ≠ 0) (s.transfer_characteristics < 2 ^ 8) (s.transfer_characteristics = 0)
  matrix_coeffs : Opt (s.video_signal_type_present_flag ≠ 0 ∧ s.colour_description_present_flag ≠ 0) (s.matrix_coeffs < 2 ^ 8) (s.matrix_coeffs = 0)
  chroma_loc_info_present_flag : s.chroma_loc_info_present_flag < 2 ^ 1
  chroma_sample_loc_type_top_field : Opt (s.chroma_loc_info_present_flag ≠ 0) (0 ≤ s.chroma_sample_loc_type_top_field ∧ s.chroma_sample_loc_type_top_field ≤ 5) (s.chroma_sample_loc_type_top_field = 0)
  chroma_sample_loc_type_bottom_field : Opt (s.chroma_loc_info_present_flag ≠ 0) (0 ≤ s.chroma_sample_loc_type_bottom_field ∧ s.chroma_sample_loc_type_bottom_field ≤ 5) (s.chroma_sample_loc_type_bottom_field = 0)
  neutral_chroma_indication_flag : s.neutral_chroma_indication_flag < 2 ^ 1
  field_seq_flag : s.field_seq_flag < 2 ^ 1
  frame_field_info_present_flag : s.frame_field_info_present_flag < 2 ^ 1
  default_display_window_flag : s.default_display_window_flag < 2 ^ 1
  def_disp_win_left_offset : Opt (s.default_display_window_flag ≠ 0) (0 ≤ s.def_disp_win_left_offset ∧ s.def_disp_win_left_offset ≤ 16384) (s.def_disp_win_left_offset = 0)
  def_disp_win_right_offset : Opt (s.default_display_window_flag ≠ 0) (0 ≤ s.def_disp_win_right_offset ∧ s.def_disp_win_right_offset ≤ 16384) (s.def_disp_win_right_offset = 0)
  def_disp_win_top_offset : Opt (s.default_display_window_flag ≠ 0) (0 ≤ s.def_disp_win_top_offset ∧ s.def_disp_win_top_offset ≤ 16384) (s.def_disp_win_top_offset = 0)
  def_disp_win_bottom_offset : Opt (s.default_display_window_flag ≠ 0) (0 ≤ s.def_disp_win_bottom_offset ∧ s.def_disp_win_bottom_offset ≤ 16384) (s.def_disp_win_bottom_offset = 0)
  vui_timing_info_present_flag : s.vui_timing_info_present_flag < 2 ^ 1
  vui_num_units_in_tick : Opt (s.vui_timing_info_present_flag ≠ 0) (s.vui_num_units_in_tick < 2 ^ 32) (s.vui_num_units_in_tick = 0)
  vui_time_scale : Opt (s.vui_timing_info_present_flag ≠ 0) (s.vui_time_scale < 2 ^ 32) (s.vui_time_scale = 0)
  vui_poc_proportional_to_timing_flag : Opt (s.vui_timing_info_present_flag ≠ 0) (s.vui_poc_proportional_to_timing_flag < 2 ^ 1) (s.vui_poc_proportional_to_timing_flag = 0)
  vui_num_ticks_poc_diff_one_minus1 : Opt (s.vui_timing_info_present_flag ≠ 0 ∧ s.vui_poc_proportional_to_timing_flag ≠ 0) (0 ≤ s.vui_num_ticks_poc_diff_one_minus1 ∧ s.vui_num_ticks_poc_diff_one_minus1 ≤ 2 ^ 32 - 2) (s.vui_num_ticks_poc_diff_one_minus1 = 0)
  vui_hrd_parameters_present_flag : Opt (s.vui_timing_info_present_flag ≠ 0) (s.vui_hrd_parameters_present_flag < 2 ^ 1) (s.vui_hrd_parameters_present_flag = 0)
  hrd_parameters : Maybe (s.vui_timing_info_present_flag ≠ 0 ∧ s.vui_hrd_parameters_present_flag ≠ 0) (ValidHrdParameters 1 max_sub) s.hrd_parameters
  bitstream_restriction_flag : s.bitstream_restriction_flag < 2 ^ 1
  tiles_fixed_structure_flag : Opt (s.bitstream_restriction_flag ≠ 0) (s.tiles_fixed_structure_flag < 2 ^ 1) (s.tiles_fixed_structure_flag = 0)
  motion_vectors_over_pic_boundaries_flag : Opt (s.bitstream_restriction_flag ≠ 0) (s.motion_vectors_over_pic_boundaries_flag < 2 ^ 1) (s.motion_vectors_over_pic_boundaries_flag = 0)
  restricted_ref_pic_lists_flag : Opt (s.bitstream_restriction_flag ≠ 0) (s.restricted_ref_pic_lists_flag < 2 ^ 1) (s.restricted_ref_pic_lists_flag = 0)
  min_spatial_segmentation_idc : Opt (s.bitstream_restriction_flag ≠ 0) (0 ≤ s.min_spatial_segmentation_idc ∧ s.min_spatial_segmentation_idc ≤ 4095) (s.min_spatial_segmentation_idc = 0)
  max_bytes_per_pic_denom : Opt (s.bitstream_restriction_flag ≠ 0) (0 ≤ s.max_bytes_per_pic_denom ∧ s.max_bytes_per_pic_denom ≤ 16) (s.max_bytes_per_pic_denom = 0)
  max_bits_per_min_cu_denom : Opt (s.bitstream_restriction_flag ≠ 0) (0 ≤ s.max_bits_per_min_cu_denom ∧ s.max_bits_per_min_cu_denom ≤ 16) (s.max_bits_per_min_cu_denom = 0)
  log2_max_mv_length_horizontal : Opt (s.bitstream_restriction_flag ≠ 0) (0 ≤ s.log2_max_mv_length_horizontal ∧ s.log2_max_mv_length_horizontal ≤ 16) (s.log2_max_mv_length_horizontal = 0)
  log2_max_mv_length_vertical : Opt (s.bitstream_restriction_flag ≠ 0) (0 ≤ s.log2_max_mv_length_vertical ∧ s.log2_max_mv_length_vertical ≤ 15) (s.log2_max_mv_length_vertical = 0)
end Spec

end H265
