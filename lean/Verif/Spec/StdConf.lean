/-
Conformance: the value ranges of clauses 7.4 and E.3 of Rec. ITU-T H.265 (with the level limits of level 6.2 and the CTB sizes 16, 32, 64 of
the profiles of Annex A), for the syntax tables of `Spec/Std.lean`.  A syntax element that is absent has the value in which the library
reports it.
-/
import Verif.Spec.StdOk

namespace H265.Std
open Spec

set_option autoImplicit false

/-! ### st_ref_pic_set( ), clause 7.4.8 -/

structure ConformsRpsEntry (e : RpsEntry) : Prop where
  delta_poc_minus1 : e.delta_poc_minus1 ≤ 2 ^ 15 - 1
  used_by_curr_pic : e.used_by_curr_pic ≤ 1

/-- an explicitly coded set: at most 15 pictures -/
structure ConformsExplicitRps (s : StRefPicSet) : Prop where
  inter_ref_pic_set_prediction_flag : s.inter_ref_pic_set_prediction_flag = 0
  delta_idx_minus1 : s.delta_idx_minus1 = 0
  delta_rps_sign : s.delta_rps_sign = 0
  abs_delta_rps_minus1 : s.abs_delta_rps_minus1 = 0
  flags : s.flags = []
  size : s.num_negative_pics + s.num_positive_pics ≤ 15
  s0 : Each s.num_negative_pics ConformsRpsEntry s.s0
  s1 : Each s.num_positive_pics ConformsRpsEntry s.s1

/-- an inter-predicted set, number `idx` of `num`, with the previous sets `prev`: RefRpsIdx = idx − ( delta_idx_minus1 + 1 ), equations
7-61 and 7-62; at most 15 pictures -/
structure ConformsInterRps (idx num : Nat) (prev : List StRefPicSet) (s : StRefPicSet) : Prop where
  inter_ref_pic_set_prediction_flag : s.inter_ref_pic_set_prediction_flag = 1
  delta_idx_minus1 : Opt (idx = num) (s.delta_idx_minus1 ≤ idx - 1) (s.delta_idx_minus1 = 0)
  delta_rps_sign : s.delta_rps_sign ≤ 1
  abs_delta_rps_minus1 : s.abs_delta_rps_minus1 ≤ 2 ^ 15 - 1
  flags : Each ((prev.getD (idx - (s.delta_idx_minus1 + 1)) default).s0.length + (prev.getD (idx - (s.delta_idx_minus1 + 1)) default).s1.length + 1)
    (fun f => f.used_by_curr_pic_flag ≤ 1 ∧ Opt (f.used_by_curr_pic_flag = 0) (f.use_delta_flag ≤ 1) (f.use_delta_flag = 1)) s.flags
  s0 : s.s0 = differences (-1) 0 (derivedS0 (prev.getD (idx - (s.delta_idx_minus1 + 1)) default) s)
  s1 : s.s1 = differences 1 0 (derivedS1 (prev.getD (idx - (s.delta_idx_minus1 + 1)) default) s)
  num_negative_pics : s.num_negative_pics = s.s0.length
  num_positive_pics : s.num_positive_pics = s.s1.length
  size : s.num_negative_pics + s.num_positive_pics ≤ 15

/-- set number `idx`; the first set is coded explicitly -/
def ConformsStRefPicSet (idx num : Nat) (prev : List StRefPicSet) (s : StRefPicSet) : Prop :=
  ConformsExplicitRps s ∨ (idx ≠ 0 ∧ ConformsInterRps idx num prev s)

/-- the sets of an SPS -/
structure ConformsStRefPicSets (num : Nat) (l : List StRefPicSet) : Prop where
  length : l.length = num
  each : ∀ i s, l[i]? = some s → ConformsStRefPicSet i num (l.take i) s

/-! ### scaling_list_data( ), clause 7.4.5 -/

/-- nextCoef = ( nextCoef + scaling_list_delta_coef + 256 ) % 256; the coefficients are greater than 0 -/
def ConformsCoefs : Int → List ScalingCoef → Prop
  | _, [] => True
  | next, c :: l => (-128 ≤ c.delta ∧ c.delta ≤ 127) ∧ (c.coef : Int) = (next + c.delta + 256) % 256 ∧ 0 < c.coef ∧ ConformsCoefs c.coef l

/-- matrix number `j` of size `sizeId` (matrixId = j, or 3 * j for sizeId 3) -/
structure ConformsScalingMatrix (sizeId j : Nat) (m : ScalingMatrix) : Prop where
  scaling_list_pred_mode_flag : m.scaling_list_pred_mode_flag ≤ 1
  scaling_list_pred_matrix_id_delta : Opt (m.scaling_list_pred_mode_flag = 0) (m.scaling_list_pred_matrix_id_delta ≤ j) (m.scaling_list_pred_matrix_id_delta = 0)
  scaling_list_dc_coef_minus8 : Opt (m.scaling_list_pred_mode_flag ≠ 0 ∧ sizeId > 1)
    (-7 ≤ m.scaling_list_dc_coef_minus8 ∧ m.scaling_list_dc_coef_minus8 ≤ 247) (m.scaling_list_dc_coef_minus8 = 0)
  length : m.coefs.length = if m.scaling_list_pred_mode_flag ≠ 0 then coefNum sizeId else 0
  coefs : ConformsCoefs (if sizeId > 1 then m.scaling_list_dc_coef_minus8 + 8 else 8) m.coefs

def ConformsScalingListData (s : ScalingListData) : Prop :=
  EachI 4 (fun sizeId => EachI (if sizeId = 3 then 2 else 6) (ConformsScalingMatrix sizeId)) s.sizes

/-! ### profile_tier_level( ), clause 7.4.4 -/

/-- every sub-layer below the highest; the fields of each profile have their width (`ValidProfileInfo`) -/
structure ConformsPtl (maxSub : Nat) (p : StdPtl) : Prop where
  max : maxSub ≤ 6
  general : ValidProfileInfo p.general
  general_level_idc : p.general_level_idc ≤ 255
  count : p.sub_layers.length = maxSub
  flags : ∀ x ∈ p.sub_layers, x.profile_present_flag ≤ 1 ∧ x.level_present_flag ≤ 1
  profile : ∀ x ∈ p.sub_layers, x.profile_present_flag = 1 → ValidProfileInfo x.profile
  level : ∀ x ∈ p.sub_layers, x.level_present_flag = 1 → x.level_idc ≤ 255

/-! ### parameter sets and slice segment headers -/

/-- CtbLog2SizeY, equation 7-11 -/
def ctbLog2SizeY (s : SpsBody) : Nat := s.log2_min_luma_coding_block_size_minus3 + 3 + s.log2_diff_max_min_luma_coding_block_size
/-- SubWidthC, SubHeightC, Table 6-1 -/
def subWidthC (s : SpsBody) : Nat := if s.chroma_format_idc = 1 ∨ s.chroma_format_idc = 2 then 2 else 1
def subHeightC (s : SpsBody) : Nat := if s.chroma_format_idc = 1 then 2 else 1

/-- clause 7.4.3.1 -/
structure ConformsSubLayerOrdering (s : SubLayerOrdering) : Prop where
  max_dec_pic_buffering_minus1 : s.max_dec_pic_buffering_minus1 ≤ 15
  max_num_reorder_pics : s.max_num_reorder_pics ≤ s.max_dec_pic_buffering_minus1
  max_latency_increase_plus1 : s.max_latency_increase_plus1 ≤ 2 ^ 32 - 2

/-- clause E.3.3 -/
structure ConformsSubLayerHrdEntry (sub_pic : Nat) (s : SubLayerHrdEntry) : Prop where
  bit_rate_value_minus1 : s.bit_rate_value_minus1 ≤ 2 ^ 32 - 2
  cpb_size_value_minus1 : s.cpb_size_value_minus1 ≤ 2 ^ 32 - 2
  cpb_size_du_value_minus1 : Opt (sub_pic ≠ 0) (s.cpb_size_du_value_minus1 ≤ 2 ^ 32 - 2) (s.cpb_size_du_value_minus1 = 0)
  bit_rate_du_value_minus1 : Opt (sub_pic ≠ 0) (s.bit_rate_du_value_minus1 ≤ 2 ^ 32 - 2) (s.bit_rate_du_value_minus1 = 0)
  cbr_flag : s.cbr_flag < 2 ^ 1

/-- clause E.3.2 (`nal`, `vcl`: the presence of the NAL and VCL HRD parameters); elemental_duration_in_tc_minus1 and low_delay_hrd_flag depend on the inferred fixed_pic_rate_within_cvs_flag -/
structure ConformsHrdSubLayer (nal vcl sub_pic : Nat) (s : HrdSubLayer) : Prop where
  fixed_pic_rate_general_flag : s.fixed_pic_rate_general_flag < 2 ^ 1
  fixed_pic_rate_within_cvs_flag : Opt (s.fixed_pic_rate_general_flag = 0) (s.fixed_pic_rate_within_cvs_flag < 2 ^ 1) (s.fixed_pic_rate_within_cvs_flag = 0)
  elemental_duration_in_tc_minus1 : Opt (fixedPicRateWithinCvs s ≠ 0) (s.elemental_duration_in_tc_minus1 ≤ 2047) (s.elemental_duration_in_tc_minus1 = 0)
  low_delay_hrd_flag : Opt (fixedPicRateWithinCvs s = 0) (s.low_delay_hrd_flag ≤ 1) (s.low_delay_hrd_flag = 0)
  cpb_cnt_minus1 : Opt (s.low_delay_hrd_flag = 0) (s.cpb_cnt_minus1 ≤ 31) (s.cpb_cnt_minus1 = 0)
  nal_hrd : Maybe (nal ≠ 0) (Each (s.cpb_cnt_minus1 + 1) (ConformsSubLayerHrdEntry sub_pic)) s.nal_hrd
  vcl_hrd : Maybe (vcl ≠ 0) (Each (s.cpb_cnt_minus1 + 1) (ConformsSubLayerHrdEntry sub_pic)) s.vcl_hrd

/-- clause E.3.2 -/
structure ConformsHrdParameters (common max_sub : Nat) (s : HrdParameters) : Prop where
  nal_hrd_parameters_present_flag : Opt (common ≠ 0) (s.nal_hrd_parameters_present_flag < 2 ^ 1) (s.nal_hrd_parameters_present_flag = 0)
  vcl_hrd_parameters_present_flag : Opt (common ≠ 0) (s.vcl_hrd_parameters_present_flag < 2 ^ 1) (s.vcl_hrd_parameters_present_flag = 0)
  sub_pic_hrd_params_present_flag : Opt (common ≠ 0 ∧ (s.nal_hrd_parameters_present_flag ≠ 0 ∨ s.vcl_hrd_parameters_present_flag ≠ 0)) (s.sub_pic_hrd_params_present_flag < 2 ^ 1) (s.sub_pic_hrd_params_present_flag = 0)
  tick_divisor_minus2 : Opt (common ≠ 0 ∧ (s.nal_hrd_parameters_present_flag ≠ 0 ∨ s.vcl_hrd_parameters_present_flag ≠ 0) ∧ s.sub_pic_hrd_params_present_flag ≠ 0) (s.tick_divisor_minus2 < 2 ^ 8) (s.tick_divisor_minus2 = 0)
  du_cpb_removal_delay_increment_length_minus1 : Opt (common ≠ 0 ∧ (s.nal_hrd_parameters_present_flag ≠ 0 ∨ s.vcl_hrd_parameters_present_flag ≠ 0) ∧ s.sub_pic_hrd_params_present_flag ≠ 0) (s.du_cpb_removal_delay_increment_length_minus1 < 2 ^ 5) (s.du_cpb_removal_delay_increment_length_minus1 = 0)
  sub_pic_cpb_params_in_pic_timing_sei_flag : Opt (common ≠ 0 ∧ (s.nal_hrd_parameters_present_flag ≠ 0 ∨ s.vcl_hrd_parameters_present_flag ≠ 0) ∧ s.sub_pic_hrd_params_present_flag ≠ 0) (s.sub_pic_cpb_params_in_pic_timing_sei_flag < 2 ^ 1) (s.sub_pic_cpb_params_in_pic_timing_sei_flag = 0)
  dpb_output_delay_du_length_minus1 : Opt (common ≠ 0 ∧ (s.nal_hrd_parameters_present_flag ≠ 0 ∨ s.vcl_hrd_parameters_present_flag ≠ 0) ∧ s.sub_pic_hrd_params_present_flag ≠ 0) (s.dpb_output_delay_du_length_minus1 < 2 ^ 5) (s.dpb_output_delay_du_length_minus1 = 0)
  bit_rate_scale : Opt (common ≠ 0 ∧ (s.nal_hrd_parameters_present_flag ≠ 0 ∨ s.vcl_hrd_parameters_present_flag ≠ 0)) (s.bit_rate_scale < 2 ^ 4) (s.bit_rate_scale = 0)
  cpb_size_scale : Opt (common ≠ 0 ∧ (s.nal_hrd_parameters_present_flag ≠ 0 ∨ s.vcl_hrd_parameters_present_flag ≠ 0)) (s.cpb_size_scale < 2 ^ 4) (s.cpb_size_scale = 0)
  cpb_size_du_scale : Opt (common ≠ 0 ∧ (s.nal_hrd_parameters_present_flag ≠ 0 ∨ s.vcl_hrd_parameters_present_flag ≠ 0) ∧ s.sub_pic_hrd_params_present_flag ≠ 0) (s.cpb_size_du_scale < 2 ^ 4) (s.cpb_size_du_scale = 0)
  initial_cpb_removal_delay_length_minus1 : Opt (common ≠ 0 ∧ (s.nal_hrd_parameters_present_flag ≠ 0 ∨ s.vcl_hrd_parameters_present_flag ≠ 0)) (s.initial_cpb_removal_delay_length_minus1 < 2 ^ 5) (s.initial_cpb_removal_delay_length_minus1 = 0)
  au_cpb_removal_delay_length_minus1 : Opt (common ≠ 0 ∧ (s.nal_hrd_parameters_present_flag ≠ 0 ∨ s.vcl_hrd_parameters_present_flag ≠ 0)) (s.au_cpb_removal_delay_length_minus1 < 2 ^ 5) (s.au_cpb_removal_delay_length_minus1 = 0)
  dpb_output_delay_length_minus1 : Opt (common ≠ 0 ∧ (s.nal_hrd_parameters_present_flag ≠ 0 ∨ s.vcl_hrd_parameters_present_flag ≠ 0)) (s.dpb_output_delay_length_minus1 < 2 ^ 5) (s.dpb_output_delay_length_minus1 = 0)
  sub_layers : Each (max_sub + 1) (ConformsHrdSubLayer s.nal_hrd_parameters_present_flag s.vcl_hrd_parameters_present_flag s.sub_pic_hrd_params_present_flag) s.sub_layers

/-- clause 7.4.3.1, the HRD parameters number `i` of a VPS -/
structure ConformsVpsHrd (i max_sub layer_sets : Nat) (s : VpsHrd) : Prop where
  hrd_layer_set_idx : s.hrd_layer_set_idx ≤ layer_sets
  cprms_present_flag : Opt (i > 0) (s.cprms_present_flag ≤ 1) (s.cprms_present_flag = 0)
  hrd_parameters : ConformsHrdParameters (cprms i s) max_sub s.hrd_parameters

/-- clause 7.4.3.1; `ptl` is the profile_tier_level( ), of which the VPS holds the reported form -/
structure ConformsVpsBody (ptl : StdPtl) (s : VpsBody) : Prop where
  vps_video_parameter_set_id : s.vps_video_parameter_set_id < 2 ^ 4
  vps_base_layer_internal_flag : s.vps_base_layer_internal_flag < 2 ^ 1
  vps_base_layer_available_flag : s.vps_base_layer_available_flag < 2 ^ 1
  vps_max_layers_minus1 : s.vps_max_layers_minus1 < 2 ^ 6
  vps_max_sub_layers_minus1 : s.vps_max_sub_layers_minus1 ≤ 6
  vps_temporal_id_nesting_flag : s.vps_temporal_id_nesting_flag < 2 ^ 1
  vps_reserved_0xffff_16bits : s.vps_reserved_0xffff_16bits = 0xffff
  profile_tier_level : ConformsPtl s.vps_max_sub_layers_minus1 ptl ∧ s.profile_tier_level = ptl.reported s.vps_max_sub_layers_minus1
  vps_sub_layer_ordering_info_present_flag : s.vps_sub_layer_ordering_info_present_flag < 2 ^ 1
  sub_layer_ordering : Each (if s.vps_sub_layer_ordering_info_present_flag ≠ 0 then s.vps_max_sub_layers_minus1 + 1 else 1) ConformsSubLayerOrdering s.sub_layer_ordering
  vps_max_layer_id : s.vps_max_layer_id < 2 ^ 6
  vps_max_layer_id_le : s.vps_max_layer_id ≤ 62
  vps_num_layer_sets_minus1 : s.vps_num_layer_sets_minus1 ≤ 1023
  layer_id_included_flag : Each (s.vps_num_layer_sets_minus1) (Each (s.vps_max_layer_id + 1) (· < 2 ^ 1)) s.layer_id_included_flag
  vps_timing_info_present_flag : s.vps_timing_info_present_flag < 2 ^ 1
  vps_num_units_in_tick : Opt (s.vps_timing_info_present_flag ≠ 0) (s.vps_num_units_in_tick < 2 ^ 32) (s.vps_num_units_in_tick = 0)
  vps_time_scale : Opt (s.vps_timing_info_present_flag ≠ 0) (s.vps_time_scale < 2 ^ 32) (s.vps_time_scale = 0)
  vps_poc_proportional_to_timing_flag : Opt (s.vps_timing_info_present_flag ≠ 0) (s.vps_poc_proportional_to_timing_flag < 2 ^ 1) (s.vps_poc_proportional_to_timing_flag = 0)
  vps_num_ticks_poc_diff_one_minus1 : Opt (s.vps_timing_info_present_flag ≠ 0 ∧ s.vps_poc_proportional_to_timing_flag ≠ 0) (s.vps_num_ticks_poc_diff_one_minus1 ≤ 2 ^ 32 - 2) (s.vps_num_ticks_poc_diff_one_minus1 = 0)
  vps_num_hrd_parameters : Opt (s.vps_timing_info_present_flag ≠ 0) (s.vps_num_hrd_parameters ≤ s.vps_num_layer_sets_minus1 + 1) (s.vps_num_hrd_parameters = 0)
  hrds : EachI (s.vps_num_hrd_parameters) (fun i => ConformsVpsHrd i s.vps_max_sub_layers_minus1 s.vps_num_layer_sets_minus1) s.hrds
  vps_extension_flag : s.vps_extension_flag < 2 ^ 1

/-- clause 7.4.3.2.1 -/
structure ConformsSpsSubLayerOrdering (s : SpsSubLayerOrdering) : Prop where
  sps_max_dec_pic_buffering_minus1 : s.sps_max_dec_pic_buffering_minus1 ≤ 15
  sps_max_num_reorder_pics : s.sps_max_num_reorder_pics ≤ s.sps_max_dec_pic_buffering_minus1
  sps_max_latency_increase_plus1 : s.sps_max_latency_increase_plus1 ≤ 2 ^ 32 - 2

/-- clause E.3.1 (the default display window is limited by the SPS, see `ConformsSpsBody`) -/
structure ConformsVuiParameters (max_sub : Nat) (s : VuiParameters) : Prop where
  aspect_ratio_info_present_flag : s.aspect_ratio_info_present_flag < 2 ^ 1
  aspect_ratio_idc : Opt (s.aspect_ratio_info_present_flag ≠ 0) (s.aspect_ratio_idc < 2 ^ 8) (s.aspect_ratio_idc = 0)
  sar_width : Opt (s.aspect_ratio_info_present_flag ≠ 0 ∧ s.aspect_ratio_idc = 255) (s.sar_width < 2 ^ 16) (s.sar_width = 0)
  sar_height : Opt (s.aspect_ratio_info_present_flag ≠ 0 ∧ s.aspect_ratio_idc = 255) (s.sar_height < 2 ^ 16) (s.sar_height = 0)
  overscan_info_present_flag : s.overscan_info_present_flag < 2 ^ 1
  overscan_appropriate_flag : Opt (s.overscan_info_present_flag ≠ 0) (s.overscan_appropriate_flag < 2 ^ 1) (s.overscan_appropriate_flag = 0)
  video_signal_type_present_flag : s.video_signal_type_present_flag < 2 ^ 1
  video_format : Opt (s.video_signal_type_present_flag ≠ 0) (s.video_format < 2 ^ 3) (s.video_format = 0)
  video_full_range_flag : Opt (s.video_signal_type_present_flag ≠ 0) (s.video_full_range_flag < 2 ^ 1) (s.video_full_range_flag = 0)
  colour_description_present_flag : Opt (s.video_signal_type_present_flag ≠ 0) (s.colour_description_present_flag < 2 ^ 1) (s.colour_description_present_flag = 0)
  colour_primaries : Opt (s.video_signal_type_present_flag ≠ 0 ∧ s.colour_description_present_flag ≠ 0) (s.colour_primaries < 2 ^ 8) (s.colour_primaries = 0)
  transfer_characteristics : Opt (s.video_signal_type_present_flag ≠ 0 ∧ s.colour_description_present_flag ≠ 0) (s.transfer_characteristics < 2 ^ 8) (s.transfer_characteristics = 0)
  matrix_coeffs : Opt (s.video_signal_type_present_flag ≠ 0 ∧ s.colour_description_present_flag ≠ 0) (s.matrix_coeffs < 2 ^ 8) (s.matrix_coeffs = 0)
  chroma_loc_info_present_flag : s.chroma_loc_info_present_flag < 2 ^ 1
  chroma_sample_loc_type_top_field : Opt (s.chroma_loc_info_present_flag ≠ 0) (s.chroma_sample_loc_type_top_field ≤ 5) (s.chroma_sample_loc_type_top_field = 0)
  chroma_sample_loc_type_bottom_field : Opt (s.chroma_loc_info_present_flag ≠ 0) (s.chroma_sample_loc_type_bottom_field ≤ 5) (s.chroma_sample_loc_type_bottom_field = 0)
  neutral_chroma_indication_flag : s.neutral_chroma_indication_flag < 2 ^ 1
  field_seq_flag : s.field_seq_flag < 2 ^ 1
  frame_field_info_present_flag : s.frame_field_info_present_flag < 2 ^ 1
  default_display_window_flag : s.default_display_window_flag < 2 ^ 1
  def_disp_win_left_offset : Opt (s.default_display_window_flag ≠ 0) (s.def_disp_win_left_offset ≤ 2 ^ 32 - 2) (s.def_disp_win_left_offset = 0)
  def_disp_win_right_offset : Opt (s.default_display_window_flag ≠ 0) (s.def_disp_win_right_offset ≤ 2 ^ 32 - 2) (s.def_disp_win_right_offset = 0)
  def_disp_win_top_offset : Opt (s.default_display_window_flag ≠ 0) (s.def_disp_win_top_offset ≤ 2 ^ 32 - 2) (s.def_disp_win_top_offset = 0)
  def_disp_win_bottom_offset : Opt (s.default_display_window_flag ≠ 0) (s.def_disp_win_bottom_offset ≤ 2 ^ 32 - 2) (s.def_disp_win_bottom_offset = 0)
  vui_timing_info_present_flag : s.vui_timing_info_present_flag < 2 ^ 1
  vui_num_units_in_tick : Opt (s.vui_timing_info_present_flag ≠ 0) (s.vui_num_units_in_tick < 2 ^ 32) (s.vui_num_units_in_tick = 0)
  vui_time_scale : Opt (s.vui_timing_info_present_flag ≠ 0) (s.vui_time_scale < 2 ^ 32) (s.vui_time_scale = 0)
  vui_poc_proportional_to_timing_flag : Opt (s.vui_timing_info_present_flag ≠ 0) (s.vui_poc_proportional_to_timing_flag < 2 ^ 1) (s.vui_poc_proportional_to_timing_flag = 0)
  vui_num_ticks_poc_diff_one_minus1 : Opt (s.vui_timing_info_present_flag ≠ 0 ∧ s.vui_poc_proportional_to_timing_flag ≠ 0) (s.vui_num_ticks_poc_diff_one_minus1 ≤ 2 ^ 32 - 2) (s.vui_num_ticks_poc_diff_one_minus1 = 0)
  vui_hrd_parameters_present_flag : Opt (s.vui_timing_info_present_flag ≠ 0) (s.vui_hrd_parameters_present_flag < 2 ^ 1) (s.vui_hrd_parameters_present_flag = 0)
  hrd_parameters : Maybe (s.vui_timing_info_present_flag ≠ 0 ∧ s.vui_hrd_parameters_present_flag ≠ 0) (ConformsHrdParameters 1 max_sub) s.hrd_parameters
  bitstream_restriction_flag : s.bitstream_restriction_flag < 2 ^ 1
  tiles_fixed_structure_flag : Opt (s.bitstream_restriction_flag ≠ 0) (s.tiles_fixed_structure_flag < 2 ^ 1) (s.tiles_fixed_structure_flag = 0)
  motion_vectors_over_pic_boundaries_flag : Opt (s.bitstream_restriction_flag ≠ 0) (s.motion_vectors_over_pic_boundaries_flag < 2 ^ 1) (s.motion_vectors_over_pic_boundaries_flag = 0)
  restricted_ref_pic_lists_flag : Opt (s.bitstream_restriction_flag ≠ 0) (s.restricted_ref_pic_lists_flag < 2 ^ 1) (s.restricted_ref_pic_lists_flag = 0)
  min_spatial_segmentation_idc : Opt (s.bitstream_restriction_flag ≠ 0) (s.min_spatial_segmentation_idc ≤ 4095) (s.min_spatial_segmentation_idc = 0)
  max_bytes_per_pic_denom : Opt (s.bitstream_restriction_flag ≠ 0) (s.max_bytes_per_pic_denom ≤ 16) (s.max_bytes_per_pic_denom = 0)
  max_bits_per_min_cu_denom : Opt (s.bitstream_restriction_flag ≠ 0) (s.max_bits_per_min_cu_denom ≤ 16) (s.max_bits_per_min_cu_denom = 0)
  log2_max_mv_length_horizontal : Opt (s.bitstream_restriction_flag ≠ 0) (s.log2_max_mv_length_horizontal ≤ 15) (s.log2_max_mv_length_horizontal = 0)
  log2_max_mv_length_vertical : Opt (s.bitstream_restriction_flag ≠ 0) (s.log2_max_mv_length_vertical ≤ 15) (s.log2_max_mv_length_vertical = 0)

/-- clause I.7.4.3.2.5 -/
structure ConformsSps3dExtension (s : Sps3dExtension) : Prop where
  iv_di_mc_enabled_flag_0 : s.iv_di_mc_enabled_flag_0 < 2 ^ 1
  iv_mv_scal_enabled_flag_0 : s.iv_mv_scal_enabled_flag_0 < 2 ^ 1
  log2_ivmc_sub_pb_size_minus3 : s.log2_ivmc_sub_pb_size_minus3 ≤ 3
  iv_res_pred_enabled_flag : s.iv_res_pred_enabled_flag < 2 ^ 1
  depth_ref_enabled_flag : s.depth_ref_enabled_flag < 2 ^ 1
  vsp_mc_enabled_flag : s.vsp_mc_enabled_flag < 2 ^ 1
  dbbp_enabled_flag : s.dbbp_enabled_flag < 2 ^ 1
  iv_di_mc_enabled_flag_1 : s.iv_di_mc_enabled_flag_1 < 2 ^ 1
  iv_mv_scal_enabled_flag_1 : s.iv_mv_scal_enabled_flag_1 < 2 ^ 1
  tex_mc_enabled_flag : s.tex_mc_enabled_flag < 2 ^ 1
  log2_texmc_sub_pb_size_minus3 : s.log2_texmc_sub_pb_size_minus3 ≤ 3
  intra_contour_enabled_flag : s.intra_contour_enabled_flag < 2 ^ 1
  intra_dc_only_wedge_enabled_flag : s.intra_dc_only_wedge_enabled_flag < 2 ^ 1
  cqt_cu_part_pred_enabled_flag : s.cqt_cu_part_pred_enabled_flag < 2 ^ 1
  inter_dc_only_enabled_flag : s.inter_dc_only_enabled_flag < 2 ^ 1
  skip_intra_enabled_flag : s.skip_intra_enabled_flag < 2 ^ 1

/-- clause 7.4.3.2.5, with the limits 64 and 128 of the screen content coding profiles -/
structure ConformsSpsSccExtension (chroma_format_idc bit_depth_luma_minus8 bit_depth_chroma_minus8 : Nat) (s : SpsSccExtension) : Prop where
  sps_curr_pic_ref_enabled_flag : s.sps_curr_pic_ref_enabled_flag < 2 ^ 1
  palette_mode_enabled_flag : s.palette_mode_enabled_flag < 2 ^ 1
  palette_max_size : Opt (s.palette_mode_enabled_flag ≠ 0) (s.palette_max_size ≤ 64) (s.palette_max_size = 0)
  delta_palette_max_predictor_size : Opt (s.palette_mode_enabled_flag ≠ 0) (s.palette_max_size + s.delta_palette_max_predictor_size ≤ 128) (s.delta_palette_max_predictor_size = 0)
  sps_palette_predictor_initializers_present_flag : Opt (s.palette_mode_enabled_flag ≠ 0) (s.sps_palette_predictor_initializers_present_flag < 2 ^ 1) (s.sps_palette_predictor_initializers_present_flag = 0)
  sps_num_palette_predictor_initializers_minus1 : Opt (s.sps_palette_predictor_initializers_present_flag ≠ 0) (s.sps_num_palette_predictor_initializers_minus1 + 1 ≤ s.palette_max_size + s.delta_palette_max_predictor_size) (s.sps_num_palette_predictor_initializers_minus1 = 0)
  sps_palette_predictor_initializers : Opt (s.sps_palette_predictor_initializers_present_flag ≠ 0) (EachI (if chroma_format_idc = 0 then 1 else 3) (fun comp => Each (s.sps_num_palette_predictor_initializers_minus1 + 1) (· < 2 ^ (if comp = 0 then 8 + bit_depth_luma_minus8 else 8 + bit_depth_chroma_minus8))) s.sps_palette_predictor_initializers) (s.sps_palette_predictor_initializers = [])
  motion_vector_resolution_control_idc : s.motion_vector_resolution_control_idc ≤ 2
  intra_boundary_filtering_disabled_flag : s.intra_boundary_filtering_disabled_flag < 2 ^ 1

/-- clause 7.4.3.2.1: `ptl` is the profile_tier_level( ), of which the SPS holds the reported form; picture sizes up to level 6.2 (MaxLumaPs 35651584), CTB sizes 16, 32 and 64 -/
structure ConformsSpsBody (ptl : StdPtl) (s : SpsBody) : Prop where
  sps_video_parameter_set_id : s.sps_video_parameter_set_id < 2 ^ 4
  sps_max_sub_layers_minus1 : s.sps_max_sub_layers_minus1 ≤ 6
  sps_temporal_id_nesting_flag : s.sps_temporal_id_nesting_flag < 2 ^ 1
  profile_tier_level : ConformsPtl s.sps_max_sub_layers_minus1 ptl ∧ s.profile_tier_level = ptl.reported s.sps_max_sub_layers_minus1
  sps_seq_parameter_set_id : s.sps_seq_parameter_set_id ≤ 15
  chroma_format_idc : s.chroma_format_idc ≤ 3
  separate_colour_plane_flag : Opt (s.chroma_format_idc = 3) (s.separate_colour_plane_flag < 2 ^ 1) (s.separate_colour_plane_flag = 0)
  pic_width_in_luma_samples : 1 ≤ s.pic_width_in_luma_samples ∧ s.pic_width_in_luma_samples ≤ 16888
  pic_width_multiple : s.pic_width_in_luma_samples % 2 ^ (s.log2_min_luma_coding_block_size_minus3 + 3) = 0
  pic_height_in_luma_samples : 1 ≤ s.pic_height_in_luma_samples ∧ s.pic_height_in_luma_samples ≤ 16888
  pic_height_multiple : s.pic_height_in_luma_samples % 2 ^ (s.log2_min_luma_coding_block_size_minus3 + 3) = 0
  conformance_window_flag : s.conformance_window_flag < 2 ^ 1
  conf_win_left_offset : Opt (s.conformance_window_flag ≠ 0) (subWidthC s * (s.conf_win_left_offset + s.conf_win_right_offset) < s.pic_width_in_luma_samples) (s.conf_win_left_offset = 0)
  conf_win_right_offset : Opt (s.conformance_window_flag ≠ 0) (subWidthC s * (s.conf_win_left_offset + s.conf_win_right_offset) < s.pic_width_in_luma_samples) (s.conf_win_right_offset = 0)
  conf_win_top_offset : Opt (s.conformance_window_flag ≠ 0) (subHeightC s * (s.conf_win_top_offset + s.conf_win_bottom_offset) < s.pic_height_in_luma_samples) (s.conf_win_top_offset = 0)
  conf_win_bottom_offset : Opt (s.conformance_window_flag ≠ 0) (subHeightC s * (s.conf_win_top_offset + s.conf_win_bottom_offset) < s.pic_height_in_luma_samples) (s.conf_win_bottom_offset = 0)
  bit_depth_luma_minus8 : s.bit_depth_luma_minus8 ≤ 8
  bit_depth_chroma_minus8 : s.bit_depth_chroma_minus8 ≤ 8
  log2_max_pic_order_cnt_lsb_minus4 : s.log2_max_pic_order_cnt_lsb_minus4 ≤ 12
  sps_sub_layer_ordering_info_present_flag : s.sps_sub_layer_ordering_info_present_flag < 2 ^ 1
  sub_layer_ordering : Each (if s.sps_sub_layer_ordering_info_present_flag ≠ 0 then s.sps_max_sub_layers_minus1 + 1 else 1) ConformsSpsSubLayerOrdering s.sub_layer_ordering
  log2_min_luma_coding_block_size_minus3 : 4 ≤ ctbLog2SizeY s
  log2_diff_max_min_luma_coding_block_size : ctbLog2SizeY s ≤ 6
  log2_min_luma_transform_block_size_minus2 : s.log2_min_luma_transform_block_size_minus2 + 2 < s.log2_min_luma_coding_block_size_minus3 + 3
  log2_diff_max_min_luma_transform_block_size : s.log2_min_luma_transform_block_size_minus2 + 2 + s.log2_diff_max_min_luma_transform_block_size ≤ min (ctbLog2SizeY s) 5
  max_transform_hierarchy_depth_inter : s.max_transform_hierarchy_depth_inter + (s.log2_min_luma_transform_block_size_minus2 + 2) ≤ ctbLog2SizeY s
  max_transform_hierarchy_depth_intra : s.max_transform_hierarchy_depth_intra + (s.log2_min_luma_transform_block_size_minus2 + 2) ≤ ctbLog2SizeY s
  scaling_list_enabled_flag : s.scaling_list_enabled_flag < 2 ^ 1
  sps_scaling_list_data_present_flag : Opt (s.scaling_list_enabled_flag ≠ 0) (s.sps_scaling_list_data_present_flag < 2 ^ 1) (s.sps_scaling_list_data_present_flag = 0)
  scaling_list_data : Maybe (s.sps_scaling_list_data_present_flag ≠ 0) ConformsScalingListData s.scaling_list_data
  amp_enabled_flag : s.amp_enabled_flag < 2 ^ 1
  sample_adaptive_offset_enabled_flag : s.sample_adaptive_offset_enabled_flag < 2 ^ 1
  pcm_enabled_flag : s.pcm_enabled_flag < 2 ^ 1
  pcm_sample_bit_depth_luma_minus1 : Opt (s.pcm_enabled_flag ≠ 0) (s.pcm_sample_bit_depth_luma_minus1 < 2 ^ 4) (s.pcm_sample_bit_depth_luma_minus1 = 0)
  pcm_sample_bit_depth_chroma_minus1 : Opt (s.pcm_enabled_flag ≠ 0) (s.pcm_sample_bit_depth_chroma_minus1 < 2 ^ 4) (s.pcm_sample_bit_depth_chroma_minus1 = 0)
  log2_min_pcm_luma_coding_block_size_minus3 : Opt (s.pcm_enabled_flag ≠ 0) (s.log2_min_pcm_luma_coding_block_size_minus3 + 3 ≤ min (ctbLog2SizeY s) 5) (s.log2_min_pcm_luma_coding_block_size_minus3 = 0)
  log2_diff_max_min_pcm_luma_coding_block_size : Opt (s.pcm_enabled_flag ≠ 0) (s.log2_min_pcm_luma_coding_block_size_minus3 + 3 + s.log2_diff_max_min_pcm_luma_coding_block_size ≤ min (ctbLog2SizeY s) 5) (s.log2_diff_max_min_pcm_luma_coding_block_size = 0)
  pcm_loop_filter_disabled_flag : Opt (s.pcm_enabled_flag ≠ 0) (s.pcm_loop_filter_disabled_flag < 2 ^ 1) (s.pcm_loop_filter_disabled_flag = 0)
  num_short_term_ref_pic_sets : s.num_short_term_ref_pic_sets ≤ 64
  st_ref_pic_set : ConformsStRefPicSets s.num_short_term_ref_pic_sets s.st_ref_pic_set
  long_term_ref_pics_present_flag : s.long_term_ref_pics_present_flag < 2 ^ 1
  num_long_term_ref_pics_sps : Opt (s.long_term_ref_pics_present_flag ≠ 0) (s.num_long_term_ref_pics_sps ≤ 32) (s.num_long_term_ref_pics_sps = 0)
  lt_ref_pics : Each (s.num_long_term_ref_pics_sps) (ValidLtRefPicSps (s.log2_max_pic_order_cnt_lsb_minus4 + 4)) s.lt_ref_pics
  sps_temporal_mvp_enabled_flag : s.sps_temporal_mvp_enabled_flag < 2 ^ 1
  strong_intra_smoothing_enabled_flag : s.strong_intra_smoothing_enabled_flag < 2 ^ 1
  vui_parameters_present_flag : s.vui_parameters_present_flag < 2 ^ 1
  vui_parameters : Maybe (s.vui_parameters_present_flag ≠ 0) (ConformsVuiParameters s.sps_max_sub_layers_minus1) s.vui_parameters
  sps_extension_present_flag : s.sps_extension_present_flag < 2 ^ 1
  sps_range_extension_flag : Opt (s.sps_extension_present_flag ≠ 0) (s.sps_range_extension_flag < 2 ^ 1) (s.sps_range_extension_flag = 0)
  sps_multilayer_extension_flag : Opt (s.sps_extension_present_flag ≠ 0) (s.sps_multilayer_extension_flag < 2 ^ 1) (s.sps_multilayer_extension_flag = 0)
  sps_3d_extension_flag : Opt (s.sps_extension_present_flag ≠ 0) (s.sps_3d_extension_flag < 2 ^ 1) (s.sps_3d_extension_flag = 0)
  sps_scc_extension_flag : Opt (s.sps_extension_present_flag ≠ 0) (s.sps_scc_extension_flag < 2 ^ 1) (s.sps_scc_extension_flag = 0)
  sps_extension_4bits : Opt (s.sps_extension_present_flag ≠ 0) (s.sps_extension_4bits < 2 ^ 4) (s.sps_extension_4bits = 0)
  sps_range_extension : Maybe (s.sps_range_extension_flag ≠ 0) ValidSpsRangeExtension s.sps_range_extension
  sps_multilayer_extension : Maybe (s.sps_multilayer_extension_flag ≠ 0) ValidSpsMultilayerExtension s.sps_multilayer_extension
  sps_3d_extension : Maybe (s.sps_3d_extension_flag ≠ 0) ConformsSps3dExtension s.sps_3d_extension
  sps_scc_extension : Maybe (s.sps_scc_extension_flag ≠ 0) (ConformsSpsSccExtension s.chroma_format_idc s.bit_depth_luma_minus8 s.bit_depth_chroma_minus8) s.sps_scc_extension
  max_luma_ps : s.pic_width_in_luma_samples * s.pic_height_in_luma_samples ≤ 35651584
  default_display_window : ∀ v, s.vui_parameters = some v →
    subWidthC s * (s.conf_win_left_offset + v.def_disp_win_left_offset + s.conf_win_right_offset + v.def_disp_win_right_offset) < s.pic_width_in_luma_samples ∧
    subHeightC s * (s.conf_win_top_offset + v.def_disp_win_top_offset + s.conf_win_bottom_offset + v.def_disp_win_bottom_offset) < s.pic_height_in_luma_samples

/-- clause 7.4.3.3.3; the palette entries have the bit depths of the PPS -/
structure ConformsPpsSccExtension (s : PpsSccExtension) : Prop where
  pps_curr_pic_ref_enabled_flag : s.pps_curr_pic_ref_enabled_flag < 2 ^ 1
  residual_adaptive_colour_transform_enabled_flag : s.residual_adaptive_colour_transform_enabled_flag < 2 ^ 1
  pps_slice_act_qp_offsets_present_flag : Opt (s.residual_adaptive_colour_transform_enabled_flag ≠ 0) (s.pps_slice_act_qp_offsets_present_flag < 2 ^ 1) (s.pps_slice_act_qp_offsets_present_flag = 0)
  pps_act_y_qp_offset_plus5 : Opt (s.residual_adaptive_colour_transform_enabled_flag ≠ 0) (-7 ≤ s.pps_act_y_qp_offset_plus5 ∧ s.pps_act_y_qp_offset_plus5 ≤ 17) (s.pps_act_y_qp_offset_plus5 = 0)
  pps_act_cb_qp_offset_plus5 : Opt (s.residual_adaptive_colour_transform_enabled_flag ≠ 0) (-7 ≤ s.pps_act_cb_qp_offset_plus5 ∧ s.pps_act_cb_qp_offset_plus5 ≤ 17) (s.pps_act_cb_qp_offset_plus5 = 0)
  pps_act_cr_qp_offset_plus3 : Opt (s.residual_adaptive_colour_transform_enabled_flag ≠ 0) (-9 ≤ s.pps_act_cr_qp_offset_plus3 ∧ s.pps_act_cr_qp_offset_plus3 ≤ 15) (s.pps_act_cr_qp_offset_plus3 = 0)
  pps_palette_predictor_initializer_present_flag : s.pps_palette_predictor_initializer_present_flag < 2 ^ 1
  pps_num_palette_predictor_initializer : Opt (s.pps_palette_predictor_initializer_present_flag ≠ 0) (s.pps_num_palette_predictor_initializer ≤ 128) (s.pps_num_palette_predictor_initializer = 0)
  monochrome_palette_flag : Opt (s.pps_num_palette_predictor_initializer > 0) (s.monochrome_palette_flag < 2 ^ 1) (s.monochrome_palette_flag = 0)
  luma_bit_depth_entry_minus8 : Opt (s.pps_num_palette_predictor_initializer > 0) (s.luma_bit_depth_entry_minus8 ≤ 8) (s.luma_bit_depth_entry_minus8 = 0)
  chroma_bit_depth_entry_minus8 : Opt (s.pps_num_palette_predictor_initializer > 0 ∧ s.monochrome_palette_flag = 0) (s.chroma_bit_depth_entry_minus8 ≤ 8) (s.chroma_bit_depth_entry_minus8 = 0)
  pps_palette_predictor_initializers : Opt (s.pps_num_palette_predictor_initializer > 0) (EachI (if s.monochrome_palette_flag ≠ 0 then 1 else 3) (fun comp => Each s.pps_num_palette_predictor_initializer
    (· < 2 ^ (if comp = 0 then s.luma_bit_depth_entry_minus8 + 8 else s.chroma_bit_depth_entry_minus8 + 8))) s.pps_palette_predictor_initializers) (s.pps_palette_predictor_initializers = [])

/-- clause 7.4.3.3.1, with the limits of level 6.2: at most 20 tile columns, 22 tile rows -/
structure ConformsPpsHead (s : PpsHead) : Prop where
  pps_pic_parameter_set_id : s.pps_pic_parameter_set_id ≤ 63
  pps_seq_parameter_set_id : s.pps_seq_parameter_set_id ≤ 15
  dependent_slice_segments_enabled_flag : s.dependent_slice_segments_enabled_flag < 2 ^ 1
  output_flag_present_flag : s.output_flag_present_flag < 2 ^ 1
  num_extra_slice_header_bits : s.num_extra_slice_header_bits < 2 ^ 3
  sign_data_hiding_enabled_flag : s.sign_data_hiding_enabled_flag < 2 ^ 1
  cabac_init_present_flag : s.cabac_init_present_flag < 2 ^ 1
  num_ref_idx_l0_default_active_minus1 : s.num_ref_idx_l0_default_active_minus1 ≤ 14
  num_ref_idx_l1_default_active_minus1 : s.num_ref_idx_l1_default_active_minus1 ≤ 14
  init_qp_minus26 : -(26 + 48) ≤ s.init_qp_minus26 ∧ s.init_qp_minus26 ≤ 25
  constrained_intra_pred_flag : s.constrained_intra_pred_flag < 2 ^ 1
  transform_skip_enabled_flag : s.transform_skip_enabled_flag < 2 ^ 1
  cu_qp_delta_enabled_flag : s.cu_qp_delta_enabled_flag < 2 ^ 1
  diff_cu_qp_delta_depth : Opt (s.cu_qp_delta_enabled_flag ≠ 0) (s.diff_cu_qp_delta_depth ≤ 3) (s.diff_cu_qp_delta_depth = 0)
  pps_cb_qp_offset : -12 ≤ s.pps_cb_qp_offset ∧ s.pps_cb_qp_offset ≤ 12
  pps_cr_qp_offset : -12 ≤ s.pps_cr_qp_offset ∧ s.pps_cr_qp_offset ≤ 12
  pps_slice_chroma_qp_offsets_present_flag : s.pps_slice_chroma_qp_offsets_present_flag < 2 ^ 1
  weighted_pred_flag : s.weighted_pred_flag < 2 ^ 1
  weighted_bipred_flag : s.weighted_bipred_flag < 2 ^ 1
  transquant_bypass_enabled_flag : s.transquant_bypass_enabled_flag < 2 ^ 1
  tiles_enabled_flag : s.tiles_enabled_flag < 2 ^ 1
  entropy_coding_sync_enabled_flag : s.entropy_coding_sync_enabled_flag < 2 ^ 1
  num_tile_columns_minus1 : Opt (s.tiles_enabled_flag ≠ 0) (s.num_tile_columns_minus1 ≤ 19) (s.num_tile_columns_minus1 = 0)
  num_tile_rows_minus1 : Opt (s.tiles_enabled_flag ≠ 0) (s.num_tile_rows_minus1 ≤ 21) (s.num_tile_rows_minus1 = 0)
  uniform_spacing_flag : Opt (s.tiles_enabled_flag ≠ 0) (s.uniform_spacing_flag < 2 ^ 1) (s.uniform_spacing_flag = 0)
  column_width_minus1 : Opt ((s.tiles_enabled_flag ≠ 0 ∧ s.uniform_spacing_flag = 0)) (Each (s.num_tile_columns_minus1) (· < 2 ^ 16) s.column_width_minus1) (s.column_width_minus1 = [])
  row_height_minus1 : Opt ((s.tiles_enabled_flag ≠ 0 ∧ s.uniform_spacing_flag = 0)) (Each (s.num_tile_rows_minus1) (· < 2 ^ 16) s.row_height_minus1) (s.row_height_minus1 = [])
  loop_filter_across_tiles_enabled_flag : Opt (s.tiles_enabled_flag ≠ 0) (s.loop_filter_across_tiles_enabled_flag < 2 ^ 1) (s.loop_filter_across_tiles_enabled_flag = 0)
  pps_loop_filter_across_slices_enabled_flag : s.pps_loop_filter_across_slices_enabled_flag < 2 ^ 1
  deblocking_filter_control_present_flag : s.deblocking_filter_control_present_flag < 2 ^ 1
  deblocking_filter_override_enabled_flag : Opt (s.deblocking_filter_control_present_flag ≠ 0) (s.deblocking_filter_override_enabled_flag < 2 ^ 1) (s.deblocking_filter_override_enabled_flag = 0)
  pps_deblocking_filter_disabled_flag : Opt (s.deblocking_filter_control_present_flag ≠ 0) (s.pps_deblocking_filter_disabled_flag < 2 ^ 1) (s.pps_deblocking_filter_disabled_flag = 0)
  pps_beta_offset_div2 : Opt ((s.deblocking_filter_control_present_flag ≠ 0 ∧ s.pps_deblocking_filter_disabled_flag = 0)) (-6 ≤ s.pps_beta_offset_div2 ∧ s.pps_beta_offset_div2 ≤ 6) (s.pps_beta_offset_div2 = 0)
  pps_tc_offset_div2 : Opt ((s.deblocking_filter_control_present_flag ≠ 0 ∧ s.pps_deblocking_filter_disabled_flag = 0)) (-6 ≤ s.pps_tc_offset_div2 ∧ s.pps_tc_offset_div2 ≤ 6) (s.pps_tc_offset_div2 = 0)
  pps_scaling_list_data_present_flag : s.pps_scaling_list_data_present_flag < 2 ^ 1
  scaling_list_data : Maybe (s.pps_scaling_list_data_present_flag ≠ 0) ConformsScalingListData s.scaling_list_data
  lists_modification_present_flag : s.lists_modification_present_flag < 2 ^ 1
  log2_parallel_merge_level_minus2 : s.log2_parallel_merge_level_minus2 ≤ 4
  slice_segment_header_extension_present_flag : s.slice_segment_header_extension_present_flag < 2 ^ 1
  pps_extension_present_flag : s.pps_extension_present_flag < 2 ^ 1
  pps_range_extension_flag : Opt (s.pps_extension_present_flag ≠ 0) (s.pps_range_extension_flag < 2 ^ 1) (s.pps_range_extension_flag = 0)
  pps_multilayer_extension_flag : Opt (s.pps_extension_present_flag ≠ 0) (s.pps_multilayer_extension_flag < 2 ^ 1) (s.pps_multilayer_extension_flag = 0)
  pps_3d_extension_flag : Opt (s.pps_extension_present_flag ≠ 0) (s.pps_3d_extension_flag < 2 ^ 1) (s.pps_3d_extension_flag = 0)
  pps_scc_extension_flag : Opt (s.pps_extension_present_flag ≠ 0) (s.pps_scc_extension_flag < 2 ^ 1) (s.pps_scc_extension_flag = 0)
  pps_extension_4bits : Opt (s.pps_extension_present_flag ≠ 0) (s.pps_extension_4bits < 2 ^ 4) (s.pps_extension_4bits = 0)

/-- clause F.7.4.3.3.4: offsets -/
structure ConformsRefLayerOffsets (s : RefLayerOffsets) : Prop where
  scaled_ref_layer_left_offset : -(2 ^ 14) ≤ s.scaled_ref_layer_left_offset ∧ s.scaled_ref_layer_left_offset < 2 ^ 14
  scaled_ref_layer_top_offset : -(2 ^ 14) ≤ s.scaled_ref_layer_top_offset ∧ s.scaled_ref_layer_top_offset < 2 ^ 14
  scaled_ref_layer_right_offset : -(2 ^ 14) ≤ s.scaled_ref_layer_right_offset ∧ s.scaled_ref_layer_right_offset < 2 ^ 14
  scaled_ref_layer_bottom_offset : -(2 ^ 14) ≤ s.scaled_ref_layer_bottom_offset ∧ s.scaled_ref_layer_bottom_offset < 2 ^ 14

/-- clause F.7.4.3.3.4: offsets -/
structure ConformsRefRegionOffsets (s : RefRegionOffsets) : Prop where
  ref_region_left_offset : -(2 ^ 14) ≤ s.ref_region_left_offset ∧ s.ref_region_left_offset < 2 ^ 14
  ref_region_top_offset : -(2 ^ 14) ≤ s.ref_region_top_offset ∧ s.ref_region_top_offset < 2 ^ 14
  ref_region_right_offset : -(2 ^ 14) ≤ s.ref_region_right_offset ∧ s.ref_region_right_offset < 2 ^ 14
  ref_region_bottom_offset : -(2 ^ 14) ≤ s.ref_region_bottom_offset ∧ s.ref_region_bottom_offset < 2 ^ 14

/-- clause F.7.4.3.3.4: phases -/
structure ConformsResamplePhase (s : ResamplePhase) : Prop where
  phase_hor_luma : 0 ≤ s.phase_hor_luma ∧ s.phase_hor_luma ≤ 31
  phase_ver_luma : 0 ≤ s.phase_ver_luma ∧ s.phase_ver_luma ≤ 31
  phase_hor_chroma_plus8 : 0 ≤ s.phase_hor_chroma_plus8 ∧ s.phase_hor_chroma_plus8 ≤ 63
  phase_ver_chroma_plus8 : 0 ≤ s.phase_ver_chroma_plus8 ∧ s.phase_ver_chroma_plus8 ≤ 63

/-- clause F.7.4.3.3.4: one reference location offset entry -/
structure ConformsRefLocOffset (s : RefLocOffset) : Prop where
  ref_loc_offset_layer_id : s.ref_loc_offset_layer_id < 2 ^ 6
  scaled_ref_layer_offset_present_flag : s.scaled_ref_layer_offset_present_flag < 2 ^ 1
  scaled_ref_layer_offset : Maybe (s.scaled_ref_layer_offset_present_flag ≠ 0) ConformsRefLayerOffsets s.scaled_ref_layer_offset
  ref_region_offset_present_flag : s.ref_region_offset_present_flag < 2 ^ 1
  ref_region_offset : Maybe (s.ref_region_offset_present_flag ≠ 0) ConformsRefRegionOffsets s.ref_region_offset
  resample_phase_set_present_flag : s.resample_phase_set_present_flag < 2 ^ 1
  resample_phase_set : Maybe (s.resample_phase_set_present_flag ≠ 0) ConformsResamplePhase s.resample_phase_set

/-- clause F.7.4.3.3.4; num_ref_loc_offsets is at most vps_max_layers_minus1, hence at most 62 -/
structure ConformsPpsMultilayerExtension (s : PpsMultilayerExtension) : Prop where
  poc_reset_info_present_flag : s.poc_reset_info_present_flag < 2 ^ 1
  pps_infer_scaling_list_flag : s.pps_infer_scaling_list_flag < 2 ^ 1
  pps_scaling_list_ref_layer_id : Opt (s.pps_infer_scaling_list_flag ≠ 0) (s.pps_scaling_list_ref_layer_id < 2 ^ 6) (s.pps_scaling_list_ref_layer_id = 0)
  num_ref_loc_offsets : s.num_ref_loc_offsets ≤ 62
  ref_loc_offset : Each s.num_ref_loc_offsets ConformsRefLocOffset s.ref_loc_offset
  colour_mapping_enabled_flag : s.colour_mapping_enabled_flag < 2 ^ 1

/-- clause 7.4.3.3 (the multilayer extension is that of Annex F) -/
structure ConformsPpsBody (s : PpsBody) : Prop where
  head : ConformsPpsHead s.head
  pps_multilayer_extension : Maybe (s.head.pps_multilayer_extension_flag ≠ 0) ConformsPpsMultilayerExtension s.pps_multilayer_extension
  pps_scc_extension : Maybe (s.head.pps_scc_extension_flag ≠ 0) ConformsPpsSccExtension s.pps_scc_extension

/-- clause 7.4.7.1, long-term picture `i`: `numSps` = num_long_term_sps, `numLtSps` = num_long_term_ref_pics_sps, `pocLen` = length of a POC LSB -/
structure ConformsLtRefPicHead (numSps numLtSps pocLen i : Nat) (s : LtRefPicHead) : Prop where
  lt_idx_sps : Opt ((i < numSps ∧ numLtSps > 1)) (s.lt_idx_sps < numLtSps) (s.lt_idx_sps = 0)
  poc_lsb_lt : Opt (numSps ≤ i) (s.poc_lsb_lt < 2 ^ (pocLen)) (s.poc_lsb_lt = 0)
  used_by_curr_pic_lt_flag : Opt (numSps ≤ i) (s.used_by_curr_pic_lt_flag < 2 ^ 1) (s.used_by_curr_pic_lt_flag = 0)
  delta_poc_msb_present_flag : s.delta_poc_msb_present_flag < 2 ^ 1

/-- clause 7.4.7.1 -/
structure ConformsLtRefPic (numSps numLtSps pocLen i : Nat) (s : LtRefPic) : Prop where
  head : ConformsLtRefPicHead numSps numLtSps pocLen i s.head
  delta_poc_msb_cycle_lt : Opt (s.head.delta_poc_msb_present_flag ≠ 0) (s.delta_poc_msb_cycle_lt ≤ 2 ^ (32 - pocLen)) (s.delta_poc_msb_cycle_lt = 0)

/-- clause 7.4.7.3 (offsets up to high precision) -/
structure ConformsLumaWeight (s : LumaWeight) : Prop where
  delta_luma_weight_l0 : -128 ≤ s.delta_luma_weight_l0 ∧ s.delta_luma_weight_l0 ≤ 127
  luma_offset_l0 : -(2 ^ 15) ≤ s.luma_offset_l0 ∧ s.luma_offset_l0 < 2 ^ 15

/-- clause 7.4.7.3 -/
structure ConformsChromaWeight (s : ChromaWeight) : Prop where
  delta_chroma_weight_l0_0 : -128 ≤ s.delta_chroma_weight_l0_0 ∧ s.delta_chroma_weight_l0_0 ≤ 127
  delta_chroma_offset_l0_0 : -(2 ^ 17) ≤ s.delta_chroma_offset_l0_0 ∧ s.delta_chroma_offset_l0_0 < 2 ^ 17
  delta_chroma_weight_l0_1 : -128 ≤ s.delta_chroma_weight_l0_1 ∧ s.delta_chroma_weight_l0_1 ≤ 127
  delta_chroma_offset_l0_1 : -(2 ^ 17) ≤ s.delta_chroma_offset_l0_1 ∧ s.delta_chroma_offset_l0_1 < 2 ^ 17

/-- the weights of one picture, with its flags -/
structure ConformsPredWeight (luma_flag chroma_flag : Nat) (s : PredWeight) : Prop where
  luma : Maybe (luma_flag ≠ 0) ConformsLumaWeight s.luma
  chroma : Maybe (chroma_flag ≠ 0) ConformsChromaWeight s.chroma

/-- clause 7.4.7.3, list 0: as many entries as active reference pictures -/
structure ConformsPredWeightTable (ChromaArrayType num_ref_idx_l0_active_minus1 : Nat) (s : PredWeightTable) : Prop where
  luma_log2_weight_denom : s.luma_log2_weight_denom ≤ 7
  delta_chroma_log2_weight_denom : Opt (ChromaArrayType ≠ 0) (0 ≤ (s.luma_log2_weight_denom : Int) + s.delta_chroma_log2_weight_denom ∧ (s.luma_log2_weight_denom : Int) + s.delta_chroma_log2_weight_denom ≤ 7) (s.delta_chroma_log2_weight_denom = 0)
  luma_weight_l0_flag : Each (num_ref_idx_l0_active_minus1 + 1) (· < 2 ^ 1) s.luma_weight_l0_flag
  chroma_weight_l0_flag : Opt (ChromaArrayType ≠ 0) (Each (num_ref_idx_l0_active_minus1 + 1) (· < 2 ^ 1) s.chroma_weight_l0_flag) (s.chroma_weight_l0_flag = [])
  weights : EachI (num_ref_idx_l0_active_minus1 + 1) (fun i => ConformsPredWeight (s.luma_weight_l0_flag.getD i 0) (s.chroma_weight_l0_flag.getD i 0)) s.weights

/-- clause 7.4.7.1 -/
structure ConformsSliceHead (nal_unit_type : Nat) (s : SliceHead) : Prop where
  first_slice_segment_in_pic_flag : s.first_slice_segment_in_pic_flag < 2 ^ 1
  no_output_of_prior_pics_flag : Opt ((16 ≤ nal_unit_type ∧ nal_unit_type ≤ 23)) (s.no_output_of_prior_pics_flag < 2 ^ 1) (s.no_output_of_prior_pics_flag = 0)
  slice_pic_parameter_set_id : s.slice_pic_parameter_set_id ≤ 63

/-- clause 7.4.7.1 (act_qp_offsets_present is no syntax element but the flag of the PPS) -/
structure ConformsSliceBody (nal_unit_type : Nat) (pps : PpsBody) (sps : SpsBody) (first : Nat) (s : SliceBody) : Prop where
  dependent_slice_segment_flag : Opt ((first = 0 ∧ pps.head.dependent_slice_segments_enabled_flag ≠ 0)) (s.dependent_slice_segment_flag < 2 ^ 1) (s.dependent_slice_segment_flag = 0)
  slice_segment_address : Opt (first = 0) (1 ≤ s.slice_segment_address ∧ s.slice_segment_address < picSizeInCtbsY sps) (s.slice_segment_address = 0)
  slice_reserved_flag : Opt (s.dependent_slice_segment_flag = 0) (Each (pps.head.num_extra_slice_header_bits) (· < 2 ^ 1) s.slice_reserved_flag) (s.slice_reserved_flag = [])
  slice_type : Opt (s.dependent_slice_segment_flag = 0) (s.slice_type ≤ 2) (s.slice_type = 0)
  pic_output_flag : Opt ((s.dependent_slice_segment_flag = 0 ∧ pps.head.output_flag_present_flag ≠ 0)) (s.pic_output_flag < 2 ^ 1) (s.pic_output_flag = 0)
  colour_plane_id : Opt ((s.dependent_slice_segment_flag = 0 ∧ sps.separate_colour_plane_flag = 1)) (s.colour_plane_id < 2 ^ 2) (s.colour_plane_id = 0)
  slice_pic_order_cnt_lsb : Opt ((s.dependent_slice_segment_flag = 0 ∧ nal_unit_type ≠ 19 ∧ nal_unit_type ≠ 20)) (s.slice_pic_order_cnt_lsb < 2 ^ ((sps.log2_max_pic_order_cnt_lsb_minus4 + 4))) (s.slice_pic_order_cnt_lsb = 0)
  short_term_ref_pic_set_sps_flag : Opt ((s.dependent_slice_segment_flag = 0 ∧ nal_unit_type ≠ 19 ∧ nal_unit_type ≠ 20)) (s.short_term_ref_pic_set_sps_flag < 2 ^ 1) (s.short_term_ref_pic_set_sps_flag = 0)
  st_ref_pic_set : Maybe ((s.dependent_slice_segment_flag = 0 ∧ nal_unit_type ≠ 19 ∧ nal_unit_type ≠ 20 ∧ s.short_term_ref_pic_set_sps_flag = 0)) (ConformsStRefPicSet sps.num_short_term_ref_pic_sets sps.num_short_term_ref_pic_sets sps.st_ref_pic_set) s.st_ref_pic_set
  short_term_ref_pic_set_idx : Opt ((s.dependent_slice_segment_flag = 0 ∧ nal_unit_type ≠ 19 ∧ nal_unit_type ≠ 20 ∧ s.short_term_ref_pic_set_sps_flag ≠ 0 ∧ sps.num_short_term_ref_pic_sets > 1)) (s.short_term_ref_pic_set_idx < sps.num_short_term_ref_pic_sets) (s.short_term_ref_pic_set_idx = 0)
  num_long_term_sps : Opt ((s.dependent_slice_segment_flag = 0 ∧ nal_unit_type ≠ 19 ∧ nal_unit_type ≠ 20 ∧ sps.long_term_ref_pics_present_flag ≠ 0 ∧ sps.num_long_term_ref_pics_sps > 0)) (s.num_long_term_sps ≤ sps.num_long_term_ref_pics_sps) (s.num_long_term_sps = 0)
  num_long_term_pics : Opt ((s.dependent_slice_segment_flag = 0 ∧ nal_unit_type ≠ 19 ∧ nal_unit_type ≠ 20 ∧ sps.long_term_ref_pics_present_flag ≠ 0)) (s.num_long_term_sps + s.num_long_term_pics ≤ 15) (s.num_long_term_pics = 0)
  lt_ref_pics : Opt ((s.dependent_slice_segment_flag = 0 ∧ nal_unit_type ≠ 19 ∧ nal_unit_type ≠ 20 ∧ sps.long_term_ref_pics_present_flag ≠ 0)) (EachI (s.num_long_term_sps + s.num_long_term_pics) (ConformsLtRefPic s.num_long_term_sps sps.num_long_term_ref_pics_sps (sps.log2_max_pic_order_cnt_lsb_minus4 + 4)) s.lt_ref_pics) (s.lt_ref_pics = [])
  slice_temporal_mvp_enabled_flag : Opt ((s.dependent_slice_segment_flag = 0 ∧ nal_unit_type ≠ 19 ∧ nal_unit_type ≠ 20 ∧ sps.sps_temporal_mvp_enabled_flag ≠ 0)) (s.slice_temporal_mvp_enabled_flag < 2 ^ 1) (s.slice_temporal_mvp_enabled_flag = 0)
  slice_sao_luma_flag : Opt ((s.dependent_slice_segment_flag = 0 ∧ sps.sample_adaptive_offset_enabled_flag ≠ 0)) (s.slice_sao_luma_flag < 2 ^ 1) (s.slice_sao_luma_flag = 0)
  slice_sao_chroma_flag : Opt (s.dependent_slice_segment_flag = 0 ∧ sps.sample_adaptive_offset_enabled_flag ≠ 0 ∧ chromaArrayType sps ≠ 0) (s.slice_sao_chroma_flag < 2 ^ 1) (s.slice_sao_chroma_flag = 0)
  num_ref_idx_active_override_flag : Opt ((s.dependent_slice_segment_flag = 0 ∧ (s.slice_type = 1 ∨ s.slice_type = 0))) (s.num_ref_idx_active_override_flag < 2 ^ 1) (s.num_ref_idx_active_override_flag = 0)
  num_ref_idx_l0_active_minus1 : Opt ((s.dependent_slice_segment_flag = 0 ∧ (s.slice_type = 1 ∨ s.slice_type = 0) ∧ s.num_ref_idx_active_override_flag ≠ 0)) (s.num_ref_idx_l0_active_minus1 ≤ 14) (s.num_ref_idx_l0_active_minus1 = 0)
  num_ref_idx_l1_active_minus1 : Opt ((s.dependent_slice_segment_flag = 0 ∧ s.slice_type = 0 ∧ s.num_ref_idx_active_override_flag ≠ 0)) (s.num_ref_idx_l1_active_minus1 ≤ 14) (s.num_ref_idx_l1_active_minus1 = 0)
  mvd_l1_zero_flag : Opt ((s.dependent_slice_segment_flag = 0 ∧ s.slice_type = 0)) (s.mvd_l1_zero_flag < 2 ^ 1) (s.mvd_l1_zero_flag = 0)
  cabac_init_flag : Opt ((s.dependent_slice_segment_flag = 0 ∧ (s.slice_type = 1 ∨ s.slice_type = 0) ∧ pps.head.cabac_init_present_flag ≠ 0)) (s.cabac_init_flag < 2 ^ 1) (s.cabac_init_flag = 0)
  collocated_from_l0_flag : Opt ((s.dependent_slice_segment_flag = 0 ∧ s.slice_type = 0 ∧ s.slice_temporal_mvp_enabled_flag ≠ 0)) (s.collocated_from_l0_flag < 2 ^ 1) (s.collocated_from_l0_flag = 1)
  collocated_ref_idx : Opt (s.dependent_slice_segment_flag = 0 ∧ (s.slice_type = 1 ∨ s.slice_type = 0) ∧ s.slice_temporal_mvp_enabled_flag ≠ 0 ∧
      ((collocatedFromL0 s ≠ 0 ∧ numRefIdxL0 pps s > 0) ∨ (collocatedFromL0 s = 0 ∧ numRefIdxL1 pps s > 0)))
    (s.collocated_ref_idx ≤ (if collocatedFromL0 s ≠ 0 then numRefIdxL0 pps s else numRefIdxL1 pps s)) (s.collocated_ref_idx = 0)
  pred_weight_table : Maybe (s.dependent_slice_segment_flag = 0 ∧ ((pps.head.weighted_pred_flag ≠ 0 ∧ s.slice_type = 1) ∨ (pps.head.weighted_bipred_flag ≠ 0 ∧ s.slice_type = 0)))
    (ConformsPredWeightTable (chromaArrayType sps) (numRefIdxL0 pps s)) s.pred_weight_table
  five_minus_max_num_merge_cand : Opt ((s.dependent_slice_segment_flag = 0 ∧ (s.slice_type = 1 ∨ s.slice_type = 0))) (s.five_minus_max_num_merge_cand ≤ 4) (s.five_minus_max_num_merge_cand = 0)
  use_integer_mv_flag : Opt (s.dependent_slice_segment_flag = 0 ∧ (s.slice_type = 1 ∨ s.slice_type = 0) ∧ mvResolution sps = 2) (s.use_integer_mv_flag < 2 ^ 1) (s.use_integer_mv_flag = 0)
  slice_qp_delta : Opt (s.dependent_slice_segment_flag = 0) (-(6 * (sps.bit_depth_luma_minus8 : Int)) ≤ 26 + pps.head.init_qp_minus26 + s.slice_qp_delta ∧ 26 + pps.head.init_qp_minus26 + s.slice_qp_delta ≤ 51) (s.slice_qp_delta = 0)
  slice_cb_qp_offset : Opt ((s.dependent_slice_segment_flag = 0 ∧ pps.head.pps_slice_chroma_qp_offsets_present_flag ≠ 0)) (-12 ≤ s.slice_cb_qp_offset ∧ s.slice_cb_qp_offset ≤ 12) (s.slice_cb_qp_offset = 0)
  slice_cr_qp_offset : Opt ((s.dependent_slice_segment_flag = 0 ∧ pps.head.pps_slice_chroma_qp_offsets_present_flag ≠ 0)) (-12 ≤ s.slice_cr_qp_offset ∧ s.slice_cr_qp_offset ≤ 12) (s.slice_cr_qp_offset = 0)
  act_qp_offsets_present : Opt (s.dependent_slice_segment_flag = 0) (s.act_qp_offsets_present = actOffsetsPresent pps) (s.act_qp_offsets_present = 0)
  slice_act_y_qp_offset : Opt ((s.dependent_slice_segment_flag = 0 ∧ s.act_qp_offsets_present ≠ 0)) (-12 ≤ s.slice_act_y_qp_offset ∧ s.slice_act_y_qp_offset ≤ 12) (s.slice_act_y_qp_offset = 0)
  slice_act_cb_qp_offset : Opt ((s.dependent_slice_segment_flag = 0 ∧ s.act_qp_offsets_present ≠ 0)) (-12 ≤ s.slice_act_cb_qp_offset ∧ s.slice_act_cb_qp_offset ≤ 12) (s.slice_act_cb_qp_offset = 0)
  slice_act_cr_qp_offset : Opt ((s.dependent_slice_segment_flag = 0 ∧ s.act_qp_offsets_present ≠ 0)) (-12 ≤ s.slice_act_cr_qp_offset ∧ s.slice_act_cr_qp_offset ≤ 12) (s.slice_act_cr_qp_offset = 0)
  deblocking_filter_override_flag : Opt ((s.dependent_slice_segment_flag = 0 ∧ pps.head.deblocking_filter_override_enabled_flag ≠ 0)) (s.deblocking_filter_override_flag < 2 ^ 1) (s.deblocking_filter_override_flag = 0)
  slice_deblocking_filter_disabled_flag : Opt ((s.dependent_slice_segment_flag = 0 ∧ s.deblocking_filter_override_flag ≠ 0)) (s.slice_deblocking_filter_disabled_flag < 2 ^ 1) (s.slice_deblocking_filter_disabled_flag = 0)
  slice_beta_offset_div2 : Opt ((s.dependent_slice_segment_flag = 0 ∧ s.deblocking_filter_override_flag ≠ 0 ∧ s.slice_deblocking_filter_disabled_flag = 0)) (-6 ≤ s.slice_beta_offset_div2 ∧ s.slice_beta_offset_div2 ≤ 6) (s.slice_beta_offset_div2 = 0)
  slice_tc_offset_div2 : Opt ((s.dependent_slice_segment_flag = 0 ∧ s.deblocking_filter_override_flag ≠ 0 ∧ s.slice_deblocking_filter_disabled_flag = 0)) (-6 ≤ s.slice_tc_offset_div2 ∧ s.slice_tc_offset_div2 ≤ 6) (s.slice_tc_offset_div2 = 0)
  slice_loop_filter_across_slices_enabled_flag : Opt (s.dependent_slice_segment_flag = 0 ∧ pps.head.pps_loop_filter_across_slices_enabled_flag ≠ 0 ∧
      (s.slice_sao_luma_flag ≠ 0 ∨ s.slice_sao_chroma_flag ≠ 0 ∨ deblockingDisabled pps s = 0))
    (s.slice_loop_filter_across_slices_enabled_flag < 2 ^ 1) (s.slice_loop_filter_across_slices_enabled_flag = 0)
  num_entry_point_offsets : Opt ((pps.head.tiles_enabled_flag ≠ 0 ∨ pps.head.entropy_coding_sync_enabled_flag ≠ 0)) ((pps.head.tiles_enabled_flag = 0 → s.num_entry_point_offsets ≤ picHeightInCtbsY sps - 1) ∧
      (pps.head.tiles_enabled_flag ≠ 0 → pps.head.entropy_coding_sync_enabled_flag = 0 →
        s.num_entry_point_offsets ≤ (pps.head.num_tile_columns_minus1 + 1) * (pps.head.num_tile_rows_minus1 + 1) - 1) ∧
      (pps.head.tiles_enabled_flag ≠ 0 → pps.head.entropy_coding_sync_enabled_flag ≠ 0 →
        s.num_entry_point_offsets ≤ (pps.head.num_tile_columns_minus1 + 1) * picHeightInCtbsY sps - 1)) (s.num_entry_point_offsets = 0)
  offset_len_minus1 : Opt (((pps.head.tiles_enabled_flag ≠ 0 ∨ pps.head.entropy_coding_sync_enabled_flag ≠ 0) ∧ s.num_entry_point_offsets > 0)) (s.offset_len_minus1 ≤ 31) (s.offset_len_minus1 = 0)
  entry_point_offset_minus1 : Opt (((pps.head.tiles_enabled_flag ≠ 0 ∨ pps.head.entropy_coding_sync_enabled_flag ≠ 0) ∧ s.num_entry_point_offsets > 0)) (Each (s.num_entry_point_offsets) (· < 2 ^ ((s.offset_len_minus1 + 1))) s.entry_point_offset_minus1) (s.entry_point_offset_minus1 = [])
  slice_segment_header_extension_length : Opt (pps.head.slice_segment_header_extension_present_flag ≠ 0) (s.slice_segment_header_extension_length ≤ 256) (s.slice_segment_header_extension_length = 0)
  slice_segment_header_extension_data_byte : Opt (pps.head.slice_segment_header_extension_present_flag ≠ 0) (Each (s.slice_segment_header_extension_length) (· < 2 ^ 8) s.slice_segment_header_extension_data_byte) (s.slice_segment_header_extension_data_byte = [])

end H265.Std
