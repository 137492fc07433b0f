/-
The text form of every structure: its syntax elements in the order of the syntax, each with its value.
(Generated from the tables of names; the names are those of the standard.  Where the text deviates from the syntax, the comment says so.)
-/
import Verif.Model.Scaling
import Verif.Model.SpsDerived
import Verif.Spec.DumpText
import Verif.Spec.Pps
import Verif.Spec.Sei
import Verif.Spec.Slice
import Verif.Spec.Vps

set_option autoImplicit false

namespace H265.Spec

/-- an element of a list, a natural number -/
def oneNat (v : Nat) : Text := one v

/-- a part that is there only if the object is -/
def some? {α : Type} (o : Option α) (f : α → Text) : Text := o.toList.flatMap f

/-- a chromaticity coordinate in units of 0.00002, with its value -/
def chromaticity (name : String) (v : Nat) : Text := entry name [decimal v, '(' :: (fraction 5 (2 * v) ++ [')'])]

/-- a luminance in units of 0.0001 candela per square metre, with its value -/
def luminance (name : String) (v : Nat) : Text := entry name [decimal v, '(' :: fraction 4 v, "cd/m^2)".toList]

/-- a UUID of which `a` and `b` are the two halves: 8-4-4-4-12 hexadecimal digits -/
def uuid (a b : Nat) : List Char :=
  hexadecimal 8 (a / 2 ^ 32) ++ '-' :: (hexadecimal 4 (a / 2 ^ 16 % 2 ^ 16) ++ '-' :: (hexadecimal 4 (a % 2 ^ 16) ++ '-' ::
    (hexadecimal 4 (b / 2 ^ 48) ++ '-' :: hexadecimal 12 (b % 2 ^ 48))))

/-- the name of a profile -/
def profileName : ProfileType → String
  | .UNSPECIFIED => "Unspecified"
  | .MAIN => "Main"
  | .MAIN_10 => "Main 10"
  | .MAIN_STILL_PICTURE => "Main Still Picture"
  | .FREXT => "FRExt"
  | .MULTIVIEW_MAIN => "Multiview Main"
  | .SCALABLE => "Scalable"
  | ._3D_MAIN => "3D-Main"
  | .SCREEN_EXTENDED => "Screen-Extended"
  | .MULTILAYER => "Multilayer (Annex F)"
  | .SCREEN_EXTENDED_HIGH_THROUGHPUT => "Screen-Extended High-Throughput"
  | .MULTIVIEW_EXTENDED => "Multiview Extended"
  | .MULTIVIEW_EXTENDED_10 => "Multiview Extended 10"
  | .MAIN_10_STILL_PICTURE => "Main 10 Still Picture"
  | .MONOCHROME => "Monochrome (8-bit)"
  | .MONOCHROME_10 => "Monochrome (10-bit)"
  | .MONOCHROME_12 => "Monochrome (12-bit)"
  | .MONOCHROME_16 => "Monochrome (16-bit)"
  | .MAIN_12 => "Main 12"
  | .MAIN_422_10 => "Main 4:2:2 10"
  | .MAIN_422_12 => "Main 4:2:2 12"
  | .MAIN_444 => "Main 4:4:4"
  | .MAIN_444_10 => "Main 4:4:4 10"
  | .MAIN_444_12 => "Main 4:4:4 12"
  | .MAIN_INTRA => "Main Intra"
  | .MAIN_10_INTRA => "Main 10 Intra"
  | .MAIN_12_INTRA => "Main 12 Intra"
  | .MAIN_422_10_INTRA => "Main 4:2:2 10 Intra"
  | .MAIN_422_12_INTRA => "Main 4:2:2 12 Intra"
  | .MAIN_444_INTRA => "Main 4:4:4 Intra"
  | .MAIN_444_10_INTRA => "Main 4:4:4 10 Intra"
  | .MAIN_444_12_INTRA => "Main 4:4:4 12 Intra"
  | .MAIN_444_16_INTRA => "Main 4:4:4 16 Intra"
  | .MAIN_444_STILL_PICTURE => "Main 4:4:4 Still Picture"
  | .MAIN_444_16_STILL_PICTURE => "Main 4:4:4 16 Still Picture"
  | .HIGH_THROUGHPUT_444 => "High Throughput 4:4:4"
  | .HIGH_THROUGHPUT_444_10 => "High Throughput 4:4:4 10"
  | .HIGH_THROUGHPUT_444_14 => "High Throughput 4:4:4 14"
  | .HIGH_THROUGHPUT_444_16_INTRA => "High Throughput 4:4:4 16 Intra"
  | .SCALABLE_MAIN => "Scalable Main"
  | .SCALABLE_MAIN_10 => "Scalable Main 10"
  | .SCREEN_EXTENDED_MAIN => "Screen-Extended Main"
  | .SCREEN_EXTENDED_MAIN_10 => "Screen-Extended Main 10"
  | .SCREEN_EXTENDED_MAIN_444 => "Screen-Extended Main 4:4:4"
  | .SCREEN_EXTENDED_MAIN_444_10 => "Screen-Extended Main 4:4:4 10"
  | .SCREEN_EXTENDED_HIGH_THROUGHPUT_444 => "Screen-Extended High Throughput 4:4:4"
  | .SCREEN_EXTENDED_HIGH_THROUGHPUT_444_10 => "Screen-Extended High Throughput 4:4:4 10"
  | .SCREEN_EXTENDED_HIGH_THROUGHPUT_444_14 => "Screen-Extended High Throughput 4:4:4 14"
  | .MONOCHROME_STILL_PICTURE => "Monochrome (8-bit) Still Picture"
  | .MONOCHROME_10_STILL_PICTURE => "Monochrome (10-bit) Still Picture"
  | .MAIN_444_10_STILL_PICTURE => "Main (8-bit) 4:4:4 Still Picture"
  | .HIGH_THROUGHPUT => "Unknown"

/-- the elements of a profile -/
def textProfileInfo (s : ProfileInfo) : List Text :=
  [
    u32 "profile_space" s.profile_space,
    u32 "tier_flag" s.tier_flag,
    u32 "profile_idc" s.profile_idc,
    listed "profile_compatibility_flag" one32 s.profile_compatibility_flag,
    entry "profile" (words (profileName s.profile_type).toList),
    u32 "progressive_source_flag" s.progressive_source_flag,
    u32 "interlaced_source_flag" s.interlaced_source_flag,
    u32 "non_packed_constraint_flag" s.non_packed_constraint_flag,
    u32 "frame_only_constraint_flag" s.frame_only_constraint_flag,
    u32 "max_12bit_constraint_flag" s.constraints.max_12bit_constraint_flag,
    u32 "max_10bit_constraint_flag" s.constraints.max_10bit_constraint_flag,
    u32 "max_8bit_constraint_flag" s.constraints.max_8bit_constraint_flag,
    u32 "max_422chroma_constraint_flag" s.constraints.max_422chroma_constraint_flag,
    u32 "max_420chroma_constraint_flag" s.constraints.max_420chroma_constraint_flag,
    u32 "max_monochrome_constraint_flag" s.constraints.max_monochrome_constraint_flag,
    u32 "intra_constraint_flag" s.constraints.intra_constraint_flag,
    u32 "one_picture_only_constraint_flag" s.constraints.one_picture_only_constraint_flag,
    u32 "lower_bit_rate_constraint_flag" s.constraints.lower_bit_rate_constraint_flag,
    u32 "max_14bit_constraint_flag" s.constraints.max_14bit_constraint_flag,
    num "reserved_zero_33bits" s.constraints.reserved_zero_33bits,
    num "reserved_zero_34bits" s.constraints.reserved_zero_34bits,
    num "reserved_zero_7bits" s.constraints.reserved_zero_7bits,
    num "reserved_zero_35bits" s.constraints.reserved_zero_35bits,
    num "reserved_zero_43bits" s.constraints.reserved_zero_43bits,
    u32 "inbld_flag" s.inbld_flag,
    u32 "reserved_zero_bit" s.reserved_zero_bit]

/-- `profile_tier_level { … }`: the records of the sub-layers that have one -/
def textPtl (present : Bool) (n : Nat) (s : ProfileTierLevel) : Text :=
  block "profile_tier_level" [
    opt (present = true) [some? s.general fun g => block "general" (textProfileInfo g)],
    u32 "general_level_idc" s.general_level_idc,
    listed "sub_layer_profile_present_flag" one32 (s.sub_layer_flags.map (·.1)),
    listed "sub_layer_level_present_flag" one32 (s.sub_layer_flags.map (·.2)),
    opt (n > 0) [listed "reserved_zero_2bits" one32 s.reserved_zero_2bits],
    opt (n > 0) [
      (s.sub_layers.filterMap id).flatMap fun x => block "sub_layer" (textProfileInfo x.1),
      listed "sub_layer_level_idc" one32 ((s.sub_layers.filterMap id).map (·.2))]]

/-- all the sub-layer HRD parameters: per sub-layer first those of NAL, then those of VCL conformance -/
def hrdEntries (s : HrdParameters) : List (List SubLayerHrdEntry) := s.sub_layers.flatMap fun l => l.nal_hrd.toList ++ l.vcl_hrd.toList

/-- the resolution after cropping -/
def textResolution (s : SpsBody) : Text :=
  List.flatten [
    num "width" (s.pic_width_in_luma_samples - subWidthC s.chroma_format_idc * (s.conf_win_left_offset + s.conf_win_right_offset)),
    num "height" (s.pic_height_in_luma_samples - subHeightC s.chroma_format_idc * (s.conf_win_top_offset + s.conf_win_bottom_offset))]

/-- `nal_unit_header { … }` -/
def textNalUnitHeader (s : NalUnitHeader) : Text :=
  block "nal_unit_header" [
    u32 "forbidden_zero_bit" s.forbidden_zero_bit,
    u32 "nal_unit_type" s.nal_unit_type,
    u32 "nuh_layer_id" s.nuh_layer_id,
    u32 "nuh_temporal_id_plus1" s.nuh_temporal_id_plus1]

/-- `aud { … }` -/
def textAud (s : Aud) : Text :=
  block "aud" [
    u32 "pic_type" s.pic_type]

/-- `sub_layer_hrd_parameters { … }` -/
def textSubLayerHrd (s : List SubLayerHrdEntry) : Text :=
  block "sub_layer_hrd_parameters" [
    listed "bit_rate_value_minus1" one32 (s.map (·.bit_rate_value_minus1)),
    listed "cpb_size_value_minus1" one32 (s.map (·.cpb_size_value_minus1)),
    listed "cpb_size_du_value_minus1" one32 (s.map (·.cpb_size_du_value_minus1)),
    listed "bit_rate_du_value_minus1" one32 (s.map (·.bit_rate_du_value_minus1)),
    listed "cbr_flag" one32 (s.map (·.cbr_flag))]

/-- `hrd_parameters { … }` -/
def textHrd (common : Nat) (s : HrdParameters) : Text :=
  block "hrd_parameters" [
    opt (common ≠ 0) [
      u32 "nal_hrd_parameters_present_flag" s.nal_hrd_parameters_present_flag,
      u32 "vcl_hrd_parameters_present_flag" s.vcl_hrd_parameters_present_flag,
      opt (s.nal_hrd_parameters_present_flag ≠ 0 ∨ s.vcl_hrd_parameters_present_flag ≠ 0) [
        u32 "sub_pic_hrd_params_present_flag" s.sub_pic_hrd_params_present_flag,
        opt (s.sub_pic_hrd_params_present_flag ≠ 0) [
          u32 "tick_divisor_minus2" s.tick_divisor_minus2,
          u32 "du_cpb_removal_delay_increment_length_minus1" s.du_cpb_removal_delay_increment_length_minus1,
          u32 "sub_pic_cpb_params_in_pic_timing_sei_flag" s.sub_pic_cpb_params_in_pic_timing_sei_flag,
          u32 "dpb_output_delay_du_length_minus1" s.dpb_output_delay_du_length_minus1],
        u32 "bit_rate_scale" s.bit_rate_scale,
        u32 "cpb_size_scale" s.cpb_size_scale,
        opt (s.sub_pic_hrd_params_present_flag ≠ 0) [
          u32 "cpb_size_du_scale" s.cpb_size_du_scale],
        u32 "initial_cpb_removal_delay_length_minus1" s.initial_cpb_removal_delay_length_minus1,
        u32 "au_cpb_removal_delay_length_minus1" s.au_cpb_removal_delay_length_minus1,
        u32 "dpb_output_delay_length_minus1" s.dpb_output_delay_length_minus1]],
    listed "fixed_pic_rate_general_flag" one32 (s.sub_layers.map (·.fixed_pic_rate_general_flag)),
    listed "fixed_pic_rate_within_cvs_flag" one32 (s.sub_layers.map (·.fixed_pic_rate_within_cvs_flag)),
    listed "elemental_duration_in_tc_minus1" one32 (s.sub_layers.map (·.elemental_duration_in_tc_minus1)),
    listed "low_delay_hrd_flag" one32 (s.sub_layers.map (·.low_delay_hrd_flag)),
    listed "cpb_cnt_minus1" one32 (s.sub_layers.map (·.cpb_cnt_minus1)),
    opt (s.nal_hrd_parameters_present_flag ≠ 0) [
      block "sub_layer_hrd_parameters_vector" [
        (hrdEntries s).flatMap textSubLayerHrd]],
    opt (s.vcl_hrd_parameters_present_flag ≠ 0) [
      block "sub_layer_hrd_parameters_vector" [
        (hrdEntries s).flatMap textSubLayerHrd]]]

/-- `vui_parameters { … }` -/
def textVui (s : VuiParameters) : Text :=
  block "vui_parameters" [
    u32 "aspect_ratio_info_present_flag" s.aspect_ratio_info_present_flag,
    opt (s.aspect_ratio_info_present_flag ≠ 0) [
      u32 "aspect_ratio_idc" s.aspect_ratio_idc,
      opt (s.aspect_ratio_idc = 255) [
        u32 "sar_width" s.sar_width,
        u32 "sar_height" s.sar_height]],
    u32 "overscan_info_present_flag" s.overscan_info_present_flag,
    opt (s.overscan_info_present_flag ≠ 0) [
      u32 "overscan_appropriate_flag" s.overscan_appropriate_flag],
    u32 "video_signal_type_present_flag" s.video_signal_type_present_flag,
    opt (s.video_signal_type_present_flag ≠ 0) [
      u32 "video_format" s.video_format,
      u32 "video_full_range_flag" s.video_full_range_flag,
      u32 "colour_description_present_flag" s.colour_description_present_flag,
      opt (s.colour_description_present_flag ≠ 0) [
        u32 "colour_primaries" s.colour_primaries,
        u32 "transfer_characteristics" s.transfer_characteristics,
        u32 "matrix_coeffs" s.matrix_coeffs]],
    u32 "chroma_loc_info_present_flag" s.chroma_loc_info_present_flag,
    opt (s.chroma_loc_info_present_flag ≠ 0) [
      u32 "chroma_sample_loc_type_top_field" s.chroma_sample_loc_type_top_field,
      u32 "chroma_sample_loc_type_bottom_field" s.chroma_sample_loc_type_bottom_field],
    u32 "neutral_chroma_indication_flag" s.neutral_chroma_indication_flag,
    u32 "field_seq_flag" s.field_seq_flag,
    u32 "frame_field_info_present_flag" s.frame_field_info_present_flag,
    u32 "default_display_window_flag" s.default_display_window_flag,
    opt (s.default_display_window_flag ≠ 0) [
      u32 "def_disp_win_left_offset" s.def_disp_win_left_offset,
      u32 "def_disp_win_right_offset" s.def_disp_win_right_offset,
      u32 "def_disp_win_top_offset" s.def_disp_win_top_offset,
      u32 "def_disp_win_bottom_offset" s.def_disp_win_bottom_offset],
    u32 "vui_timing_info_present_flag" s.vui_timing_info_present_flag,
    opt (s.vui_timing_info_present_flag ≠ 0) [
      u32 "vui_num_units_in_tick" s.vui_num_units_in_tick,
      u32 "vui_time_scale" s.vui_time_scale,
      u32 "vui_poc_proportional_to_timing_flag" s.vui_poc_proportional_to_timing_flag,
      opt (s.vui_poc_proportional_to_timing_flag ≠ 0) [
        u32 "vui_num_ticks_poc_diff_one_minus1" s.vui_num_ticks_poc_diff_one_minus1],
      u32 "vui_hrd_parameters_present_flag" s.vui_hrd_parameters_present_flag,
      opt (s.vui_hrd_parameters_present_flag ≠ 0) [
        some? s.hrd_parameters (textHrd 1)]],
    u32 "bitstream_restriction_flag" s.bitstream_restriction_flag,
    opt (s.bitstream_restriction_flag ≠ 0) [
      u32 "tiles_fixed_structure_flag" s.tiles_fixed_structure_flag,
      u32 "motion_vectors_over_pic_boundaries_flag" s.motion_vectors_over_pic_boundaries_flag,
      u32 "restricted_ref_pic_lists_flag" s.restricted_ref_pic_lists_flag,
      u32 "min_spatial_segmentation_idc" s.min_spatial_segmentation_idc,
      u32 "max_bytes_per_pic_denom" s.max_bytes_per_pic_denom,
      u32 "max_bits_per_min_cu_denom" s.max_bits_per_min_cu_denom,
      u32 "log2_max_mv_length_horizontal" s.log2_max_mv_length_horizontal,
      u32 "log2_max_mv_length_vertical" s.log2_max_mv_length_vertical]]

/-- `vps { … }` -/
def textVps (v : Vps) : Text :=
  block "vps" [
    u32 "vps_video_parameter_set_id" v.body.vps_video_parameter_set_id,
    u32 "vps_base_layer_internal_flag" v.body.vps_base_layer_internal_flag,
    u32 "vps_base_layer_available_flag" v.body.vps_base_layer_available_flag,
    u32 "vps_max_layers_minus1" v.body.vps_max_layers_minus1,
    u32 "vps_max_sub_layers_minus1" v.body.vps_max_sub_layers_minus1,
    u32 "vps_temporal_id_nesting_flag" v.body.vps_temporal_id_nesting_flag,
    entry "vps_reserved_0xffff_16bits" ["0x".toList ++ hexadecimal 4 v.body.vps_reserved_0xffff_16bits],
    textPtl true v.body.vps_max_sub_layers_minus1 v.body.profile_tier_level,
    u32 "vps_sub_layer_ordering_info_present_flag" v.body.vps_sub_layer_ordering_info_present_flag,
    listed "vps_max_dec_pic_buffering_minus1" one32 (v.body.sub_layer_ordering.map (·.max_dec_pic_buffering_minus1)),
    listed "vps_max_num_reorder_pics" one32 (v.body.sub_layer_ordering.map (·.max_num_reorder_pics)),
    listed "vps_max_latency_increase_plus1" one32 (v.body.sub_layer_ordering.map (·.max_latency_increase_plus1)),
    u32 "vps_max_layer_id" v.body.vps_max_layer_id,
    u32 "vps_num_layer_sets_minus1" v.body.vps_num_layer_sets_minus1,
    listed "layer_id_included_flag" (row one32) v.body.layer_id_included_flag,
    u32 "vps_timing_info_present_flag" v.body.vps_timing_info_present_flag,
    u32 "vps_num_units_in_tick" v.body.vps_num_units_in_tick,
    u32 "vps_time_scale" v.body.vps_time_scale,
    u32 "vps_poc_proportional_to_timing_flag" v.body.vps_poc_proportional_to_timing_flag,
    u32 "vps_num_ticks_poc_diff_one_minus1" v.body.vps_num_ticks_poc_diff_one_minus1,
    u32 "vps_num_hrd_parameters" v.body.vps_num_hrd_parameters,
    opt (v.body.vps_num_hrd_parameters > 0) [
      listed "hrd_layer_set_idx" one32 (v.body.hrds.map (·.hrd_layer_set_idx)),
      listed "cprms_present_flag" one32 (v.body.hrds.map (·.cprms_present_flag)),
      some? v.body.hrds.getLast? (fun h => textHrd h.cprms_present_flag h.hrd_parameters)],
    u32 "vps_extension_flag" v.body.vps_extension_flag,
    u32 "vps_extension_data_flag" v.vps_extension_data_flag]

/-- `st_ref_pic_set { … }` -/
def textStRefPicSet (idx num : Nat) (s : StRefPicSet) : Text :=
  block "st_ref_pic_set" [
    opt (idx ≠ 0) [
      u32 "inter_ref_pic_set_prediction_flag" s.inter_ref_pic_set_prediction_flag],
    opt (s.inter_ref_pic_set_prediction_flag ≠ 0) [
      opt (idx = num) [
        u32 "delta_idx_minus1" s.delta_idx_minus1],
      u32 "delta_rps_sign" s.delta_rps_sign,
      u32 "abs_delta_rps_minus1" s.abs_delta_rps_minus1,
      listed "used_by_curr_pic_flag" one32 (s.flags.map (·.used_by_curr_pic_flag)),
      listed "use_delta_flag" one32 (s.flags.map (·.use_delta_flag))],
    opt (¬ s.inter_ref_pic_set_prediction_flag ≠ 0) [
      u32 "num_negative_pics" s.num_negative_pics,
      u32 "num_positive_pics" s.num_positive_pics,
      listed "delta_poc_s0_minus1" one32 (s.s0.map (·.delta_poc_minus1)),
      listed "used_by_curr_pic_s0_flag" one32 (s.s0.map (·.used_by_curr_pic)),
      listed "delta_poc_s1_minus1" one32 (s.s1.map (·.delta_poc_minus1)),
      listed "used_by_curr_pic_s1_flag" one32 (s.s1.map (·.used_by_curr_pic))]]

/-- `scaling_list_data { … }` -/
def textScalingListData (s : ScalingListData) : Text :=
  block "scaling_list_data" [
    listed "scaling_list_pred_mode_flag" (row one32) s.scaling_list_pred_mode_flag,
    listed "scaling_list_pred_matrix_id_delta" (row one32) s.scaling_list_pred_matrix_id_delta,
    listed "scaling_list_dc_coef_minus8" (row one) s.scaling_list_dc_coef_minus8,
    listed "ScalingList" (row (row one32)) s.ScalingList]

/-- `sps_range_extension { … }` -/
def textSpsRangeExtension (s : SpsRangeExtension) : Text :=
  block "sps_range_extension" [
    u32 "transform_skip_rotation_enabled_flag" s.transform_skip_rotation_enabled_flag,
    u32 "transform_skip_context_enabled_flag" s.transform_skip_context_enabled_flag,
    u32 "implicit_rdpcm_enabled_flag" s.implicit_rdpcm_enabled_flag,
    u32 "explicit_rdpcm_enabled_flag" s.explicit_rdpcm_enabled_flag,
    u32 "extended_precision_processing_flag" s.extended_precision_processing_flag,
    u32 "intra_smoothing_disabled_flag" s.intra_smoothing_disabled_flag,
    u32 "high_precision_offsets_enabled_flag" s.high_precision_offsets_enabled_flag,
    u32 "persistent_rice_adaptation_enabled_flag" s.persistent_rice_adaptation_enabled_flag,
    u32 "cabac_bypass_alignment_enabled_flag" s.cabac_bypass_alignment_enabled_flag]

/-- `sps_multilayer_extension { … }` -/
def textSpsMultilayerExtension (s : SpsMultilayerExtension) : Text :=
  block "sps_multilayer_extension" [
    u32 "inter_view_mv_vert_constraint_flag" s.inter_view_mv_vert_constraint_flag]

/-- `sps_3d_extension { … }` -/
def textSps3dExtension (s : Sps3dExtension) : Text :=
  block "sps_3d_extension" [
    listed "iv_di_mc_enabled_flag" one32 [s.iv_di_mc_enabled_flag_0, s.iv_di_mc_enabled_flag_1],
    listed "iv_mv_scal_enabled_flag" one32 [s.iv_mv_scal_enabled_flag_0, s.iv_mv_scal_enabled_flag_1],
    u32 "log2_ivmc_sub_pb_size_minus3" s.log2_ivmc_sub_pb_size_minus3,
    u32 "iv_res_pred_enabled_flag" s.iv_res_pred_enabled_flag,
    u32 "depth_ref_enabled_flag" s.depth_ref_enabled_flag,
    u32 "vsp_mc_enabled_flag" s.vsp_mc_enabled_flag,
    u32 "dbbp_enabled_flag" s.dbbp_enabled_flag,
    u32 "tex_mc_enabled_flag" s.tex_mc_enabled_flag,
    u32 "log2_texmc_sub_pb_size_minus3" s.log2_texmc_sub_pb_size_minus3,
    u32 "intra_contour_enabled_flag" s.intra_contour_enabled_flag,
    u32 "intra_dc_only_wedge_enabled_flag" s.intra_dc_only_wedge_enabled_flag,
    u32 "cqt_cu_part_pred_enabled_flag" s.cqt_cu_part_pred_enabled_flag,
    u32 "inter_dc_only_enabled_flag" s.inter_dc_only_enabled_flag,
    u32 "skip_intra_enabled_flag" s.skip_intra_enabled_flag]

/-- `sps_scc_extension { … }` -/
def textSpsSccExtension (s : SpsSccExtension) : Text :=
  block "sps_scc_extension" [
    u32 "sps_curr_pic_ref_enabled_flag" s.sps_curr_pic_ref_enabled_flag,
    u32 "palette_mode_enabled_flag" s.palette_mode_enabled_flag,
    opt (s.palette_mode_enabled_flag ≠ 0) [
      u32 "palette_max_size" s.palette_max_size,
      u32 "delta_palette_max_predictor_size" s.delta_palette_max_predictor_size,
      u32 "sps_palette_predictor_initializers_present_flag" s.sps_palette_predictor_initializers_present_flag,
      opt (s.sps_palette_predictor_initializers_present_flag ≠ 0) [
        u32 "sps_num_palette_predictor_initializers_minus1" s.sps_num_palette_predictor_initializers_minus1,
        listed "sps_palette_predictor_initializers" (row one32) s.sps_palette_predictor_initializers]],
    u32 "motion_vector_resolution_control_idc" s.motion_vector_resolution_control_idc,
    u32 "intra_boundary_filtering_disabled_flag" s.intra_boundary_filtering_disabled_flag]

/-- `sps { … }` -/
def textSps (add_resolution : Bool) (v : Sps) : Text :=
  block "sps" [
    u32 "sps_video_parameter_set_id" v.body.sps_video_parameter_set_id,
    u32 "sps_max_sub_layers_minus1" v.body.sps_max_sub_layers_minus1,
    u32 "sps_temporal_id_nesting_flag" v.body.sps_temporal_id_nesting_flag,
    textPtl true v.body.sps_max_sub_layers_minus1 v.body.profile_tier_level,
    u32 "sps_seq_parameter_set_id" v.body.sps_seq_parameter_set_id,
    u32 "chroma_format_idc" v.body.chroma_format_idc,
    opt (v.body.chroma_format_idc = 3) [
      u32 "separate_colour_plane_flag" v.body.separate_colour_plane_flag],
    u32 "pic_width_in_luma_samples" v.body.pic_width_in_luma_samples,
    u32 "pic_height_in_luma_samples" v.body.pic_height_in_luma_samples,
    u32 "conformance_window_flag" v.body.conformance_window_flag,
    opt (v.body.conformance_window_flag ≠ 0) [
      u32 "conf_win_left_offset" v.body.conf_win_left_offset,
      u32 "conf_win_right_offset" v.body.conf_win_right_offset,
      u32 "conf_win_top_offset" v.body.conf_win_top_offset,
      u32 "conf_win_bottom_offset" v.body.conf_win_bottom_offset],
    u32 "bit_depth_luma_minus8" v.body.bit_depth_luma_minus8,
    u32 "bit_depth_chroma_minus8" v.body.bit_depth_chroma_minus8,
    u32 "log2_max_pic_order_cnt_lsb_minus4" v.body.log2_max_pic_order_cnt_lsb_minus4,
    u32 "sps_sub_layer_ordering_info_present_flag" v.body.sps_sub_layer_ordering_info_present_flag,
    listed "sps_max_dec_pic_buffering_minus1" one32 (v.body.sub_layer_ordering.map (·.sps_max_dec_pic_buffering_minus1)),
    listed "sps_max_num_reorder_pics" one32 (v.body.sub_layer_ordering.map (·.sps_max_num_reorder_pics)),
    listed "sps_max_latency_increase_plus1" one32 (v.body.sub_layer_ordering.map (·.sps_max_latency_increase_plus1)),
    u32 "log2_min_luma_coding_block_size_minus3" v.body.log2_min_luma_coding_block_size_minus3,
    u32 "log2_diff_max_min_luma_coding_block_size" v.body.log2_diff_max_min_luma_coding_block_size,
    u32 "log2_min_luma_transform_block_size_minus2" v.body.log2_min_luma_transform_block_size_minus2,
    u32 "log2_diff_max_min_luma_transform_block_size" v.body.log2_diff_max_min_luma_transform_block_size,
    u32 "max_transform_hierarchy_depth_inter" v.body.max_transform_hierarchy_depth_inter,
    u32 "max_transform_hierarchy_depth_intra" v.body.max_transform_hierarchy_depth_intra,
    u32 "scaling_list_enabled_flag" v.body.scaling_list_enabled_flag,
    opt (v.body.scaling_list_enabled_flag ≠ 0) [
      u32 "sps_scaling_list_data_present_flag" v.body.sps_scaling_list_data_present_flag,
      opt (v.body.sps_scaling_list_data_present_flag ≠ 0) [
        some? v.body.scaling_list_data textScalingListData]],
    u32 "amp_enabled_flag" v.body.amp_enabled_flag,
    u32 "sample_adaptive_offset_enabled_flag" v.body.sample_adaptive_offset_enabled_flag,
    u32 "pcm_enabled_flag" v.body.pcm_enabled_flag,
    opt (v.body.pcm_enabled_flag ≠ 0) [
      u32 "pcm_sample_bit_depth_luma_minus1" v.body.pcm_sample_bit_depth_luma_minus1,
      u32 "pcm_sample_bit_depth_chroma_minus1" v.body.pcm_sample_bit_depth_chroma_minus1,
      u32 "log2_min_pcm_luma_coding_block_size_minus3" v.body.log2_min_pcm_luma_coding_block_size_minus3,
      u32 "log2_diff_max_min_pcm_luma_coding_block_size" v.body.log2_diff_max_min_pcm_luma_coding_block_size,
      u32 "pcm_loop_filter_disabled_flag" v.body.pcm_loop_filter_disabled_flag],
    u32 "num_short_term_ref_pic_sets" v.body.num_short_term_ref_pic_sets,
    ((v.body.st_ref_pic_set.take v.body.num_short_term_ref_pic_sets).mapIdx (fun i r => textStRefPicSet i v.body.num_short_term_ref_pic_sets r)).flatten,
    u32 "long_term_ref_pics_present_flag" v.body.long_term_ref_pics_present_flag,
    opt (v.body.long_term_ref_pics_present_flag ≠ 0) [
      u32 "num_long_term_ref_pics_sps" v.body.num_long_term_ref_pics_sps,
      listed "lt_ref_pic_poc_lsb_sps" one32 (v.body.lt_ref_pics.map (·.lt_ref_pic_poc_lsb_sps)),
      listed "used_by_curr_pic_lt_sps_flag" one32 (v.body.lt_ref_pics.map (·.used_by_curr_pic_lt_sps_flag))],
    u32 "sps_temporal_mvp_enabled_flag" v.body.sps_temporal_mvp_enabled_flag,
    u32 "strong_intra_smoothing_enabled_flag" v.body.strong_intra_smoothing_enabled_flag,
    u32 "vui_parameters_present_flag" v.body.vui_parameters_present_flag,
    opt (v.body.vui_parameters_present_flag ≠ 0) [
      some? v.body.vui_parameters textVui],
    u32 "sps_extension_present_flag" v.body.sps_extension_present_flag,
    opt (v.body.sps_extension_present_flag ≠ 0) [
      u32 "sps_range_extension_flag" v.body.sps_range_extension_flag,
      u32 "sps_multilayer_extension_flag" v.body.sps_multilayer_extension_flag,
      u32 "sps_3d_extension_flag" v.body.sps_3d_extension_flag,
      u32 "sps_scc_extension_flag" v.body.sps_scc_extension_flag,
      u32 "sps_extension_4bits" v.body.sps_extension_4bits],
    opt (v.body.sps_range_extension_flag ≠ 0) [
      some? v.body.sps_range_extension textSpsRangeExtension],
    opt (v.body.sps_multilayer_extension_flag ≠ 0) [
      some? v.body.sps_multilayer_extension textSpsMultilayerExtension],
    opt (v.body.sps_3d_extension_flag ≠ 0) [
      some? v.body.sps_3d_extension textSps3dExtension],
    opt (v.body.sps_scc_extension_flag ≠ 0) [
      some? v.body.sps_scc_extension textSpsSccExtension],
    opt (add_resolution = true) [
      textResolution v.body]]

/-- `pps_multilayer_extension { … }` -/
def textPpsMultilayerExtension (s : PpsMultilayerExtension) : Text :=
  block "pps_multilayer_extension" [
    u32 "poc_reset_info_present_flag" s.poc_reset_info_present_flag,
    u32 "pps_infer_scaling_list_flag" s.pps_infer_scaling_list_flag,
    opt (s.pps_infer_scaling_list_flag ≠ 0) [
      u32 "pps_scaling_list_ref_layer_id" s.pps_scaling_list_ref_layer_id],
    u32 "num_ref_loc_offsets" s.num_ref_loc_offsets,
    opt (s.num_ref_loc_offsets > 0) [
      listed "ref_loc_offset_layer_id" one32 (s.ref_loc_offset.map (·.ref_loc_offset_layer_id)),
      listed "scaled_ref_layer_offset_present_flag" one32 (s.ref_loc_offset.map (·.scaled_ref_layer_offset_present_flag)),
      listed "scaled_ref_layer_left_offset" one ((s.ref_loc_offset.filterMap (·.scaled_ref_layer_offset)).map (·.scaled_ref_layer_left_offset)),
      listed "scaled_ref_layer_top_offset" one ((s.ref_loc_offset.filterMap (·.scaled_ref_layer_offset)).map (·.scaled_ref_layer_top_offset)),
      listed "scaled_ref_layer_right_offset" one ((s.ref_loc_offset.filterMap (·.scaled_ref_layer_offset)).map (·.scaled_ref_layer_right_offset)),
      listed "scaled_ref_layer_bottom_offset" one ((s.ref_loc_offset.filterMap (·.scaled_ref_layer_offset)).map (·.scaled_ref_layer_bottom_offset)),
      listed "ref_region_offset_present_flag" oneNat (s.ref_loc_offset.map (·.ref_region_offset_present_flag)),
      listed "ref_region_left_offset" one ((s.ref_loc_offset.filterMap (·.ref_region_offset)).map (·.ref_region_left_offset)),
      listed "ref_region_top_offset" one ((s.ref_loc_offset.filterMap (·.ref_region_offset)).map (·.ref_region_top_offset)),
      listed "ref_region_right_offset" one ((s.ref_loc_offset.filterMap (·.ref_region_offset)).map (·.ref_region_right_offset)),
      listed "ref_region_bottom_offset" one ((s.ref_loc_offset.filterMap (·.ref_region_offset)).map (·.ref_region_bottom_offset)),
      listed "resample_phase_set_present_flag" oneNat (s.ref_loc_offset.map (·.resample_phase_set_present_flag)),
      listed "phase_hor_luma" one ((s.ref_loc_offset.filterMap (·.resample_phase_set)).map (·.phase_hor_luma)),
      listed "phase_ver_luma" one ((s.ref_loc_offset.filterMap (·.resample_phase_set)).map (·.phase_ver_luma)),
      listed "phase_hor_chroma_plus8" one ((s.ref_loc_offset.filterMap (·.resample_phase_set)).map (·.phase_hor_chroma_plus8)),
      listed "phase_ver_chroma_plus8" one ((s.ref_loc_offset.filterMap (·.resample_phase_set)).map (·.phase_ver_chroma_plus8))],
    u32 "colour_mapping_enabled_flag" s.colour_mapping_enabled_flag]

/-- `pps_scc_extension { … }` -/
def textPpsSccExtension (s : PpsSccExtension) : Text :=
  block "pps_scc_extension" [
    u32 "pps_curr_pic_ref_enabled_flag" s.pps_curr_pic_ref_enabled_flag,
    u32 "residual_adaptive_colour_transform_enabled_flag" s.residual_adaptive_colour_transform_enabled_flag,
    opt (s.residual_adaptive_colour_transform_enabled_flag ≠ 0) [
      u32 "pps_slice_act_qp_offsets_present_flag" s.pps_slice_act_qp_offsets_present_flag,
      num "pps_act_y_qp_offset_plus5" s.pps_act_y_qp_offset_plus5,
      num "pps_act_cb_qp_offset_plus5" s.pps_act_cb_qp_offset_plus5,
      num "pps_act_cr_qp_offset_plus3" s.pps_act_cr_qp_offset_plus3],
    u32 "pps_palette_predictor_initializer_present_flag" s.pps_palette_predictor_initializer_present_flag,
    opt (s.pps_palette_predictor_initializer_present_flag ≠ 0) [
      u32 "pps_num_palette_predictor_initializer" s.pps_num_palette_predictor_initializer,
      opt (s.pps_num_palette_predictor_initializer > 0) [
        u32 "monochrome_palette_flag" s.monochrome_palette_flag,
        u32 "luma_bit_depth_entry_minus8" s.luma_bit_depth_entry_minus8,
        opt (s.monochrome_palette_flag = 0) [
          u32 "chroma_bit_depth_entry_minus8" s.chroma_bit_depth_entry_minus8],
        listed "pps_palette_predictor_initializers" (row one32) s.pps_palette_predictor_initializers]]]

/-- `pps { … }` -/
def textPps (v : Pps) : Text :=
  block "pps" [
    u32 "pps_pic_parameter_set_id" v.body.head.pps_pic_parameter_set_id,
    u32 "pps_seq_parameter_set_id" v.body.head.pps_seq_parameter_set_id,
    u32 "dependent_slice_segments_enabled_flag" v.body.head.dependent_slice_segments_enabled_flag,
    u32 "output_flag_present_flag" v.body.head.output_flag_present_flag,
    u32 "num_extra_slice_header_bits" v.body.head.num_extra_slice_header_bits,
    u32 "sign_data_hiding_enabled_flag" v.body.head.sign_data_hiding_enabled_flag,
    u32 "cabac_init_present_flag" v.body.head.cabac_init_present_flag,
    u32 "num_ref_idx_l0_default_active_minus1" v.body.head.num_ref_idx_l0_default_active_minus1,
    u32 "num_ref_idx_l1_default_active_minus1" v.body.head.num_ref_idx_l1_default_active_minus1,
    num "init_qp_minus26" v.body.head.init_qp_minus26,
    u32 "constrained_intra_pred_flag" v.body.head.constrained_intra_pred_flag,
    u32 "transform_skip_enabled_flag" v.body.head.transform_skip_enabled_flag,
    u32 "cu_qp_delta_enabled_flag" v.body.head.cu_qp_delta_enabled_flag,
    opt (v.body.head.cu_qp_delta_enabled_flag ≠ 0) [
      u32 "cu_qp_delta_enabled_flag" v.body.head.cu_qp_delta_enabled_flag],
    num "pps_cb_qp_offset" v.body.head.pps_cb_qp_offset,
    num "pps_cr_qp_offset" v.body.head.pps_cr_qp_offset,
    u32 "pps_slice_chroma_qp_offsets_present_flag" v.body.head.pps_slice_chroma_qp_offsets_present_flag,
    u32 "weighted_pred_flag" v.body.head.weighted_pred_flag,
    u32 "weighted_bipred_flag" v.body.head.weighted_bipred_flag,
    u32 "transquant_bypass_enabled_flag" v.body.head.transquant_bypass_enabled_flag,
    u32 "tiles_enabled_flag" v.body.head.tiles_enabled_flag,
    u32 "entropy_coding_sync_enabled_flag" v.body.head.entropy_coding_sync_enabled_flag,
    opt (v.body.head.tiles_enabled_flag ≠ 0) [
      u32 "num_tile_columns_minus1" v.body.head.num_tile_columns_minus1,
      u32 "num_tile_rows_minus1" v.body.head.num_tile_rows_minus1,
      u32 "uniform_spacing_flag" v.body.head.uniform_spacing_flag,
      opt (v.body.head.uniform_spacing_flag = 0) [
        listed "column_width_minus1" one32 v.body.head.column_width_minus1,
        listed "row_height_minus1" one32 v.body.head.row_height_minus1],
      u32 "loop_filter_across_tiles_enabled_flag" v.body.head.loop_filter_across_tiles_enabled_flag],
    u32 "pps_loop_filter_across_slices_enabled_flag" v.body.head.pps_loop_filter_across_slices_enabled_flag,
    u32 "deblocking_filter_control_present_flag" v.body.head.deblocking_filter_control_present_flag,
    opt (v.body.head.deblocking_filter_control_present_flag ≠ 0) [
      u32 "deblocking_filter_override_enabled_flag" v.body.head.deblocking_filter_override_enabled_flag,
      u32 "pps_deblocking_filter_disabled_flag" v.body.head.pps_deblocking_filter_disabled_flag,
      opt (v.body.head.pps_deblocking_filter_disabled_flag = 0) [
        num "pps_beta_offset_div2" v.body.head.pps_beta_offset_div2,
        num "pps_tc_offset_div2" v.body.head.pps_tc_offset_div2]],
    u32 "pps_scaling_list_data_present_flag" v.body.head.pps_scaling_list_data_present_flag,
    opt (v.body.head.pps_scaling_list_data_present_flag ≠ 0 ∧ v.body.head.scaling_list_data.isSome = true) [
      some? v.body.head.scaling_list_data textScalingListData],
    u32 "lists_modification_present_flag" v.body.head.lists_modification_present_flag,
    u32 "log2_parallel_merge_level_minus2" v.body.head.log2_parallel_merge_level_minus2,
    u32 "slice_segment_header_extension_present_flag" v.body.head.slice_segment_header_extension_present_flag,
    u32 "pps_extension_present_flag" v.body.head.pps_extension_present_flag,
    opt (v.body.head.pps_extension_present_flag ≠ 0) [
      u32 "pps_range_extension_flag" v.body.head.pps_range_extension_flag,
      u32 "pps_multilayer_extension_flag" v.body.head.pps_multilayer_extension_flag,
      u32 "pps_3d_extension_flag" v.body.head.pps_3d_extension_flag,
      u32 "pps_scc_extension_flag" v.body.head.pps_scc_extension_flag,
      u32 "pps_extension_4bits" v.body.head.pps_extension_4bits],
    opt (v.body.head.pps_multilayer_extension_flag ≠ 0) [
      some? v.body.pps_multilayer_extension textPpsMultilayerExtension],
    opt (v.body.head.pps_scc_extension_flag ≠ 0) [
      some? v.body.pps_scc_extension textPpsSccExtension]]

/-- long-term picture `i` of a slice: whole lists, repeated for each picture -/
def textLtRefPic (S : SpsBody) (s : SliceBody) (i : Nat) : Text :=
  List.flatten [
    opt (i < s.num_long_term_sps) [
      opt (S.num_long_term_ref_pics_sps > 1) [
        listed "lt_idx_sps" one32 ((s.lt_ref_pics.take s.num_long_term_sps).map (·.head.lt_idx_sps))]],
    opt (¬ i < s.num_long_term_sps) [
      listed "poc_lsb_lt" one32 ((s.lt_ref_pics.drop s.num_long_term_sps).map (·.head.poc_lsb_lt)),
      listed "used_by_curr_pic_lt_flag" one32 ((s.lt_ref_pics.drop s.num_long_term_sps).map (·.head.used_by_curr_pic_lt_flag))],
    listed "delta_poc_msb_present_flag" one32 (s.lt_ref_pics.map (·.head.delta_poc_msb_present_flag)),
    listed "delta_poc_msb_cycle_lt" one32 ((s.lt_ref_pics.filter (fun r => r.head.delta_poc_msb_present_flag ≠ 0)).map (·.delta_poc_msb_cycle_lt))]

/-- `pred_weight_table { … }` -/
def textPredWeightTable (chroma : Nat) (s : PredWeightTable) : Text :=
  block "pred_weight_table" [
    u32 "luma_log2_weight_denom" s.luma_log2_weight_denom,
    opt (chroma ≠ 0) [
      num "delta_chroma_log2_weight_denom" s.delta_chroma_log2_weight_denom],
    listed "luma_weight_l0_flag" oneNat s.luma_weight_l0_flag,
    opt (chroma ≠ 0) [
      listed "chroma_weight_l0_flag" oneNat s.chroma_weight_l0_flag],
    listed "delta_luma_weight_l0" one ((s.weights.filterMap (·.luma)).map (·.delta_luma_weight_l0)),
    listed "luma_offset_l0" one ((s.weights.filterMap (·.luma)).map (·.luma_offset_l0)),
    opt (chroma ≠ 0) [
      listed "delta_chroma_weight_l0" (row one) ((s.weights.filterMap (·.chroma)).map (fun c => [c.delta_chroma_weight_l0_0, c.delta_chroma_weight_l0_1])),
      listed "delta_chroma_offset_l0" (row one) ((s.weights.filterMap (·.chroma)).map (fun c => [c.delta_chroma_offset_l0_0, c.delta_chroma_offset_l0_1]))]]

/-- `slice_segment_header { … }` -/
def textSliceSegmentHeader (P : PpsBody) (S : SpsBody) (h : SliceSegmentHeader) : Text :=
  block "slice_segment_header" [
    u32 "first_slice_segment_in_pic_flag" h.head.first_slice_segment_in_pic_flag,
    u32 "no_output_of_prior_pics_flag" h.head.no_output_of_prior_pics_flag,
    u32 "slice_pic_parameter_set_id" h.head.slice_pic_parameter_set_id,
    u32 "dependent_slice_segment_flag" h.body.dependent_slice_segment_flag,
    u32 "slice_segment_address" h.body.slice_segment_address,
    opt (h.body.dependent_slice_segment_flag = 0) [
      listed "slice_reserved_flag" one32 h.body.slice_reserved_flag,
      u32 "slice_type" h.body.slice_type,
      u32 "pic_output_flag" h.body.pic_output_flag,
      u32 "colour_plane_id" h.body.colour_plane_id,
      opt (h.nal_unit_type ≠ 19 ∧ h.nal_unit_type ≠ 20) [
        u32 "slice_pic_order_cnt_lsb" h.body.slice_pic_order_cnt_lsb,
        u32 "short_term_ref_pic_set_sps_flag" h.body.short_term_ref_pic_set_sps_flag,
        opt (h.body.short_term_ref_pic_set_sps_flag = 0) [
          some? h.body.st_ref_pic_set (textStRefPicSet S.num_short_term_ref_pic_sets S.num_short_term_ref_pic_sets)],
        opt (h.body.short_term_ref_pic_set_sps_flag ≠ 0 ∧ S.num_short_term_ref_pic_sets > 1) [
          u32 "short_term_ref_pic_set_idx" h.body.short_term_ref_pic_set_idx],
        opt (S.long_term_ref_pics_present_flag ≠ 0) [
          opt (S.num_long_term_ref_pics_sps > 0) [
            u32 "num_long_term_sps" h.body.num_long_term_sps],
          u32 "num_long_term_pics" h.body.num_long_term_pics,
          (List.range (w32 (h.body.num_long_term_sps + h.body.num_long_term_pics))).flatMap (textLtRefPic S h.body)],
        opt (S.sps_temporal_mvp_enabled_flag ≠ 0) [
          u32 "slice_temporal_mvp_enabled_flag" h.body.slice_temporal_mvp_enabled_flag]],
      opt (S.sample_adaptive_offset_enabled_flag ≠ 0) [
        u32 "slice_sao_luma_flag" h.body.slice_sao_luma_flag,
        opt (sliceChromaArrayType S ≠ 0) [
          u32 "slice_sao_chroma_flag" h.body.slice_sao_chroma_flag]],
      opt (h.body.slice_type = 1 ∨ h.body.slice_type = 0) [
        u32 "num_ref_idx_active_override_flag" h.body.num_ref_idx_active_override_flag,
        opt (h.body.num_ref_idx_active_override_flag ≠ 0) [
          u32 "num_ref_idx_l0_active_minus1" h.body.num_ref_idx_l0_active_minus1,
          opt (h.body.slice_type = 0) [
            u32 "num_ref_idx_l1_active_minus1" h.body.num_ref_idx_l1_active_minus1]],
        opt (h.body.slice_type = 0) [
          u32 "mvd_l1_zero_flag" h.body.mvd_l1_zero_flag],
        opt (P.head.cabac_init_present_flag ≠ 0) [
          u32 "cabac_init_flag" h.body.cabac_init_flag],
        opt (h.body.slice_temporal_mvp_enabled_flag ≠ 0) [
          opt (h.body.slice_type = 0) [
            u32 "collocated_from_l0_flag" h.body.collocated_from_l0_flag],
          opt ((h.body.collocated_from_l0_flag ≠ 0 ∧ h.body.num_ref_idx_l0_active_minus1 > 0) ∨ (h.body.collocated_from_l0_flag = 0 ∧ h.body.num_ref_idx_l1_active_minus1 > 0)) [
            u32 "collocated_ref_idx" h.body.collocated_ref_idx]],
        opt ((P.head.weighted_pred_flag ≠ 0 ∧ h.body.slice_type = 1) ∨ (P.head.weighted_bipred_flag ≠ 0 ∧ h.body.slice_type = 0)) [
          some? h.body.pred_weight_table (textPredWeightTable (sliceChromaArrayType S))],
        u32 "five_minus_max_num_merge_cand" h.body.five_minus_max_num_merge_cand,
        opt (sliceMvResolution S = 2) [
          u32 "use_integer_mv_flag" h.body.use_integer_mv_flag]],
      num "slice_qp_delta" h.body.slice_qp_delta,
      opt (P.head.pps_slice_chroma_qp_offsets_present_flag ≠ 0) [
        num "slice_cb_qp_offset" h.body.slice_cb_qp_offset,
        num "slice_cr_qp_offset" h.body.slice_cr_qp_offset],
      opt (h.body.act_qp_offsets_present ≠ 0) [
        num "slice_act_y_qp_offset" h.body.slice_act_y_qp_offset,
        num "slice_act_cb_qp_offset" h.body.slice_act_cb_qp_offset,
        num "slice_act_cr_qp_offset" h.body.slice_act_cr_qp_offset],
      opt (P.head.deblocking_filter_override_enabled_flag ≠ 0) [
        u32 "deblocking_filter_override_flag" h.body.deblocking_filter_override_flag],
      opt (h.body.deblocking_filter_override_flag ≠ 0) [
        u32 "slice_deblocking_filter_disabled_flag" h.body.slice_deblocking_filter_disabled_flag,
        opt (h.body.slice_deblocking_filter_disabled_flag = 0) [
          num "slice_beta_offset_div2" h.body.slice_beta_offset_div2,
          num "slice_tc_offset_div2" h.body.slice_tc_offset_div2]],
      opt (P.head.pps_loop_filter_across_slices_enabled_flag ≠ 0 ∧ (h.body.slice_sao_luma_flag ≠ 0 ∨ h.body.slice_sao_chroma_flag ≠ 0 ∨ h.body.slice_deblocking_filter_disabled_flag = 0)) [
        u32 "slice_loop_filter_across_slices_enabled_flag" h.body.slice_loop_filter_across_slices_enabled_flag]],
    opt (P.head.tiles_enabled_flag ≠ 0 ∨ P.head.entropy_coding_sync_enabled_flag ≠ 0) [
      u32 "num_entry_point_offsets" h.body.num_entry_point_offsets,
      opt (h.body.num_entry_point_offsets > 0) [
        u32 "offset_len_minus1" h.body.offset_len_minus1,
        listed "entry_point_offset_minus1" one32 h.body.entry_point_offset_minus1]],
    opt (P.head.slice_segment_header_extension_present_flag ≠ 0) [
      u32 "slice_segment_header_extension_length" h.body.slice_segment_header_extension_length,
      listed "slice_segment_header_extension_data_byte" one32 h.body.slice_segment_header_extension_data_byte]]

/-- `slice_segment_layer { … }` -/
def textSliceSegmentLayer (P : PpsBody) (S : SpsBody) (h : SliceSegmentHeader) : Text :=
  block "slice_segment_layer" [
    textSliceSegmentHeader P S h]
/-- `user_data_registered_itu_t_t35 { … }` -/
def textSeiUserDataRegistered (s : SeiUserDataRegistered) : Text :=
  block "user_data_registered_itu_t_t35" [
    u32 "itu_t_t35_country_code" s.itu_t_t35_country_code,
    u32 "itu_t_t35_country_code_extension_byte" s.itu_t_t35_country_code_extension_byte,
    num "payload_size" s.payload.length,
    listed "payload" oneNat s.payload]

/-- `user_data_unregistered { … }` -/
def textSeiUserDataUnregistered (s : SeiUserDataUnregistered) : Text :=
  block "user_data_unregistered" [
    entry "uuid_iso_iec_11578" [uuid s.uuid_iso_iec_11578_1 s.uuid_iso_iec_11578_2],
    num "payload_size" s.payload.length,
    listed "payload" oneNat s.payload]

/-- `alpha_channel_info { … }` -/
def textSeiAlphaChannelInfo (s : SeiAlphaChannelInfo) : Text :=
  block "alpha_channel_info" [
    u32 "alpha_channel_cancel_flag" s.alpha_channel_cancel_flag,
    opt (s.alpha_channel_cancel_flag = 0) [
      u32 "alpha_channel_use_idc" s.alpha_channel_use_idc,
      u32 "alpha_channel_bit_depth_minus8" s.alpha_channel_bit_depth_minus8,
      u32 "alpha_transparent_value" s.alpha_transparent_value,
      u32 "alpha_opaque_value" s.alpha_opaque_value,
      u32 "alpha_channel_incr_flag" s.alpha_channel_incr_flag,
      u32 "alpha_channel_clip_flag" s.alpha_channel_clip_flag,
      opt (s.alpha_channel_clip_flag ≠ 0) [
        u32 "alpha_channel_clip_type_flag" s.alpha_channel_clip_type_flag]]]

/-- `mastering_display_colour_volume { … }` -/
def textSeiMasteringDisplay (s : SeiMasteringDisplay) : Text :=
  block "mastering_display_colour_volume" [
    some? (s.display_primaries[0]?) fun p => List.flatten [
      chromaticity "display_primaries[0]_x" p.x,
      chromaticity "display_primaries[0]_y" p.y],
    some? (s.display_primaries[1]?) fun p => List.flatten [
      chromaticity "display_primaries[1]_x" p.x,
      chromaticity "display_primaries[1]_y" p.y],
    some? (s.display_primaries[2]?) fun p => List.flatten [
      chromaticity "display_primaries[2]_x" p.x,
      chromaticity "display_primaries[2]_y" p.y],
    chromaticity "white_point_x" s.white_point_x,
    chromaticity "white_point_y" s.white_point_y,
    luminance "max_display_mastering_luminance" s.max_display_mastering_luminance,
    luminance "min_display_mastering_luminance" s.min_display_mastering_luminance]

/-- `content_light_level_info { … }` -/
def textSeiContentLightLevel (s : SeiContentLightLevel) : Text :=
  block "content_light_level_info" [
    entry "max_content_light_level" [decimal s.max_content_light_level, "cd/m^2".toList],
    entry "max_pic_average_light_level" [decimal s.max_pic_average_light_level, "cd/m^2".toList]]

/-- `knee_function_info { … }` -/
def textSeiKneeFunction (s : SeiKneeFunction) : Text :=
  block "knee_function_info" [
    num "knee_function_id" s.knee_function_id,
    num "knee_function_cancel_flag" s.knee_function_cancel_flag,
    opt (s.knee_function_cancel_flag = 0) [
      num "knee_function_persistence_flag" s.knee_function_persistence_flag,
      num "input_d_range" s.input_d_range,
      num "input_disp_luminance" s.input_disp_luminance,
      num "output_d_range" s.output_d_range,
      num "output_disp_luminance" s.output_disp_luminance,
      num "num_knee_points_minus1" s.num_knee_points_minus1,
      opt (s.knee_points ≠ []) [
        listed "input_knee_point:" oneNat (s.knee_points.map (·.input_knee_point)),
        listed "output_knee_point:" oneNat (s.knee_points.map (·.output_knee_point))]]]

/-- `colour_remapping_info { … }` -/
def textSeiColourRemapping (s : SeiColourRemapping) : Text :=
  block "colour_remapping_info" [
    num "colour_remap_id" s.colour_remap_id,
    num "colour_remap_cancel_flag" s.colour_remap_cancel_flag,
    opt (s.colour_remap_cancel_flag = 0) [
      num "colour_remap_persistence_flag" s.colour_remap_persistence_flag,
      num "colour_remap_video_signal_info_present_flag" s.colour_remap_video_signal_info_present_flag,
      opt (s.colour_remap_video_signal_info_present_flag ≠ 0) [
        num "colour_remap_full_range_flag" s.colour_remap_full_range_flag,
        num "colour_remap_primaries" s.colour_remap_primaries,
        num "colour_remap_transfer_function" s.colour_remap_transfer_function,
        num "colour_remap_matrix_coefficients" s.colour_remap_matrix_coefficients],
      num "colour_remap_input_bit_depth" s.colour_remap_input_bit_depth,
      num "colour_remap_output_bit_depth" s.colour_remap_output_bit_depth,
      some? (s.pre_lut[0]?) fun l => List.flatten [
        num "pre_lut_num_val_minus1[0]" l.num_val_minus1,
        opt (l.num_val_minus1 > 0) [
          listed "pre_lut_coded_value[0]:" oneNat (l.entries.map (·.coded_value)),
          listed "pre_lut_target_value[0]:" oneNat (l.entries.map (·.target_value))]],
      some? (s.pre_lut[1]?) fun l => List.flatten [
        num "pre_lut_num_val_minus1[1]" l.num_val_minus1,
        opt (l.num_val_minus1 > 0) [
          listed "pre_lut_coded_value[1]:" oneNat (l.entries.map (·.coded_value)),
          listed "pre_lut_target_value[1]:" oneNat (l.entries.map (·.target_value))]],
      some? (s.pre_lut[2]?) fun l => List.flatten [
        num "pre_lut_num_val_minus1[2]" l.num_val_minus1,
        opt (l.num_val_minus1 > 0) [
          listed "pre_lut_coded_value[2]:" oneNat (l.entries.map (·.coded_value)),
          listed "pre_lut_target_value[2]:" oneNat (l.entries.map (·.target_value))]],
      num "colour_remap_matrix_present_flag" s.colour_remap_matrix_present_flag,
      opt (s.colour_remap_matrix_present_flag ≠ 0) [
        num "log2_matrix_denom" s.log2_matrix_denom,
        opt (s.colour_remap_coeffs ≠ []) [
          some? (s.colour_remap_coeffs[0]?) fun v => List.flatten [
            listed "colour_remap_coeffs[0]:" one v],
          some? (s.colour_remap_coeffs[1]?) fun v => List.flatten [
            listed "colour_remap_coeffs[1]:" one v],
          some? (s.colour_remap_coeffs[2]?) fun v => List.flatten [
            listed "colour_remap_coeffs[2]:" one v]]],
      some? (s.post_lut[0]?) fun l => List.flatten [
        num "post_lut_num_val_minus1[0]" l.num_val_minus1,
        opt (l.num_val_minus1 > 0) [
          listed "post_lut_coded_value[0]:" oneNat (l.entries.map (·.coded_value)),
          listed "post_lut_target_value[0]:" oneNat (l.entries.map (·.target_value))]],
      some? (s.post_lut[1]?) fun l => List.flatten [
        num "post_lut_num_val_minus1[1]" l.num_val_minus1,
        opt (l.num_val_minus1 > 0) [
          listed "post_lut_coded_value[1]:" oneNat (l.entries.map (·.coded_value)),
          listed "post_lut_target_value[1]:" oneNat (l.entries.map (·.target_value))]],
      some? (s.post_lut[2]?) fun l => List.flatten [
        num "post_lut_num_val_minus1[2]" l.num_val_minus1,
        opt (l.num_val_minus1 > 0) [
          listed "post_lut_coded_value[2]:" oneNat (l.entries.map (·.coded_value)),
          listed "post_lut_target_value[2]:" oneNat (l.entries.map (·.target_value))]]]]

/-- `content_colour_volume { … }` -/
def textSeiContentColourVolume (s : SeiContentColourVolume) : Text :=
  block "content_colour_volume" [
    num "ccv_cancel_flag" s.ccv_cancel_flag,
    opt (s.ccv_cancel_flag = 0) [
      num "ccv_persistence_flag" s.ccv_persistence_flag,
      num "ccv_primaries_present_flag" s.ccv_primaries_present_flag,
      num "ccv_min_luminance_value_present_flag" s.ccv_min_luminance_value_present_flag,
      num "ccv_max_luminance_value_present_flag" s.ccv_max_luminance_value_present_flag,
      num "ccv_avg_luminance_value_present_flag" s.ccv_avg_luminance_value_present_flag,
      num "ccv_reserved_zero_2bits" s.ccv_reserved_zero_2bits,
      opt (s.ccv_primaries_present_flag ≠ 0) [
        some? (s.ccv_primaries[0]?) fun p => List.flatten [
          num "ccv_primaries_x[0]" p.x,
          num "ccv_primaries_y[0]" p.y],
        some? (s.ccv_primaries[1]?) fun p => List.flatten [
          num "ccv_primaries_x[1]" p.x,
          num "ccv_primaries_y[1]" p.y],
        some? (s.ccv_primaries[2]?) fun p => List.flatten [
          num "ccv_primaries_x[2]" p.x,
          num "ccv_primaries_y[2]" p.y]],
      opt (s.ccv_min_luminance_value_present_flag ≠ 0) [
        num "ccv_min_luminance_value" s.ccv_min_luminance_value],
      opt (s.ccv_max_luminance_value_present_flag ≠ 0) [
        num "ccv_max_luminance_value" s.ccv_max_luminance_value],
      opt (s.ccv_avg_luminance_value_present_flag ≠ 0) [
        num "ccv_avg_luminance_value" s.ccv_avg_luminance_value]]]

/-- `alternative_transfer_characteristics { … }` -/
def textSeiAlternativeTransfer (s : SeiAlternativeTransfer) : Text :=
  block "alternative_transfer_characteristics" [
    num "preferred_transfer_characteristics" s.preferred_transfer_characteristics]

/-- `ambient_viewing_environment { … }` -/
def textSeiAmbientViewing (s : SeiAmbientViewing) : Text :=
  block "ambient_viewing_environment" [
    num "ambient_illuminance" s.ambient_illuminance,
    num "ambient_light_x" s.ambient_light_x,
    num "ambient_light_y" s.ambient_light_y]

/-- `unimplemented { … }` -/
def textSeiUnknown (s : SeiUnknown) : Text :=
  block "unimplemented" [
    num "payload_size" s.payload.length,
    listed "payload" oneNat s.payload]

/-- the payload of an SEI message -/
def textSeiPayload : SeiPayload → Text
  | .userDataRegistered s => textSeiUserDataRegistered s
  | .userDataUnregistered s => textSeiUserDataUnregistered s
  | .masteringDisplay s => textSeiMasteringDisplay s
  | .contentLightLevel s => textSeiContentLightLevel s
  | .kneeFunction s => textSeiKneeFunction s
  | .colourRemapping s => textSeiColourRemapping s
  | .contentColourVolume s => textSeiContentColourVolume s
  | .alternativeTransfer s => textSeiAlternativeTransfer s
  | .ambientViewing s => textSeiAmbientViewing s
  | .alphaChannelInfo s => textSeiAlphaChannelInfo s
  | .unknown s => textSeiUnknown s

/-- `sei message { … }` -/
def textSei (s : SeiMessage) : Text :=
  block "sei message" [u32 "payload_type" s.payload_type, num "payload_size" s.payload_size, some? s.payload_state textSeiPayload]

end H265.Spec
