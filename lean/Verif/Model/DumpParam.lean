/-
`fdump` of the parameter sets and of the structures in them.
The definitions `dumpX.items` and `dumpX` are generated from a transcription of the statements of each `fdump`.
-/
import Verif.Model.Dump
import Verif.Model.Scaling
import Verif.Model.SpsDerived
import Verif.Spec.Pps
import Verif.Spec.Vps

set_option autoImplicit false

namespace H265
open Spec

/-- `profileTypeToString`, src/h265_common.cc:292-508 -/
def profileTypeToString : ProfileType → String
  | .UNSPECIFIED => "Unspecified"
  | .MAIN => "Main"
  | .MAIN_10 => "Main 10"
  | .MAIN_STILL_PICTURE => "Main Still Picture"
  | .FREXT => "FRExt"
  | .MULTIVIEW_MAIN => "Multiview Main"
  | .SCALABLE => "Scalable"
  | ._3D_MAIN => "3D-Main"
  | .SCREEN_EXTENDED => "Screen-Extended"
  | .MULTILAYER => "Multilayer (Annex F)"
  | .SCREEN_EXTENDED_HIGH_THROUGHPUT => "Screen-Extended High-Throughput"
  | .MULTIVIEW_EXTENDED => "Multiview Extended"
  | .MULTIVIEW_EXTENDED_10 => "Multiview Extended 10"
  | .MAIN_10_STILL_PICTURE => "Main 10 Still Picture"
  | .MONOCHROME => "Monochrome (8-bit)"
  | .MONOCHROME_10 => "Monochrome (10-bit)"
  | .MONOCHROME_12 => "Monochrome (12-bit)"
  | .MONOCHROME_16 => "Monochrome (16-bit)"
  | .MAIN_12 => "Main 12"
  | .MAIN_422_10 => "Main 4:2:2 10"
  | .MAIN_422_12 => "Main 4:2:2 12"
  | .MAIN_444 => "Main 4:4:4"
  | .MAIN_444_10 => "Main 4:4:4 10"
  | .MAIN_444_12 => "Main 4:4:4 12"
  | .MAIN_INTRA => "Main Intra"
  | .MAIN_10_INTRA => "Main 10 Intra"
  | .MAIN_12_INTRA => "Main 12 Intra"
  | .MAIN_422_10_INTRA => "Main 4:2:2 10 Intra"
  | .MAIN_422_12_INTRA => "Main 4:2:2 12 Intra"
  | .MAIN_444_INTRA => "Main 4:4:4 Intra"
  | .MAIN_444_10_INTRA => "Main 4:4:4 10 Intra"
  | .MAIN_444_12_INTRA => "Main 4:4:4 12 Intra"
  | .MAIN_444_16_INTRA => "Main 4:4:4 16 Intra"
  | .MAIN_444_STILL_PICTURE => "Main 4:4:4 Still Picture"
  | .MAIN_444_16_STILL_PICTURE => "Main 4:4:4 16 Still Picture"
  | .HIGH_THROUGHPUT_444 => "High Throughput 4:4:4"
  | .HIGH_THROUGHPUT_444_10 => "High Throughput 4:4:4 10"
  | .HIGH_THROUGHPUT_444_14 => "High Throughput 4:4:4 14"
  | .HIGH_THROUGHPUT_444_16_INTRA => "High Throughput 4:4:4 16 Intra"
  | .SCALABLE_MAIN => "Scalable Main"
  | .SCALABLE_MAIN_10 => "Scalable Main 10"
  | .SCREEN_EXTENDED_MAIN => "Screen-Extended Main"
  | .SCREEN_EXTENDED_MAIN_10 => "Screen-Extended Main 10"
  | .SCREEN_EXTENDED_MAIN_444 => "Screen-Extended Main 4:4:4"
  | .SCREEN_EXTENDED_MAIN_444_10 => "Screen-Extended Main 4:4:4 10"
  | .SCREEN_EXTENDED_HIGH_THROUGHPUT_444 => "Screen-Extended High Throughput 4:4:4"
  | .SCREEN_EXTENDED_HIGH_THROUGHPUT_444_10 => "Screen-Extended High Throughput 4:4:4 10"
  | .SCREEN_EXTENDED_HIGH_THROUGHPUT_444_14 => "Screen-Extended High Throughput 4:4:4 14"
  | .MONOCHROME_STILL_PICTURE => "Monochrome (8-bit) Still Picture"
  | .MONOCHROME_10_STILL_PICTURE => "Monochrome (10-bit) Still Picture"
  | .MAIN_444_10_STILL_PICTURE => "Main (8-bit) 4:4:4 Still Picture"
  | .HIGH_THROUGHPUT => "Unknown"

/-- `ProfileInfoState::fdump`, src/h265_profile_tier_level_parser.cc:816-906: statements without a block of their own -/
def profileInfoItems (s : ProfileInfo) : List Dump :=
  [
    .fld "profile_space" (putI s.profile_space),
    .fld "tier_flag" (putI s.tier_flag),
    .fld "profile_idc" (putI s.profile_idc),
    .lst "profile_compatibility_flag" (Dump.item putI) s.profile_compatibility_flag,
    .fld "profile" (profileTypeToString s.profile_type).toList,
    .fld "progressive_source_flag" (putI s.progressive_source_flag),
    .fld "interlaced_source_flag" (putI s.interlaced_source_flag),
    .fld "non_packed_constraint_flag" (putI s.non_packed_constraint_flag),
    .fld "frame_only_constraint_flag" (putI s.frame_only_constraint_flag),
    .fld "max_12bit_constraint_flag" (putI s.constraints.max_12bit_constraint_flag),
    .fld "max_10bit_constraint_flag" (putI s.constraints.max_10bit_constraint_flag),
    .fld "max_8bit_constraint_flag" (putI s.constraints.max_8bit_constraint_flag),
    .fld "max_422chroma_constraint_flag" (putI s.constraints.max_422chroma_constraint_flag),
    .fld "max_420chroma_constraint_flag" (putI s.constraints.max_420chroma_constraint_flag),
    .fld "max_monochrome_constraint_flag" (putI s.constraints.max_monochrome_constraint_flag),
    .fld "intra_constraint_flag" (putI s.constraints.intra_constraint_flag),
    .fld "one_picture_only_constraint_flag" (putI s.constraints.one_picture_only_constraint_flag),
    .fld "lower_bit_rate_constraint_flag" (putI s.constraints.lower_bit_rate_constraint_flag),
    .fld "max_14bit_constraint_flag" (putI s.constraints.max_14bit_constraint_flag),
    .fld "reserved_zero_33bits" (putU s.constraints.reserved_zero_33bits),
    .fld "reserved_zero_34bits" (putU s.constraints.reserved_zero_34bits),
    .fld "reserved_zero_7bits" (putU s.constraints.reserved_zero_7bits),
    .fld "reserved_zero_35bits" (putU s.constraints.reserved_zero_35bits),
    .fld "reserved_zero_43bits" (putU s.constraints.reserved_zero_43bits),
    .fld "inbld_flag" (putI s.inbld_flag),
    .fld "reserved_zero_bit" (putI s.reserved_zero_bit)]

/-- the statements of `ProfileTierLevelState::fdump`, src/h265_profile_tier_level_parser.cc:908-975 (`present` is `profilePresentFlag`, `n` is
`maxNumSubLayersMinus1`; the vectors `sub_layer` and `sub_layer_level_idc` hold the present entries of `sub_layers`) -/
def dumpPtl.items (present : Bool) (n : Nat) (s : ProfileTierLevel) : List Dump :=
  [
    .cond (present = true) [.on (.deref s.general fun g => .blk "general" (profileInfoItems g))],
    .fld "general_level_idc" (putI s.general_level_idc),
    .lst "sub_layer_profile_present_flag" (Dump.item putI) (s.sub_layer_flags.map (·.1)),
    .lst "sub_layer_level_present_flag" (Dump.itemGap putI) (s.sub_layer_flags.map (·.2)),
    .cond (n > 0) [.lst "reserved_zero_2bits" (Dump.itemGap putI) s.reserved_zero_2bits],
    .cond (n > 0) [
      .each (s.sub_layers.filterMap id) fun x => .on (.blk "sub_layer" (profileInfoItems x.1)),
      .lst "sub_layer_level_idc" (Dump.itemGap putI) ((s.sub_layers.filterMap id).map (·.2))]]

/-- `ProfileTierLevelState::fdump`, src/h265_profile_tier_level_parser.cc:908-975 -/
def dumpPtl (present : Bool) (n : Nat) (s : ProfileTierLevel) : Dump := .blk "profile_tier_level" (dumpPtl.items present n s)

/-- the vector `sub_layer_hrd_parameters_vector`, filled by src/h265_hrd_parameters_parser.cc:178-208: per sub-layer first the NAL, then the VCL parameters -/
def hrdVector (s : HrdParameters) : List (List SubLayerHrdEntry) := s.sub_layers.flatMap fun l => l.nal_hrd.toList ++ l.vcl_hrd.toList

/-- the `add_resolution` part of `SpsState::fdump`, src/h265_sps_parser.cc:846-855 -/
def dumpResolution (s : SpsBody) : Dump :=
  match s.getResolution with
  | .error k => .error k
  | .ok wh => .seq [.fld "width" (putD wh.1), .fld "height" (putD wh.2)]

/-- the statements between the braces of `nal_unit_header { … }`, src/h265_nal_unit_header_parser.cc:74-94 -/
def dumpNalUnitHeader.items (s : NalUnitHeader) : List Dump :=
  [
    .fld "forbidden_zero_bit" (putI s.forbidden_zero_bit),
    .fld "nal_unit_type" (putI s.nal_unit_type),
    .fld "nuh_layer_id" (putI s.nuh_layer_id),
    .fld "nuh_temporal_id_plus1" (putI s.nuh_temporal_id_plus1)]

/-- `fdump` of `nal_unit_header`, src/h265_nal_unit_header_parser.cc:74-94 -/
def dumpNalUnitHeader (s : NalUnitHeader) : Dump := .blk "nal_unit_header" (dumpNalUnitHeader.items s)

/-- the statements between the braces of `aud { … }`, src/h265_aud_parser.cc:47-57 -/
def dumpAud.items (s : Aud) : List Dump :=
  [
    .fld "pic_type" (putI s.pic_type)]

/-- `fdump` of `aud`, src/h265_aud_parser.cc:47-57 -/
def dumpAud (s : Aud) : Dump := .blk "aud" (dumpAud.items s)

/-- the statements between the braces of `sub_layer_hrd_parameters { … }`, src/h265_sub_layer_hrd_parameters_parser.cc:93-136 (the five vectors are the columns of the list of records) -/
def dumpSubLayerHrd.items (s : List SubLayerHrdEntry) : List Dump :=
  [
    .lst "bit_rate_value_minus1" (Dump.item putI) (s.map (·.bit_rate_value_minus1)),
    .lst "cpb_size_value_minus1" (Dump.item putI) (s.map (·.cpb_size_value_minus1)),
    .lst "cpb_size_du_value_minus1" (Dump.item putI) (s.map (·.cpb_size_du_value_minus1)),
    .lst "bit_rate_du_value_minus1" (Dump.item putI) (s.map (·.bit_rate_du_value_minus1)),
    .lst "cbr_flag" (Dump.item putI) (s.map (·.cbr_flag))]

/-- `fdump` of `sub_layer_hrd_parameters`, src/h265_sub_layer_hrd_parameters_parser.cc:93-136 -/
def dumpSubLayerHrd (s : List SubLayerHrdEntry) : Dump := .blk "sub_layer_hrd_parameters" (dumpSubLayerHrd.items s)

/-- the statements between the braces of `hrd_parameters { … }`, src/h265_hrd_parameters_parser.cc:214-341 (`common` is `commonInfPresentFlag`; the vectors are the columns of `sub_layers`) -/
def dumpHrd.items (common : Nat) (s : HrdParameters) : List Dump :=
  [
    .cond (common ≠ 0) [
      .fld "nal_hrd_parameters_present_flag" (putI s.nal_hrd_parameters_present_flag),
      .fld "vcl_hrd_parameters_present_flag" (putI s.vcl_hrd_parameters_present_flag),
      .cond (s.nal_hrd_parameters_present_flag ≠ 0 ∨ s.vcl_hrd_parameters_present_flag ≠ 0) [
        .fld "sub_pic_hrd_params_present_flag" (putI s.sub_pic_hrd_params_present_flag),
        .cond (s.sub_pic_hrd_params_present_flag ≠ 0) [
          .fld "tick_divisor_minus2" (putI s.tick_divisor_minus2),
          .fld "du_cpb_removal_delay_increment_length_minus1" (putI s.du_cpb_removal_delay_increment_length_minus1),
          .fld "sub_pic_cpb_params_in_pic_timing_sei_flag" (putI s.sub_pic_cpb_params_in_pic_timing_sei_flag),
          .fld "dpb_output_delay_du_length_minus1" (putI s.dpb_output_delay_du_length_minus1)],
        .fld "bit_rate_scale" (putI s.bit_rate_scale),
        .fld "cpb_size_scale" (putI s.cpb_size_scale),
        .cond (s.sub_pic_hrd_params_present_flag ≠ 0) [
          .fld "cpb_size_du_scale" (putI s.cpb_size_du_scale)],
        .fld "initial_cpb_removal_delay_length_minus1" (putI s.initial_cpb_removal_delay_length_minus1),
        .fld "au_cpb_removal_delay_length_minus1" (putI s.au_cpb_removal_delay_length_minus1),
        .fld "dpb_output_delay_length_minus1" (putI s.dpb_output_delay_length_minus1)]],
    .lst "fixed_pic_rate_general_flag" (Dump.item putI) (s.sub_layers.map (·.fixed_pic_rate_general_flag)),
    .lst "fixed_pic_rate_within_cvs_flag" (Dump.item putI) (s.sub_layers.map (·.fixed_pic_rate_within_cvs_flag)),
    .lst "elemental_duration_in_tc_minus1" (Dump.item putI) (s.sub_layers.map (·.elemental_duration_in_tc_minus1)),
    .lst "low_delay_hrd_flag" (Dump.item putI) (s.sub_layers.map (·.low_delay_hrd_flag)),
    .lst "cpb_cnt_minus1" (Dump.item putI) (s.sub_layers.map (·.cpb_cnt_minus1)),
    .cond (s.nal_hrd_parameters_present_flag ≠ 0) [
      .on (.blk "sub_layer_hrd_parameters_vector" [
        .each (hrdVector s) fun x => .on (dumpSubLayerHrd x)])],
    .cond (s.vcl_hrd_parameters_present_flag ≠ 0) [
      .on (.blk "sub_layer_hrd_parameters_vector" [
        .each (hrdVector s) fun x => .on (dumpSubLayerHrd x)])]]

/-- `fdump` of `hrd_parameters`, src/h265_hrd_parameters_parser.cc:214-341 -/
def dumpHrd (common : Nat) (s : HrdParameters) : Dump := .blk "hrd_parameters" (dumpHrd.items common s)

/-- the statements between the braces of `vui_parameters { … }`, src/h265_vui_parameters_parser.cc:413-584 -/
def dumpVui.items (s : VuiParameters) : List Dump :=
  [
    .fld "aspect_ratio_info_present_flag" (putI s.aspect_ratio_info_present_flag),
    .cond (s.aspect_ratio_info_present_flag ≠ 0) [
      .fld "aspect_ratio_idc" (putI s.aspect_ratio_idc),
      .cond (s.aspect_ratio_idc = 255) [
        .fld "sar_width" (putI s.sar_width),
        .fld "sar_height" (putI s.sar_height)]],
    .fld "overscan_info_present_flag" (putI s.overscan_info_present_flag),
    .cond (s.overscan_info_present_flag ≠ 0) [
      .fld "overscan_appropriate_flag" (putI s.overscan_appropriate_flag)],
    .fld "video_signal_type_present_flag" (putI s.video_signal_type_present_flag),
    .cond (s.video_signal_type_present_flag ≠ 0) [
      .fld "video_format" (putI s.video_format),
      .fld "video_full_range_flag" (putI s.video_full_range_flag),
      .fld "colour_description_present_flag" (putI s.colour_description_present_flag),
      .cond (s.colour_description_present_flag ≠ 0) [
        .fld "colour_primaries" (putI s.colour_primaries),
        .fld "transfer_characteristics" (putI s.transfer_characteristics),
        .fld "matrix_coeffs" (putI s.matrix_coeffs)]],
    .fld "chroma_loc_info_present_flag" (putI s.chroma_loc_info_present_flag),
    .cond (s.chroma_loc_info_present_flag ≠ 0) [
      .fld "chroma_sample_loc_type_top_field" (putI s.chroma_sample_loc_type_top_field),
      .fld "chroma_sample_loc_type_bottom_field" (putI s.chroma_sample_loc_type_bottom_field)],
    .fld "neutral_chroma_indication_flag" (putI s.neutral_chroma_indication_flag),
    .fld "field_seq_flag" (putI s.field_seq_flag),
    .fld "frame_field_info_present_flag" (putI s.frame_field_info_present_flag),
    .fld "default_display_window_flag" (putI s.default_display_window_flag),
    .cond (s.default_display_window_flag ≠ 0) [
      .fld "def_disp_win_left_offset" (putI s.def_disp_win_left_offset),
      .fld "def_disp_win_right_offset" (putI s.def_disp_win_right_offset),
      .fld "def_disp_win_top_offset" (putI s.def_disp_win_top_offset),
      .fld "def_disp_win_bottom_offset" (putI s.def_disp_win_bottom_offset)],
    .fld "vui_timing_info_present_flag" (putI s.vui_timing_info_present_flag),
    .cond (s.vui_timing_info_present_flag ≠ 0) [
      .fld "vui_num_units_in_tick" (putI s.vui_num_units_in_tick),
      .fld "vui_time_scale" (putI s.vui_time_scale),
      .fld "vui_poc_proportional_to_timing_flag" (putI s.vui_poc_proportional_to_timing_flag),
      .cond (s.vui_poc_proportional_to_timing_flag ≠ 0) [
        .fld "vui_num_ticks_poc_diff_one_minus1" (putI s.vui_num_ticks_poc_diff_one_minus1)],
      .fld "vui_hrd_parameters_present_flag" (putI s.vui_hrd_parameters_present_flag),
      .cond (s.vui_hrd_parameters_present_flag ≠ 0) [
        .on (.deref s.hrd_parameters (dumpHrd 1))]],
    .fld "bitstream_restriction_flag" (putI s.bitstream_restriction_flag),
    .cond (s.bitstream_restriction_flag ≠ 0) [
      .fld "tiles_fixed_structure_flag" (putI s.tiles_fixed_structure_flag),
      .fld "motion_vectors_over_pic_boundaries_flag" (putI s.motion_vectors_over_pic_boundaries_flag),
      .fld "restricted_ref_pic_lists_flag" (putI s.restricted_ref_pic_lists_flag),
      .fld "min_spatial_segmentation_idc" (putI s.min_spatial_segmentation_idc),
      .fld "max_bytes_per_pic_denom" (putI s.max_bytes_per_pic_denom),
      .fld "max_bits_per_min_cu_denom" (putI s.max_bits_per_min_cu_denom),
      .fld "log2_max_mv_length_horizontal" (putI s.log2_max_mv_length_horizontal),
      .fld "log2_max_mv_length_vertical" (putI s.log2_max_mv_length_vertical)]]

/-- `fdump` of `vui_parameters`, src/h265_vui_parameters_parser.cc:413-584 -/
def dumpVui (s : VuiParameters) : Dump := .blk "vui_parameters" (dumpVui.items s)

/-- the statements between the braces of `vps { … }`, src/h265_vps_parser.cc:265-389 (only the last of the `hrd_parameters()` is kept by the code (finding 14)) -/
def dumpVps.items (v : Vps) : List Dump :=
  [
    .fld "vps_video_parameter_set_id" (putI v.body.vps_video_parameter_set_id),
    .fld "vps_base_layer_internal_flag" (putI v.body.vps_base_layer_internal_flag),
    .fld "vps_base_layer_available_flag" (putI v.body.vps_base_layer_available_flag),
    .fld "vps_max_layers_minus1" (putI v.body.vps_max_layers_minus1),
    .fld "vps_max_sub_layers_minus1" (putI v.body.vps_max_sub_layers_minus1),
    .fld "vps_temporal_id_nesting_flag" (putI v.body.vps_temporal_id_nesting_flag),
    .fld "vps_reserved_0xffff_16bits" ("0x".toList ++ putX0 4 v.body.vps_reserved_0xffff_16bits),
    .on (dumpPtl true v.body.vps_max_sub_layers_minus1 v.body.profile_tier_level),
    .fld "vps_sub_layer_ordering_info_present_flag" (putI v.body.vps_sub_layer_ordering_info_present_flag),
    .lst "vps_max_dec_pic_buffering_minus1" (Dump.item putI) (v.body.sub_layer_ordering.map (·.max_dec_pic_buffering_minus1)),
    .lst "vps_max_num_reorder_pics" (Dump.item putI) (v.body.sub_layer_ordering.map (·.max_num_reorder_pics)),
    .lst "vps_max_latency_increase_plus1" (Dump.item putI) (v.body.sub_layer_ordering.map (·.max_latency_increase_plus1)),
    .fld "vps_max_layer_id" (putI v.body.vps_max_layer_id),
    .fld "vps_num_layer_sets_minus1" (putI v.body.vps_num_layer_sets_minus1),
    .lst "layer_id_included_flag" (Dump.sub (Dump.item putI)) v.body.layer_id_included_flag,
    .fld "vps_timing_info_present_flag" (putI v.body.vps_timing_info_present_flag),
    .fld "vps_num_units_in_tick" (putI v.body.vps_num_units_in_tick),
    .fld "vps_time_scale" (putI v.body.vps_time_scale),
    .fld "vps_poc_proportional_to_timing_flag" (putI v.body.vps_poc_proportional_to_timing_flag),
    .fld "vps_num_ticks_poc_diff_one_minus1" (putI v.body.vps_num_ticks_poc_diff_one_minus1),
    .fld "vps_num_hrd_parameters" (putI v.body.vps_num_hrd_parameters),
    .cond (v.body.vps_num_hrd_parameters > 0) [
      .lst "hrd_layer_set_idx" (Dump.item putI) (v.body.hrds.map (·.hrd_layer_set_idx)),
      .lst "cprms_present_flag" (Dump.item putI) (v.body.hrds.map (·.cprms_present_flag)),
      .on (.deref v.body.hrds.getLast? (fun h => dumpHrd h.cprms_present_flag h.hrd_parameters))],
    .fld "vps_extension_flag" (putI v.body.vps_extension_flag),
    .fld "vps_extension_data_flag" (putI v.vps_extension_data_flag)]

/-- `fdump` of `vps`, src/h265_vps_parser.cc:265-389 -/
def dumpVps (v : Vps) : Dump := .blk "vps" (dumpVps.items v)

/-- the statements between the braces of `st_ref_pic_set { … }`, src/h265_st_ref_pic_set_parser.cc:348-424 (`idx` is `stRpsIdx`, `num` is `num_short_term_ref_pic_sets`) -/
def dumpStRefPicSet.items (idx num : Nat) (s : StRefPicSet) : List Dump :=
  [
    .cond (idx ≠ 0) [
      .fld "inter_ref_pic_set_prediction_flag" (putI s.inter_ref_pic_set_prediction_flag)],
    .cond (s.inter_ref_pic_set_prediction_flag ≠ 0) [
      .cond (idx = num) [
        .fld "delta_idx_minus1" (putI s.delta_idx_minus1)],
      .fld "delta_rps_sign" (putI s.delta_rps_sign),
      .fld "abs_delta_rps_minus1" (putI s.abs_delta_rps_minus1),
      .lst "used_by_curr_pic_flag" (Dump.item putI) (s.flags.map (·.used_by_curr_pic_flag)),
      .lst "use_delta_flag" (Dump.item putI) (s.flags.map (·.use_delta_flag))],
    .cond (¬ s.inter_ref_pic_set_prediction_flag ≠ 0) [
      .fld "num_negative_pics" (putI s.num_negative_pics),
      .fld "num_positive_pics" (putI s.num_positive_pics),
      .lst "delta_poc_s0_minus1" (Dump.item putI) (s.s0.map (·.delta_poc_minus1)),
      .lst "used_by_curr_pic_s0_flag" (Dump.item putI) (s.s0.map (·.used_by_curr_pic)),
      .lst "delta_poc_s1_minus1" (Dump.item putI) (s.s1.map (·.delta_poc_minus1)),
      .lst "used_by_curr_pic_s1_flag" (Dump.item putI) (s.s1.map (·.used_by_curr_pic))]]

/-- `fdump` of `st_ref_pic_set`, src/h265_st_ref_pic_set_parser.cc:348-424 -/
def dumpStRefPicSet (idx num : Nat) (s : StRefPicSet) : Dump := .blk "st_ref_pic_set" (dumpStRefPicSet.items idx num s)

/-- the statements between the braces of `scaling_list_data { … }`, src/h265_scaling_list_data_parser.cc:110-166 (the tables have four rows of six, src/h265_scaling_list_data_parser.cc:41-53) -/
def dumpScalingListData.items (s : ScalingListData) : List Dump :=
  [
    .lst "scaling_list_pred_mode_flag" (Dump.sub (Dump.item putI)) s.scaling_list_pred_mode_flag,
    .lst "scaling_list_pred_matrix_id_delta" (Dump.sub (Dump.item putI)) s.scaling_list_pred_matrix_id_delta,
    .lst "scaling_list_dc_coef_minus8" (Dump.sub (Dump.item putD)) s.scaling_list_dc_coef_minus8,
    .lst "ScalingList" (Dump.sub (Dump.sub (Dump.item putI))) s.ScalingList]

/-- `fdump` of `scaling_list_data`, src/h265_scaling_list_data_parser.cc:110-166 -/
def dumpScalingListData (s : ScalingListData) : Dump := .blk "scaling_list_data" (dumpScalingListData.items s)

/-- the statements between the braces of `sps_range_extension { … }`, src/h265_sps_range_extension_parser.cc:97-141 -/
def dumpSpsRangeExtension.items (s : SpsRangeExtension) : List Dump :=
  [
    .fld "transform_skip_rotation_enabled_flag" (putI s.transform_skip_rotation_enabled_flag),
    .fld "transform_skip_context_enabled_flag" (putI s.transform_skip_context_enabled_flag),
    .fld "implicit_rdpcm_enabled_flag" (putI s.implicit_rdpcm_enabled_flag),
    .fld "explicit_rdpcm_enabled_flag" (putI s.explicit_rdpcm_enabled_flag),
    .fld "extended_precision_processing_flag" (putI s.extended_precision_processing_flag),
    .fld "intra_smoothing_disabled_flag" (putI s.intra_smoothing_disabled_flag),
    .fld "high_precision_offsets_enabled_flag" (putI s.high_precision_offsets_enabled_flag),
    .fld "persistent_rice_adaptation_enabled_flag" (putI s.persistent_rice_adaptation_enabled_flag),
    .fld "cabac_bypass_alignment_enabled_flag" (putI s.cabac_bypass_alignment_enabled_flag)]

/-- `fdump` of `sps_range_extension`, src/h265_sps_range_extension_parser.cc:97-141 -/
def dumpSpsRangeExtension (s : SpsRangeExtension) : Dump := .blk "sps_range_extension" (dumpSpsRangeExtension.items s)

/-- the statements between the braces of `sps_multilayer_extension { … }`, src/h265_sps_multilayer_extension_parser.cc:51-63 -/
def dumpSpsMultilayerExtension.items (s : SpsMultilayerExtension) : List Dump :=
  [
    .fld "inter_view_mv_vert_constraint_flag" (putI s.inter_view_mv_vert_constraint_flag)]

/-- `fdump` of `sps_multilayer_extension`, src/h265_sps_multilayer_extension_parser.cc:51-63 -/
def dumpSpsMultilayerExtension (s : SpsMultilayerExtension) : Dump := .blk "sps_multilayer_extension" (dumpSpsMultilayerExtension.items s)

/-- the statements between the braces of `sps_3d_extension { … }`, src/h265_sps_3d_extension_parser.cc:129-191 -/
def dumpSps3dExtension.items (s : Sps3dExtension) : List Dump :=
  [
    .lst "iv_di_mc_enabled_flag" (Dump.item putI) [s.iv_di_mc_enabled_flag_0, s.iv_di_mc_enabled_flag_1],
    .lst "iv_mv_scal_enabled_flag" (Dump.item putI) [s.iv_mv_scal_enabled_flag_0, s.iv_mv_scal_enabled_flag_1],
    .fld "log2_ivmc_sub_pb_size_minus3" (putI s.log2_ivmc_sub_pb_size_minus3),
    .fld "iv_res_pred_enabled_flag" (putI s.iv_res_pred_enabled_flag),
    .fld "depth_ref_enabled_flag" (putI s.depth_ref_enabled_flag),
    .fld "vsp_mc_enabled_flag" (putI s.vsp_mc_enabled_flag),
    .fld "dbbp_enabled_flag" (putI s.dbbp_enabled_flag),
    .fld "tex_mc_enabled_flag" (putI s.tex_mc_enabled_flag),
    .fld "log2_texmc_sub_pb_size_minus3" (putI s.log2_texmc_sub_pb_size_minus3),
    .fld "intra_contour_enabled_flag" (putI s.intra_contour_enabled_flag),
    .fld "intra_dc_only_wedge_enabled_flag" (putI s.intra_dc_only_wedge_enabled_flag),
    .fld "cqt_cu_part_pred_enabled_flag" (putI s.cqt_cu_part_pred_enabled_flag),
    .fld "inter_dc_only_enabled_flag" (putI s.inter_dc_only_enabled_flag),
    .fld "skip_intra_enabled_flag" (putI s.skip_intra_enabled_flag)]

/-- `fdump` of `sps_3d_extension`, src/h265_sps_3d_extension_parser.cc:129-191 -/
def dumpSps3dExtension (s : Sps3dExtension) : Dump := .blk "sps_3d_extension" (dumpSps3dExtension.items s)

/-- the statements between the braces of `sps_scc_extension { … }`, src/h265_sps_scc_extension_parser.cc:166-220 -/
def dumpSpsSccExtension.items (s : SpsSccExtension) : List Dump :=
  [
    .fld "sps_curr_pic_ref_enabled_flag" (putI s.sps_curr_pic_ref_enabled_flag),
    .fld "palette_mode_enabled_flag" (putI s.palette_mode_enabled_flag),
    .cond (s.palette_mode_enabled_flag ≠ 0) [
      .fld "palette_max_size" (putI s.palette_max_size),
      .fld "delta_palette_max_predictor_size" (putI s.delta_palette_max_predictor_size),
      .fld "sps_palette_predictor_initializers_present_flag" (putI s.sps_palette_predictor_initializers_present_flag),
      .cond (s.sps_palette_predictor_initializers_present_flag ≠ 0) [
        .fld "sps_num_palette_predictor_initializers_minus1" (putI s.sps_num_palette_predictor_initializers_minus1),
        .lst "sps_palette_predictor_initializers" (Dump.sub (Dump.item putI)) s.sps_palette_predictor_initializers]],
    .fld "motion_vector_resolution_control_idc" (putI s.motion_vector_resolution_control_idc),
    .fld "intra_boundary_filtering_disabled_flag" (putI s.intra_boundary_filtering_disabled_flag)]

/-- `fdump` of `sps_scc_extension`, src/h265_sps_scc_extension_parser.cc:166-220 -/
def dumpSpsSccExtension (s : SpsSccExtension) : Dump := .blk "sps_scc_extension" (dumpSpsSccExtension.items s)

/-- the statements between the braces of `sps { … }`, src/h265_sps_parser.cc:593-860 (`getResolution` is src/h265_sps_parser.cc:980-995) -/
def dumpSps.items (add_resolution : Bool) (v : Sps) : List Dump :=
  [
    .fld "sps_video_parameter_set_id" (putI v.body.sps_video_parameter_set_id),
    .fld "sps_max_sub_layers_minus1" (putI v.body.sps_max_sub_layers_minus1),
    .fld "sps_temporal_id_nesting_flag" (putI v.body.sps_temporal_id_nesting_flag),
    .on (dumpPtl true v.body.sps_max_sub_layers_minus1 v.body.profile_tier_level),
    .fld "sps_seq_parameter_set_id" (putI v.body.sps_seq_parameter_set_id),
    .fld "chroma_format_idc" (putI v.body.chroma_format_idc),
    .cond (v.body.chroma_format_idc = 3) [
      .fld "separate_colour_plane_flag" (putI v.body.separate_colour_plane_flag)],
    .fld "pic_width_in_luma_samples" (putI v.body.pic_width_in_luma_samples),
    .fld "pic_height_in_luma_samples" (putI v.body.pic_height_in_luma_samples),
    .fld "conformance_window_flag" (putI v.body.conformance_window_flag),
    .cond (v.body.conformance_window_flag ≠ 0) [
      .fld "conf_win_left_offset" (putI v.body.conf_win_left_offset),
      .fld "conf_win_right_offset" (putI v.body.conf_win_right_offset),
      .fld "conf_win_top_offset" (putI v.body.conf_win_top_offset),
      .fld "conf_win_bottom_offset" (putI v.body.conf_win_bottom_offset)],
    .fld "bit_depth_luma_minus8" (putI v.body.bit_depth_luma_minus8),
    .fld "bit_depth_chroma_minus8" (putI v.body.bit_depth_chroma_minus8),
    .fld "log2_max_pic_order_cnt_lsb_minus4" (putI v.body.log2_max_pic_order_cnt_lsb_minus4),
    .fld "sps_sub_layer_ordering_info_present_flag" (putI v.body.sps_sub_layer_ordering_info_present_flag),
    .lst "sps_max_dec_pic_buffering_minus1" (Dump.item putI) (v.body.sub_layer_ordering.map (·.sps_max_dec_pic_buffering_minus1)),
    .lst "sps_max_num_reorder_pics" (Dump.item putI) (v.body.sub_layer_ordering.map (·.sps_max_num_reorder_pics)),
    .lst "sps_max_latency_increase_plus1" (Dump.item putI) (v.body.sub_layer_ordering.map (·.sps_max_latency_increase_plus1)),
    .fld "log2_min_luma_coding_block_size_minus3" (putI v.body.log2_min_luma_coding_block_size_minus3),
    .fld "log2_diff_max_min_luma_coding_block_size" (putI v.body.log2_diff_max_min_luma_coding_block_size),
    .fld "log2_min_luma_transform_block_size_minus2" (putI v.body.log2_min_luma_transform_block_size_minus2),
    .fld "log2_diff_max_min_luma_transform_block_size" (putI v.body.log2_diff_max_min_luma_transform_block_size),
    .fld "max_transform_hierarchy_depth_inter" (putI v.body.max_transform_hierarchy_depth_inter),
    .fld "max_transform_hierarchy_depth_intra" (putI v.body.max_transform_hierarchy_depth_intra),
    .fld "scaling_list_enabled_flag" (putI v.body.scaling_list_enabled_flag),
    .cond (v.body.scaling_list_enabled_flag ≠ 0) [
      .fld "sps_scaling_list_data_present_flag" (putI v.body.sps_scaling_list_data_present_flag),
      .cond (v.body.sps_scaling_list_data_present_flag ≠ 0) [
        .on (.deref v.body.scaling_list_data dumpScalingListData)]],
    .fld "amp_enabled_flag" (putI v.body.amp_enabled_flag),
    .fld "sample_adaptive_offset_enabled_flag" (putI v.body.sample_adaptive_offset_enabled_flag),
    .fld "pcm_enabled_flag" (putI v.body.pcm_enabled_flag),
    .cond (v.body.pcm_enabled_flag ≠ 0) [
      .fld "pcm_sample_bit_depth_luma_minus1" (putI v.body.pcm_sample_bit_depth_luma_minus1),
      .fld "pcm_sample_bit_depth_chroma_minus1" (putI v.body.pcm_sample_bit_depth_chroma_minus1),
      .fld "log2_min_pcm_luma_coding_block_size_minus3" (putI v.body.log2_min_pcm_luma_coding_block_size_minus3),
      .fld "log2_diff_max_min_pcm_luma_coding_block_size" (putI v.body.log2_diff_max_min_pcm_luma_coding_block_size),
      .fld "pcm_loop_filter_disabled_flag" (putI v.body.pcm_loop_filter_disabled_flag)],
    .fld "num_short_term_ref_pic_sets" (putI v.body.num_short_term_ref_pic_sets),
    .upTo v.body.num_short_term_ref_pic_sets v.body.st_ref_pic_set fun i r => .on (dumpStRefPicSet i v.body.num_short_term_ref_pic_sets r),
    .fld "long_term_ref_pics_present_flag" (putI v.body.long_term_ref_pics_present_flag),
    .cond (v.body.long_term_ref_pics_present_flag ≠ 0) [
      .fld "num_long_term_ref_pics_sps" (putI v.body.num_long_term_ref_pics_sps),
      .lst "lt_ref_pic_poc_lsb_sps" (Dump.item putI) (v.body.lt_ref_pics.map (·.lt_ref_pic_poc_lsb_sps)),
      .lst "used_by_curr_pic_lt_sps_flag" (Dump.item putI) (v.body.lt_ref_pics.map (·.used_by_curr_pic_lt_sps_flag))],
    .fld "sps_temporal_mvp_enabled_flag" (putI v.body.sps_temporal_mvp_enabled_flag),
    .fld "strong_intra_smoothing_enabled_flag" (putI v.body.strong_intra_smoothing_enabled_flag),
    .fld "vui_parameters_present_flag" (putI v.body.vui_parameters_present_flag),
    .cond (v.body.vui_parameters_present_flag ≠ 0) [
      .on (.deref v.body.vui_parameters dumpVui)],
    .fld "sps_extension_present_flag" (putI v.body.sps_extension_present_flag),
    .cond (v.body.sps_extension_present_flag ≠ 0) [
      .fld "sps_range_extension_flag" (putI v.body.sps_range_extension_flag),
      .fld "sps_multilayer_extension_flag" (putI v.body.sps_multilayer_extension_flag),
      .fld "sps_3d_extension_flag" (putI v.body.sps_3d_extension_flag),
      .fld "sps_scc_extension_flag" (putI v.body.sps_scc_extension_flag),
      .fld "sps_extension_4bits" (putI v.body.sps_extension_4bits)],
    .cond (v.body.sps_range_extension_flag ≠ 0) [
      .on (.deref v.body.sps_range_extension dumpSpsRangeExtension)],
    .cond (v.body.sps_multilayer_extension_flag ≠ 0) [
      .on (.deref v.body.sps_multilayer_extension dumpSpsMultilayerExtension)],
    .cond (v.body.sps_3d_extension_flag ≠ 0) [
      .on (.deref v.body.sps_3d_extension dumpSps3dExtension)],
    .cond (v.body.sps_scc_extension_flag ≠ 0) [
      .on (.deref v.body.sps_scc_extension dumpSpsSccExtension)],
    .cond (add_resolution = true) [
      dumpResolution v.body]]

/-- `fdump` of `sps`, src/h265_sps_parser.cc:593-860 -/
def dumpSps (add_resolution : Bool) (v : Sps) : Dump := .blk "sps" (dumpSps.items add_resolution v)

/-- the statements between the braces of `pps_multilayer_extension { … }`, src/h265_pps_multilayer_extension_parser.cc:203-352 (a vector that is only appended to when a flag is set holds the values of the records that are present) -/
def dumpPpsMultilayerExtension.items (s : PpsMultilayerExtension) : List Dump :=
  [
    .fld "poc_reset_info_present_flag" (putI s.poc_reset_info_present_flag),
    .fld "pps_infer_scaling_list_flag" (putI s.pps_infer_scaling_list_flag),
    .cond (s.pps_infer_scaling_list_flag ≠ 0) [
      .fld "pps_scaling_list_ref_layer_id" (putI s.pps_scaling_list_ref_layer_id)],
    .fld "num_ref_loc_offsets" (putI s.num_ref_loc_offsets),
    .cond (s.num_ref_loc_offsets > 0) [
      .lst "ref_loc_offset_layer_id" (Dump.item putI) (s.ref_loc_offset.map (·.ref_loc_offset_layer_id)),
      .lst "scaled_ref_layer_offset_present_flag" (Dump.item putI) (s.ref_loc_offset.map (·.scaled_ref_layer_offset_present_flag)),
      .lst "scaled_ref_layer_left_offset" (Dump.item putD) ((s.ref_loc_offset.filterMap (·.scaled_ref_layer_offset)).map (·.scaled_ref_layer_left_offset)),
      .lst "scaled_ref_layer_top_offset" (Dump.item putD) ((s.ref_loc_offset.filterMap (·.scaled_ref_layer_offset)).map (·.scaled_ref_layer_top_offset)),
      .lst "scaled_ref_layer_right_offset" (Dump.item putD) ((s.ref_loc_offset.filterMap (·.scaled_ref_layer_offset)).map (·.scaled_ref_layer_right_offset)),
      .lst "scaled_ref_layer_bottom_offset" (Dump.item putD) ((s.ref_loc_offset.filterMap (·.scaled_ref_layer_offset)).map (·.scaled_ref_layer_bottom_offset)),
      .lst "ref_region_offset_present_flag" (Dump.item putU) (s.ref_loc_offset.map (·.ref_region_offset_present_flag)),
      .lst "ref_region_left_offset" (Dump.item putD) ((s.ref_loc_offset.filterMap (·.ref_region_offset)).map (·.ref_region_left_offset)),
      .lst "ref_region_top_offset" (Dump.item putD) ((s.ref_loc_offset.filterMap (·.ref_region_offset)).map (·.ref_region_top_offset)),
      .lst "ref_region_right_offset" (Dump.item putD) ((s.ref_loc_offset.filterMap (·.ref_region_offset)).map (·.ref_region_right_offset)),
      .lst "ref_region_bottom_offset" (Dump.item putD) ((s.ref_loc_offset.filterMap (·.ref_region_offset)).map (·.ref_region_bottom_offset)),
      .lst "resample_phase_set_present_flag" (Dump.item putU) (s.ref_loc_offset.map (·.resample_phase_set_present_flag)),
      .lst "phase_hor_luma" (Dump.item putD) ((s.ref_loc_offset.filterMap (·.resample_phase_set)).map (·.phase_hor_luma)),
      .lst "phase_ver_luma" (Dump.item putD) ((s.ref_loc_offset.filterMap (·.resample_phase_set)).map (·.phase_ver_luma)),
      .lst "phase_hor_chroma_plus8" (Dump.item putD) ((s.ref_loc_offset.filterMap (·.resample_phase_set)).map (·.phase_hor_chroma_plus8)),
      .lst "phase_ver_chroma_plus8" (Dump.item putD) ((s.ref_loc_offset.filterMap (·.resample_phase_set)).map (·.phase_ver_chroma_plus8))],
    .fld "colour_mapping_enabled_flag" (putI s.colour_mapping_enabled_flag)]

/-- `fdump` of `pps_multilayer_extension`, src/h265_pps_multilayer_extension_parser.cc:203-352 -/
def dumpPpsMultilayerExtension (s : PpsMultilayerExtension) : Dump := .blk "pps_multilayer_extension" (dumpPpsMultilayerExtension.items s)

/-- the statements between the braces of `pps_scc_extension { … }`, src/h265_pps_scc_extension_parser.cc:158-228 -/
def dumpPpsSccExtension.items (s : PpsSccExtension) : List Dump :=
  [
    .fld "pps_curr_pic_ref_enabled_flag" (putI s.pps_curr_pic_ref_enabled_flag),
    .fld "residual_adaptive_colour_transform_enabled_flag" (putI s.residual_adaptive_colour_transform_enabled_flag),
    .cond (s.residual_adaptive_colour_transform_enabled_flag ≠ 0) [
      .fld "pps_slice_act_qp_offsets_present_flag" (putI s.pps_slice_act_qp_offsets_present_flag),
      .fld "pps_act_y_qp_offset_plus5" (putD s.pps_act_y_qp_offset_plus5),
      .fld "pps_act_cb_qp_offset_plus5" (putD s.pps_act_cb_qp_offset_plus5),
      .fld "pps_act_cr_qp_offset_plus3" (putD s.pps_act_cr_qp_offset_plus3)],
    .fld "pps_palette_predictor_initializer_present_flag" (putI s.pps_palette_predictor_initializer_present_flag),
    .cond (s.pps_palette_predictor_initializer_present_flag ≠ 0) [
      .fld "pps_num_palette_predictor_initializer" (putI s.pps_num_palette_predictor_initializer),
      .cond (s.pps_num_palette_predictor_initializer > 0) [
        .fld "monochrome_palette_flag" (putI s.monochrome_palette_flag),
        .fld "luma_bit_depth_entry_minus8" (putI s.luma_bit_depth_entry_minus8),
        .cond (s.monochrome_palette_flag = 0) [
          .fld "chroma_bit_depth_entry_minus8" (putI s.chroma_bit_depth_entry_minus8)],
        .lst "pps_palette_predictor_initializers" (Dump.sub (Dump.item putI)) s.pps_palette_predictor_initializers]]]

/-- `fdump` of `pps_scc_extension`, src/h265_pps_scc_extension_parser.cc:158-228 -/
def dumpPpsSccExtension (s : PpsSccExtension) : Dump := .blk "pps_scc_extension" (dumpPpsSccExtension.items s)

/-- the statements between the braces of `pps { … }`, src/h265_pps_parser.cc:341-548 (prints `cu_qp_delta_enabled_flag` where `diff_cu_qp_delta_depth` was meant (lines 391-394), and does not print `pps_extension_data_flag`; what goes to stderr is not part of the text) -/
def dumpPps.items (v : Pps) : List Dump :=
  [
    .fld "pps_pic_parameter_set_id" (putI v.body.head.pps_pic_parameter_set_id),
    .fld "pps_seq_parameter_set_id" (putI v.body.head.pps_seq_parameter_set_id),
    .fld "dependent_slice_segments_enabled_flag" (putI v.body.head.dependent_slice_segments_enabled_flag),
    .fld "output_flag_present_flag" (putI v.body.head.output_flag_present_flag),
    .fld "num_extra_slice_header_bits" (putI v.body.head.num_extra_slice_header_bits),
    .fld "sign_data_hiding_enabled_flag" (putI v.body.head.sign_data_hiding_enabled_flag),
    .fld "cabac_init_present_flag" (putI v.body.head.cabac_init_present_flag),
    .fld "num_ref_idx_l0_default_active_minus1" (putI v.body.head.num_ref_idx_l0_default_active_minus1),
    .fld "num_ref_idx_l1_default_active_minus1" (putI v.body.head.num_ref_idx_l1_default_active_minus1),
    .fld "init_qp_minus26" (putD v.body.head.init_qp_minus26),
    .fld "constrained_intra_pred_flag" (putI v.body.head.constrained_intra_pred_flag),
    .fld "transform_skip_enabled_flag" (putI v.body.head.transform_skip_enabled_flag),
    .fld "cu_qp_delta_enabled_flag" (putI v.body.head.cu_qp_delta_enabled_flag),
    .cond (v.body.head.cu_qp_delta_enabled_flag ≠ 0) [
      .fld "cu_qp_delta_enabled_flag" (putI v.body.head.cu_qp_delta_enabled_flag)],
    .fld "pps_cb_qp_offset" (putD v.body.head.pps_cb_qp_offset),
    .fld "pps_cr_qp_offset" (putD v.body.head.pps_cr_qp_offset),
    .fld "pps_slice_chroma_qp_offsets_present_flag" (putI v.body.head.pps_slice_chroma_qp_offsets_present_flag),
    .fld "weighted_pred_flag" (putI v.body.head.weighted_pred_flag),
    .fld "weighted_bipred_flag" (putI v.body.head.weighted_bipred_flag),
    .fld "transquant_bypass_enabled_flag" (putI v.body.head.transquant_bypass_enabled_flag),
    .fld "tiles_enabled_flag" (putI v.body.head.tiles_enabled_flag),
    .fld "entropy_coding_sync_enabled_flag" (putI v.body.head.entropy_coding_sync_enabled_flag),
    .cond (v.body.head.tiles_enabled_flag ≠ 0) [
      .fld "num_tile_columns_minus1" (putI v.body.head.num_tile_columns_minus1),
      .fld "num_tile_rows_minus1" (putI v.body.head.num_tile_rows_minus1),
      .fld "uniform_spacing_flag" (putI v.body.head.uniform_spacing_flag),
      .cond (v.body.head.uniform_spacing_flag = 0) [
        .lst "column_width_minus1" (Dump.item putI) v.body.head.column_width_minus1,
        .lst "row_height_minus1" (Dump.item putI) v.body.head.row_height_minus1],
      .fld "loop_filter_across_tiles_enabled_flag" (putI v.body.head.loop_filter_across_tiles_enabled_flag)],
    .fld "pps_loop_filter_across_slices_enabled_flag" (putI v.body.head.pps_loop_filter_across_slices_enabled_flag),
    .fld "deblocking_filter_control_present_flag" (putI v.body.head.deblocking_filter_control_present_flag),
    .cond (v.body.head.deblocking_filter_control_present_flag ≠ 0) [
      .fld "deblocking_filter_override_enabled_flag" (putI v.body.head.deblocking_filter_override_enabled_flag),
      .fld "pps_deblocking_filter_disabled_flag" (putI v.body.head.pps_deblocking_filter_disabled_flag),
      .cond (v.body.head.pps_deblocking_filter_disabled_flag = 0) [
        .fld "pps_beta_offset_div2" (putD v.body.head.pps_beta_offset_div2),
        .fld "pps_tc_offset_div2" (putD v.body.head.pps_tc_offset_div2)]],
    .fld "pps_scaling_list_data_present_flag" (putI v.body.head.pps_scaling_list_data_present_flag),
    .cond (v.body.head.pps_scaling_list_data_present_flag ≠ 0 ∧ v.body.head.scaling_list_data.isSome = true) [
      .on (.deref v.body.head.scaling_list_data dumpScalingListData)],
    .fld "lists_modification_present_flag" (putI v.body.head.lists_modification_present_flag),
    .fld "log2_parallel_merge_level_minus2" (putI v.body.head.log2_parallel_merge_level_minus2),
    .fld "slice_segment_header_extension_present_flag" (putI v.body.head.slice_segment_header_extension_present_flag),
    .fld "pps_extension_present_flag" (putI v.body.head.pps_extension_present_flag),
    .cond (v.body.head.pps_extension_present_flag ≠ 0) [
      .fld "pps_range_extension_flag" (putI v.body.head.pps_range_extension_flag),
      .fld "pps_multilayer_extension_flag" (putI v.body.head.pps_multilayer_extension_flag),
      .fld "pps_3d_extension_flag" (putI v.body.head.pps_3d_extension_flag),
      .fld "pps_scc_extension_flag" (putI v.body.head.pps_scc_extension_flag),
      .fld "pps_extension_4bits" (putI v.body.head.pps_extension_4bits)],
    .cond (v.body.head.pps_multilayer_extension_flag ≠ 0) [
      .on (.deref v.body.pps_multilayer_extension dumpPpsMultilayerExtension)],
    .cond (v.body.head.pps_scc_extension_flag ≠ 0) [
      .on (.deref v.body.pps_scc_extension dumpPpsSccExtension)]]

/-- `fdump` of `pps`, src/h265_pps_parser.cc:341-548 -/
def dumpPps (v : Pps) : Dump := .blk "pps" (dumpPps.items v)

end H265
