/-
The syntax tables of Rec. ITU-T H.265 (clauses 7.3 and E.2), transcribed with the nesting of the standard and with the standard's own
inference rules.  Nothing here refers to the parsers; where the standard and the library disagree this file follows the standard.
The records of syntax element values are those of the other `Spec` files; the parts for which the library has no field are separate
records (`StdPtl`, `SliceExtra`).
-/
import Verif.Spec.Sps
import Verif.Spec.Pps
import Verif.Spec.Pwt
import Verif.Spec.Slice
import Verif.Spec.Vps

namespace H265
open Spec

set_option autoImplicit false

namespace Std

/-- `if( c ) { … }` of a syntax table -/
def ifThen (c : Prop) [Decidable c] (l : List (List Bool)) : List Bool := if c then seq l else []

/-- Ceil( Log2( x ) ) -/
def ceilLog2 (x : Nat) : Nat := if x ≤ 1 then 0 else Nat.log2 (x - 1) + 1

/-- Ceil( a ÷ b ) -/
def ceilDivide (a b : Nat) : Nat := (a + b - 1) / b

/-! ### profile_tier_level( ), clause 7.3.3 -/

/-- the profile and level of a sub-layer, each transmitted if its flag is set -/
structure StdSubLayer where
  profile_present_flag : Nat
  level_present_flag : Nat
  profile : ProfileInfo
  level_idc : Nat
  deriving DecidableEq, Repr, Inhabited

/-- the values of profile_tier_level( 1, maxNumSubLayersMinus1 ) -/
structure StdPtl where
  general : ProfileInfo
  general_level_idc : Nat
  sub_layers : List StdSubLayer
  deriving DecidableEq, Repr, Inhabited

/-- clause 7.3.3; `maxSub` = maxNumSubLayersMinus1 -/
def profileTierLevel (maxSub : Nat) (p : StdPtl) : List Bool :=
  seq [profileInfo p.general,
    u 8 p.general_level_idc,
    list (fun x => seq [u 1 x.profile_present_flag, u 1 x.level_present_flag]) p.sub_layers,
    ifThen (maxSub > 0) [list (fun _ => u 2 0) (List.range (8 - maxSub))],
    list (fun x => seq [ifThen (x.profile_present_flag ≠ 0) [profileInfo x.profile],
      ifThen (x.level_present_flag ≠ 0) [u 8 x.level_idc]]) p.sub_layers]

/-! ### hrd_parameters( ), clauses E.2.2 and E.2.3 -/

/-- sub_layer_hrd_parameters( ), clause E.2.3 -/
def subLayerHrd (sub_pic : Nat) (l : List SubLayerHrdEntry) : List Bool :=
  list (fun s => seq [
    ue s.bit_rate_value_minus1,
    ue s.cpb_size_value_minus1,
    ifThen (sub_pic ≠ 0) [
      ue s.cpb_size_du_value_minus1,
      ue s.bit_rate_du_value_minus1],
    u 1 s.cbr_flag]) l

/-- clause E.3.2: fixed_pic_rate_within_cvs_flag is inferred to be 1 when fixed_pic_rate_general_flag is 1 -/
def fixedPicRateWithinCvs (s : HrdSubLayer) : Nat :=
  if s.fixed_pic_rate_general_flag ≠ 0 then 1 else s.fixed_pic_rate_within_cvs_flag

/-- the body of the sub-layer loop of clause E.2.2 -/
def hrdSubLayer (nal vcl sub_pic : Nat) (s : HrdSubLayer) : List Bool :=
  seq [u 1 s.fixed_pic_rate_general_flag,
    ifThen (s.fixed_pic_rate_general_flag = 0) [u 1 s.fixed_pic_rate_within_cvs_flag],
    if fixedPicRateWithinCvs s ≠ 0 then ue s.elemental_duration_in_tc_minus1 else u 1 s.low_delay_hrd_flag,
    ifThen (s.low_delay_hrd_flag = 0) [ue s.cpb_cnt_minus1],
    ifThen (nal ≠ 0) [optional (subLayerHrd sub_pic) s.nal_hrd],
    ifThen (vcl ≠ 0) [optional (subLayerHrd sub_pic) s.vcl_hrd]]

/-- clause E.2.2 -/
def hrdParameters (commonInfPresentFlag : Nat) (s : HrdParameters) : List Bool :=
  seq [
    ifThen (commonInfPresentFlag ≠ 0) [
      u 1 s.nal_hrd_parameters_present_flag,
      u 1 s.vcl_hrd_parameters_present_flag,
      ifThen (s.nal_hrd_parameters_present_flag ≠ 0 ∨ s.vcl_hrd_parameters_present_flag ≠ 0) [
        u 1 s.sub_pic_hrd_params_present_flag,
        ifThen (s.sub_pic_hrd_params_present_flag ≠ 0) [
          u 8 s.tick_divisor_minus2,
          u 5 s.du_cpb_removal_delay_increment_length_minus1,
          u 1 s.sub_pic_cpb_params_in_pic_timing_sei_flag,
          u 5 s.dpb_output_delay_du_length_minus1],
        u 4 s.bit_rate_scale,
        u 4 s.cpb_size_scale,
        ifThen (s.sub_pic_hrd_params_present_flag ≠ 0) [
          u 4 s.cpb_size_du_scale],
        u 5 s.initial_cpb_removal_delay_length_minus1,
        u 5 s.au_cpb_removal_delay_length_minus1,
        u 5 s.dpb_output_delay_length_minus1]],
    list (hrdSubLayer s.nal_hrd_parameters_present_flag s.vcl_hrd_parameters_present_flag s.sub_pic_hrd_params_present_flag) s.sub_layers]

/-! ### vui_parameters( ), clause E.2.1 -/

/-- clause E.2.1 -/
def vuiParameters (s : VuiParameters) : List Bool :=
  seq [u 1 s.aspect_ratio_info_present_flag,
    ifThen (s.aspect_ratio_info_present_flag ≠ 0) [
      u 8 s.aspect_ratio_idc,
      ifThen (s.aspect_ratio_idc = 255) [
        u 16 s.sar_width,
        u 16 s.sar_height]],
    u 1 s.overscan_info_present_flag,
    ifThen (s.overscan_info_present_flag ≠ 0) [
      u 1 s.overscan_appropriate_flag],
    u 1 s.video_signal_type_present_flag,
    ifThen (s.video_signal_type_present_flag ≠ 0) [
      u 3 s.video_format,
      u 1 s.video_full_range_flag,
      u 1 s.colour_description_present_flag,
      ifThen (s.colour_description_present_flag ≠ 0) [
        u 8 s.colour_primaries,
        u 8 s.transfer_characteristics,
        u 8 s.matrix_coeffs]],
    u 1 s.chroma_loc_info_present_flag,
    ifThen (s.chroma_loc_info_present_flag ≠ 0) [
      ue s.chroma_sample_loc_type_top_field,
      ue s.chroma_sample_loc_type_bottom_field],
    u 1 s.neutral_chroma_indication_flag,
    u 1 s.field_seq_flag,
    u 1 s.frame_field_info_present_flag,
    u 1 s.default_display_window_flag,
    ifThen (s.default_display_window_flag ≠ 0) [
      ue s.def_disp_win_left_offset,
      ue s.def_disp_win_right_offset,
      ue s.def_disp_win_top_offset,
      ue s.def_disp_win_bottom_offset],
    u 1 s.vui_timing_info_present_flag,
    ifThen (s.vui_timing_info_present_flag ≠ 0) [
      u 32 s.vui_num_units_in_tick,
      u 32 s.vui_time_scale,
      u 1 s.vui_poc_proportional_to_timing_flag,
      ifThen (s.vui_poc_proportional_to_timing_flag ≠ 0) [
        ue s.vui_num_ticks_poc_diff_one_minus1],
      u 1 s.vui_hrd_parameters_present_flag,
      ifThen (s.vui_hrd_parameters_present_flag ≠ 0) [
        optional (hrdParameters 1) s.hrd_parameters]],
    u 1 s.bitstream_restriction_flag,
    ifThen (s.bitstream_restriction_flag ≠ 0) [
      u 1 s.tiles_fixed_structure_flag,
      u 1 s.motion_vectors_over_pic_boundaries_flag,
      u 1 s.restricted_ref_pic_lists_flag,
      ue s.min_spatial_segmentation_idc,
      ue s.max_bytes_per_pic_denom,
      ue s.max_bits_per_min_cu_denom,
      ue s.log2_max_mv_length_horizontal,
      ue s.log2_max_mv_length_vertical]]

/-! ### video_parameter_set_rbsp( ), clause 7.3.2.1 -/

/-- clause 7.4.3.1: cprms_present_flag[ 0 ] is inferred to be 1 -/
def cprms (i : Nat) (h : VpsHrd) : Nat := if i = 0 then 1 else h.cprms_present_flag

/-- clause 7.3.2.1 up to vps_extension_flag -/
def vps (ptl : StdPtl) (s : VpsBody) : List Bool :=
  seq [u 4 s.vps_video_parameter_set_id,
    u 1 s.vps_base_layer_internal_flag,
    u 1 s.vps_base_layer_available_flag,
    u 6 s.vps_max_layers_minus1,
    u 3 s.vps_max_sub_layers_minus1,
    u 1 s.vps_temporal_id_nesting_flag,
    u 16 s.vps_reserved_0xffff_16bits,
    profileTierLevel s.vps_max_sub_layers_minus1 ptl,
    u 1 s.vps_sub_layer_ordering_info_present_flag,
    list (fun o => seq [
      ue o.max_dec_pic_buffering_minus1,
      ue o.max_num_reorder_pics,
      ue o.max_latency_increase_plus1]) s.sub_layer_ordering,
    u 6 s.vps_max_layer_id,
    ue s.vps_num_layer_sets_minus1,
    list (list (u 1)) s.layer_id_included_flag,
    u 1 s.vps_timing_info_present_flag,
    ifThen (s.vps_timing_info_present_flag ≠ 0) [
      u 32 s.vps_num_units_in_tick,
      u 32 s.vps_time_scale,
      u 1 s.vps_poc_proportional_to_timing_flag,
      ifThen (s.vps_poc_proportional_to_timing_flag ≠ 0) [
        ue s.vps_num_ticks_poc_diff_one_minus1],
      ue s.vps_num_hrd_parameters,
      listI (fun i h => seq [
        ue h.hrd_layer_set_idx,
        ifThen (i > 0) [u 1 h.cprms_present_flag],
        hrdParameters (cprms i h) h.hrd_parameters]) 0 s.hrds],
    u 1 s.vps_extension_flag]

/-! ### seq_parameter_set_rbsp( ), clause 7.3.2.2 -/

/-- scaling_list_data( ), clause 7.3.4: matrixId steps by 3 for sizeId 3 (two matrices) and by 1 otherwise -/
def scalingListData (s : ScalingListData) : List Bool :=
  listI (fun sizeId => list (fun m => seq [
    u 1 m.scaling_list_pred_mode_flag,
    if m.scaling_list_pred_mode_flag = 0 then
      ue m.scaling_list_pred_matrix_id_delta
    else seq [
      ifThen (sizeId > 1) [se m.scaling_list_dc_coef_minus8],
      list (fun c => se c.delta) m.coefs]])) 0 s.sizes

/-- sps_scc_extension( ), clause 7.3.2.2.3 -/
def spsSccExtension (bit_depth_luma_minus8 bit_depth_chroma_minus8 : Nat) (s : SpsSccExtension) : List Bool :=
  seq [u 1 s.sps_curr_pic_ref_enabled_flag,
    u 1 s.palette_mode_enabled_flag,
    ifThen (s.palette_mode_enabled_flag ≠ 0) [
      ue s.palette_max_size,
      ue s.delta_palette_max_predictor_size,
      u 1 s.sps_palette_predictor_initializers_present_flag,
      ifThen (s.sps_palette_predictor_initializers_present_flag ≠ 0) [
        ue s.sps_num_palette_predictor_initializers_minus1,
        listI (fun comp => list (u (if comp = 0 then bit_depth_luma_minus8 + 8 else bit_depth_chroma_minus8 + 8))) 0
          s.sps_palette_predictor_initializers]],
    u 2 s.motion_vector_resolution_control_idc,
    u 1 s.intra_boundary_filtering_disabled_flag]

/-- clause 7.3.2.2.1 up to the extension data (for nuh_layer_id 0) -/
def sps (ptl : StdPtl) (s : SpsBody) : List Bool :=
  seq [u 4 s.sps_video_parameter_set_id,
    u 3 s.sps_max_sub_layers_minus1,
    u 1 s.sps_temporal_id_nesting_flag,
    profileTierLevel s.sps_max_sub_layers_minus1 ptl,
    ue s.sps_seq_parameter_set_id,
    ue s.chroma_format_idc,
    ifThen (s.chroma_format_idc = 3) [
      u 1 s.separate_colour_plane_flag],
    ue s.pic_width_in_luma_samples,
    ue s.pic_height_in_luma_samples,
    u 1 s.conformance_window_flag,
    ifThen (s.conformance_window_flag ≠ 0) [
      ue s.conf_win_left_offset,
      ue s.conf_win_right_offset,
      ue s.conf_win_top_offset,
      ue s.conf_win_bottom_offset],
    ue s.bit_depth_luma_minus8,
    ue s.bit_depth_chroma_minus8,
    ue s.log2_max_pic_order_cnt_lsb_minus4,
    u 1 s.sps_sub_layer_ordering_info_present_flag,
    list (fun o => seq [
      ue o.sps_max_dec_pic_buffering_minus1,
      ue o.sps_max_num_reorder_pics,
      ue o.sps_max_latency_increase_plus1]) s.sub_layer_ordering,
    ue s.log2_min_luma_coding_block_size_minus3,
    ue s.log2_diff_max_min_luma_coding_block_size,
    ue s.log2_min_luma_transform_block_size_minus2,
    ue s.log2_diff_max_min_luma_transform_block_size,
    ue s.max_transform_hierarchy_depth_inter,
    ue s.max_transform_hierarchy_depth_intra,
    u 1 s.scaling_list_enabled_flag,
    ifThen (s.scaling_list_enabled_flag ≠ 0) [
      u 1 s.sps_scaling_list_data_present_flag,
      ifThen (s.sps_scaling_list_data_present_flag ≠ 0) [
        optional scalingListData s.scaling_list_data]],
    u 1 s.amp_enabled_flag,
    u 1 s.sample_adaptive_offset_enabled_flag,
    u 1 s.pcm_enabled_flag,
    ifThen (s.pcm_enabled_flag ≠ 0) [
      u 4 s.pcm_sample_bit_depth_luma_minus1,
      u 4 s.pcm_sample_bit_depth_chroma_minus1,
      ue s.log2_min_pcm_luma_coding_block_size_minus3,
      ue s.log2_diff_max_min_pcm_luma_coding_block_size,
      u 1 s.pcm_loop_filter_disabled_flag],
    ue s.num_short_term_ref_pic_sets,
    stRefPicSets s.num_short_term_ref_pic_sets s.st_ref_pic_set,
    u 1 s.long_term_ref_pics_present_flag,
    ifThen (s.long_term_ref_pics_present_flag ≠ 0) [
      ue s.num_long_term_ref_pics_sps,
      list (fun e => seq [
        u (s.log2_max_pic_order_cnt_lsb_minus4 + 4) e.lt_ref_pic_poc_lsb_sps,
        u 1 e.used_by_curr_pic_lt_sps_flag]) s.lt_ref_pics],
    u 1 s.sps_temporal_mvp_enabled_flag,
    u 1 s.strong_intra_smoothing_enabled_flag,
    u 1 s.vui_parameters_present_flag,
    ifThen (s.vui_parameters_present_flag ≠ 0) [
      optional vuiParameters s.vui_parameters],
    u 1 s.sps_extension_present_flag,
    ifThen (s.sps_extension_present_flag ≠ 0) [
      u 1 s.sps_range_extension_flag,
      u 1 s.sps_multilayer_extension_flag,
      u 1 s.sps_3d_extension_flag,
      u 1 s.sps_scc_extension_flag,
      u 4 s.sps_extension_4bits],
    ifThen (s.sps_range_extension_flag ≠ 0) [
      optional spsRangeExtension s.sps_range_extension],
    ifThen (s.sps_multilayer_extension_flag ≠ 0) [
      optional spsMultilayerExtension s.sps_multilayer_extension],
    ifThen (s.sps_3d_extension_flag ≠ 0) [
      optional sps3dExtension s.sps_3d_extension],
    ifThen (s.sps_scc_extension_flag ≠ 0) [
      optional (spsSccExtension s.bit_depth_luma_minus8 s.bit_depth_chroma_minus8) s.sps_scc_extension]]

/-! ### pic_parameter_set_rbsp( ), clause 7.3.2.3 -/

/-- pps_scc_extension( ), clause 7.3.2.3.3 -/
def ppsSccExtension (s : PpsSccExtension) : List Bool :=
  seq [u 1 s.pps_curr_pic_ref_enabled_flag,
    u 1 s.residual_adaptive_colour_transform_enabled_flag,
    ifThen (s.residual_adaptive_colour_transform_enabled_flag ≠ 0) [
      u 1 s.pps_slice_act_qp_offsets_present_flag,
      se s.pps_act_y_qp_offset_plus5,
      se s.pps_act_cb_qp_offset_plus5,
      se s.pps_act_cr_qp_offset_plus3],
    u 1 s.pps_palette_predictor_initializer_present_flag,
    ifThen (s.pps_palette_predictor_initializer_present_flag ≠ 0) [
      ue s.pps_num_palette_predictor_initializer,
      ifThen (s.pps_num_palette_predictor_initializer > 0) [
        u 1 s.monochrome_palette_flag,
        ue s.luma_bit_depth_entry_minus8,
        ifThen (s.monochrome_palette_flag = 0) [
          ue s.chroma_bit_depth_entry_minus8],
        listI (fun comp => list (u (if comp = 0 then s.luma_bit_depth_entry_minus8 + 8 else s.chroma_bit_depth_entry_minus8 + 8))) 0
          s.pps_palette_predictor_initializers]]]

/-- clause F.7.3.2.3.4, the part of pps_multilayer_extension( ) for one reference location offset entry -/
def refLocOffset (s : RefLocOffset) : List Bool :=
  seq [u 6 s.ref_loc_offset_layer_id,
    u 1 s.scaled_ref_layer_offset_present_flag,
    ifThen (s.scaled_ref_layer_offset_present_flag ≠ 0) [
      optional (fun o : RefLayerOffsets => seq [se o.scaled_ref_layer_left_offset, se o.scaled_ref_layer_top_offset,
        se o.scaled_ref_layer_right_offset, se o.scaled_ref_layer_bottom_offset]) s.scaled_ref_layer_offset],
    u 1 s.ref_region_offset_present_flag,
    ifThen (s.ref_region_offset_present_flag ≠ 0) [
      optional (fun o : RefRegionOffsets => seq [se o.ref_region_left_offset, se o.ref_region_top_offset,
        se o.ref_region_right_offset, se o.ref_region_bottom_offset]) s.ref_region_offset],
    u 1 s.resample_phase_set_present_flag,
    ifThen (s.resample_phase_set_present_flag ≠ 0) [
      optional (fun o : ResamplePhase => seq [ue o.phase_hor_luma.toNat, ue o.phase_ver_luma.toNat,
        ue o.phase_hor_chroma_plus8.toNat, ue o.phase_ver_chroma_plus8.toNat]) s.resample_phase_set]]

/-- clause F.7.3.2.3.4, for an extension whose colour_mapping_enabled_flag is 0 -/
def ppsMultilayerExtension (s : PpsMultilayerExtension) : List Bool :=
  seq [u 1 s.poc_reset_info_present_flag,
    u 1 s.pps_infer_scaling_list_flag,
    ifThen (s.pps_infer_scaling_list_flag ≠ 0) [
      u 6 s.pps_scaling_list_ref_layer_id],
    ue s.num_ref_loc_offsets,
    list refLocOffset s.ref_loc_offset,
    u 1 s.colour_mapping_enabled_flag]

/-- clause 7.3.2.3.1 up to the extension data, for a PPS whose pps_range_extension_flag and pps_3d_extension_flag are 0 -/
def pps (p : PpsBody) : List Bool :=
  let s := p.head
  seq [ue s.pps_pic_parameter_set_id,
    ue s.pps_seq_parameter_set_id,
    u 1 s.dependent_slice_segments_enabled_flag,
    u 1 s.output_flag_present_flag,
    u 3 s.num_extra_slice_header_bits,
    u 1 s.sign_data_hiding_enabled_flag,
    u 1 s.cabac_init_present_flag,
    ue s.num_ref_idx_l0_default_active_minus1,
    ue s.num_ref_idx_l1_default_active_minus1,
    se s.init_qp_minus26,
    u 1 s.constrained_intra_pred_flag,
    u 1 s.transform_skip_enabled_flag,
    u 1 s.cu_qp_delta_enabled_flag,
    ifThen (s.cu_qp_delta_enabled_flag ≠ 0) [
      ue s.diff_cu_qp_delta_depth],
    se s.pps_cb_qp_offset,
    se s.pps_cr_qp_offset,
    u 1 s.pps_slice_chroma_qp_offsets_present_flag,
    u 1 s.weighted_pred_flag,
    u 1 s.weighted_bipred_flag,
    u 1 s.transquant_bypass_enabled_flag,
    u 1 s.tiles_enabled_flag,
    u 1 s.entropy_coding_sync_enabled_flag,
    ifThen (s.tiles_enabled_flag ≠ 0) [
      ue s.num_tile_columns_minus1,
      ue s.num_tile_rows_minus1,
      u 1 s.uniform_spacing_flag,
      ifThen (s.uniform_spacing_flag = 0) [
        list ue s.column_width_minus1,
        list ue s.row_height_minus1],
      u 1 s.loop_filter_across_tiles_enabled_flag],
    u 1 s.pps_loop_filter_across_slices_enabled_flag,
    u 1 s.deblocking_filter_control_present_flag,
    ifThen (s.deblocking_filter_control_present_flag ≠ 0) [
      u 1 s.deblocking_filter_override_enabled_flag,
      u 1 s.pps_deblocking_filter_disabled_flag,
      ifThen (s.pps_deblocking_filter_disabled_flag = 0) [
        se s.pps_beta_offset_div2,
        se s.pps_tc_offset_div2]],
    u 1 s.pps_scaling_list_data_present_flag,
    ifThen (s.pps_scaling_list_data_present_flag ≠ 0) [
      optional scalingListData s.scaling_list_data],
    u 1 s.lists_modification_present_flag,
    ue s.log2_parallel_merge_level_minus2,
    u 1 s.slice_segment_header_extension_present_flag,
    u 1 s.pps_extension_present_flag,
    ifThen (s.pps_extension_present_flag ≠ 0) [
      u 1 s.pps_range_extension_flag,
      u 1 s.pps_multilayer_extension_flag,
      u 1 s.pps_3d_extension_flag,
      u 1 s.pps_scc_extension_flag,
      u 4 s.pps_extension_4bits],
    ifThen (s.pps_multilayer_extension_flag ≠ 0) [
      optional ppsMultilayerExtension p.pps_multilayer_extension],
    ifThen (s.pps_scc_extension_flag ≠ 0) [
      optional ppsSccExtension p.pps_scc_extension]]

/-! ### slice_segment_header( ), clause 7.3.6.1 -/

/-- The syntax elements of a slice segment header that the library does not read: ref_pic_lists_modification( ) (clause 7.3.6.2) and
the list 1 part of pred_weight_table( ) (clause 7.3.6.3). -/
structure SliceExtra where
  ref_pic_list_modification_flag_l0 : Nat
  list_entry_l0 : List Nat
  ref_pic_list_modification_flag_l1 : Nat
  list_entry_l1 : List Nat
  luma_weight_l1_flag : List Nat
  chroma_weight_l1_flag : List Nat
  weights_l1 : List PredWeight
  deriving DecidableEq, Repr, Inhabited

/-- ChromaArrayType, clause 7.4.3.2.1 -/
def chromaArrayType (s : SpsBody) : Nat := if s.separate_colour_plane_flag = 1 then 0 else s.chroma_format_idc

/-- CtbSizeY, equations 7-10 to 7-13 -/
def ctbSizeY (s : SpsBody) : Nat := 2 ^ (s.log2_min_luma_coding_block_size_minus3 + 3 + s.log2_diff_max_min_luma_coding_block_size)
/-- PicWidthInCtbsY, equation 7-15 -/
def picWidthInCtbsY (s : SpsBody) : Nat := ceilDivide s.pic_width_in_luma_samples (ctbSizeY s)
/-- PicHeightInCtbsY, equation 7-17 -/
def picHeightInCtbsY (s : SpsBody) : Nat := ceilDivide s.pic_height_in_luma_samples (ctbSizeY s)
/-- PicSizeInCtbsY, equation 7-19 -/
def picSizeInCtbsY (s : SpsBody) : Nat := picWidthInCtbsY s * picHeightInCtbsY s

/-- motion_vector_resolution_control_idc of the SPS, inferred to be 0 when not present -/
def mvResolution (s : SpsBody) : Nat := (s.sps_scc_extension.map (·.motion_vector_resolution_control_idc)).getD 0
/-- pps_slice_act_qp_offsets_present_flag of the PPS, inferred to be 0 when not present -/
def actOffsetsPresent (p : PpsBody) : Nat := (p.pps_scc_extension.map (·.pps_slice_act_qp_offsets_present_flag)).getD 0
/-- pps_curr_pic_ref_enabled_flag of the PPS, inferred to be 0 when not present -/
def currPicRef (p : PpsBody) : Nat := (p.pps_scc_extension.map (·.pps_curr_pic_ref_enabled_flag)).getD 0

/-- the number of elements that are 1 -/
def countOnes (l : List Nat) : Nat := (l.filter (· = 1)).length

/-- the short-term RPS of the slice: its own, or the one of the SPS it selects (CurrRpsIdx, clause 7.4.7.1) -/
def currRps (S : SpsBody) (s : SliceBody) : StRefPicSet :=
  if s.short_term_ref_pic_set_sps_flag = 0 then s.st_ref_pic_set.getD default
  else S.st_ref_pic_set.getD s.short_term_ref_pic_set_idx default

/-- UsedByCurrPicLt, clause 7.4.7.1 -/
def usedByCurrPicLt (S : SpsBody) (s : SliceBody) : List Nat :=
  s.lt_ref_pics.mapIdx fun i l =>
    if i < s.num_long_term_sps then (S.lt_ref_pics.getD l.head.lt_idx_sps default).used_by_curr_pic_lt_sps_flag else l.head.used_by_curr_pic_lt_flag

/-- NumPicTotalCurr, equation 7-55 -/
def numPicTotalCurr (nal_unit_type : Nat) (P : PpsBody) (S : SpsBody) (s : SliceBody) : Nat :=
  (if nal_unit_type ≠ 19 ∧ nal_unit_type ≠ 20 then
    countOnes ((currRps S s).s0.map (·.used_by_curr_pic)) + countOnes ((currRps S s).s1.map (·.used_by_curr_pic)) + countOnes (usedByCurrPicLt S s)
  else 0) + currPicRef P

/-- num_ref_idx_l0_active_minus1, inferred from the PPS when not present -/
def numRefIdxL0 (P : PpsBody) (s : SliceBody) : Nat :=
  if s.num_ref_idx_active_override_flag ≠ 0 then s.num_ref_idx_l0_active_minus1 else P.head.num_ref_idx_l0_default_active_minus1
/-- num_ref_idx_l1_active_minus1, inferred from the PPS when not present -/
def numRefIdxL1 (P : PpsBody) (s : SliceBody) : Nat :=
  if s.num_ref_idx_active_override_flag ≠ 0 then s.num_ref_idx_l1_active_minus1 else P.head.num_ref_idx_l1_default_active_minus1
/-- slice_deblocking_filter_disabled_flag, inferred from the PPS when not present -/
def deblockingDisabled (P : PpsBody) (s : SliceBody) : Nat :=
  if s.deblocking_filter_override_flag ≠ 0 then s.slice_deblocking_filter_disabled_flag else P.head.pps_deblocking_filter_disabled_flag
/-- collocated_from_l0_flag, inferred to be 1 when not present -/
def collocatedFromL0 (s : SliceBody) : Nat := if s.slice_type = 0 then s.collocated_from_l0_flag else 1

/-- weights and offsets of one reference picture, clause 7.3.6.3 -/
def predWeight (w : PredWeight) : List Bool :=
  seq [optional (fun l => seq [se l.delta_luma_weight_l0, se l.luma_offset_l0]) w.luma,
    optional (fun c => seq [se c.delta_chroma_weight_l0_0, se c.delta_chroma_offset_l0_0,
      se c.delta_chroma_weight_l0_1, se c.delta_chroma_offset_l0_1]) w.chroma]

/-- pred_weight_table( ), clause 7.3.6.3 (for a single-layer bitstream without current picture referencing, where the flags of
all reference pictures are present); slice_type 0 is B -/
def predWeightTable (cat slice_type : Nat) (t : PredWeightTable) (x : SliceExtra) : List Bool :=
  seq [ue t.luma_log2_weight_denom,
    ifThen (cat ≠ 0) [se t.delta_chroma_log2_weight_denom],
    list (u 1) t.luma_weight_l0_flag,
    ifThen (cat ≠ 0) [list (u 1) t.chroma_weight_l0_flag],
    list predWeight t.weights,
    ifThen (slice_type = 0) [
      list (u 1) x.luma_weight_l1_flag,
      ifThen (cat ≠ 0) [list (u 1) x.chroma_weight_l1_flag],
      list predWeight x.weights_l1]]

/-- ref_pic_lists_modification( ), clause 7.3.6.2 -/
def refPicListsModification (total slice_type : Nat) (x : SliceExtra) : List Bool :=
  seq [u 1 x.ref_pic_list_modification_flag_l0,
    ifThen (x.ref_pic_list_modification_flag_l0 ≠ 0) [list (u (ceilLog2 total)) x.list_entry_l0],
    ifThen (slice_type = 0) [
      u 1 x.ref_pic_list_modification_flag_l1,
      ifThen (x.ref_pic_list_modification_flag_l1 ≠ 0) [list (u (ceilLog2 total)) x.list_entry_l1]]]

/-- clause 7.3.6.1 without byte_alignment( ).  slice_type: 0 = B, 1 = P, 2 = I; nal_unit_type 19, 20 = IDR;
chroma_qp_offset_list_enabled_flag is 0 (no PPS range extension). -/
def sliceSegmentHeader (nal_unit_type : Nat) (P : PpsBody) (S : SpsBody) (hd : SliceHead) (s : SliceBody) (x : SliceExtra) : List Bool :=
  seq [u 1 hd.first_slice_segment_in_pic_flag,
    ifThen (16 ≤ nal_unit_type ∧ nal_unit_type ≤ 23) [
      u 1 hd.no_output_of_prior_pics_flag],
    ue hd.slice_pic_parameter_set_id,
    ifThen (hd.first_slice_segment_in_pic_flag = 0) [
      ifThen (P.head.dependent_slice_segments_enabled_flag ≠ 0) [
        u 1 s.dependent_slice_segment_flag],
      u (ceilLog2 (picSizeInCtbsY S)) s.slice_segment_address],
    ifThen (s.dependent_slice_segment_flag = 0) [
      list (u 1) s.slice_reserved_flag,
      ue s.slice_type,
      ifThen (P.head.output_flag_present_flag ≠ 0) [
        u 1 s.pic_output_flag],
      ifThen (S.separate_colour_plane_flag = 1) [
        u 2 s.colour_plane_id],
      ifThen (nal_unit_type ≠ 19 ∧ nal_unit_type ≠ 20) [
        u (S.log2_max_pic_order_cnt_lsb_minus4 + 4) s.slice_pic_order_cnt_lsb,
        u 1 s.short_term_ref_pic_set_sps_flag,
        if s.short_term_ref_pic_set_sps_flag = 0 then
          optional (stRefPicSet S.num_short_term_ref_pic_sets S.num_short_term_ref_pic_sets) s.st_ref_pic_set
        else
          ifThen (S.num_short_term_ref_pic_sets > 1) [
            u (ceilLog2 S.num_short_term_ref_pic_sets) s.short_term_ref_pic_set_idx],
        ifThen (S.long_term_ref_pics_present_flag ≠ 0) [
          ifThen (S.num_long_term_ref_pics_sps > 0) [
            ue s.num_long_term_sps],
          ue s.num_long_term_pics,
          listI (fun i l => seq [
            if i < s.num_long_term_sps then
              ifThen (S.num_long_term_ref_pics_sps > 1) [
                u (ceilLog2 S.num_long_term_ref_pics_sps) l.head.lt_idx_sps]
            else seq [
              u (S.log2_max_pic_order_cnt_lsb_minus4 + 4) l.head.poc_lsb_lt,
              u 1 l.head.used_by_curr_pic_lt_flag],
            u 1 l.head.delta_poc_msb_present_flag,
            ifThen (l.head.delta_poc_msb_present_flag ≠ 0) [
              ue l.delta_poc_msb_cycle_lt]]) 0 s.lt_ref_pics],
        ifThen (S.sps_temporal_mvp_enabled_flag ≠ 0) [
          u 1 s.slice_temporal_mvp_enabled_flag]],
      ifThen (S.sample_adaptive_offset_enabled_flag ≠ 0) [
        u 1 s.slice_sao_luma_flag,
        ifThen (chromaArrayType S ≠ 0) [
          u 1 s.slice_sao_chroma_flag]],
      ifThen (s.slice_type = 1 ∨ s.slice_type = 0) [
        u 1 s.num_ref_idx_active_override_flag,
        ifThen (s.num_ref_idx_active_override_flag ≠ 0) [
          ue s.num_ref_idx_l0_active_minus1,
          ifThen (s.slice_type = 0) [
            ue s.num_ref_idx_l1_active_minus1]],
        ifThen (P.head.lists_modification_present_flag ≠ 0 ∧ numPicTotalCurr nal_unit_type P S s > 1) [
          refPicListsModification (numPicTotalCurr nal_unit_type P S s) s.slice_type x],
        ifThen (s.slice_type = 0) [
          u 1 s.mvd_l1_zero_flag],
        ifThen (P.head.cabac_init_present_flag ≠ 0) [
          u 1 s.cabac_init_flag],
        ifThen (s.slice_temporal_mvp_enabled_flag ≠ 0) [
          ifThen (s.slice_type = 0) [
            u 1 s.collocated_from_l0_flag],
          ifThen ((collocatedFromL0 s ≠ 0 ∧ numRefIdxL0 P s > 0) ∨ (collocatedFromL0 s = 0 ∧ numRefIdxL1 P s > 0)) [
            ue s.collocated_ref_idx]],
        ifThen ((P.head.weighted_pred_flag ≠ 0 ∧ s.slice_type = 1) ∨ (P.head.weighted_bipred_flag ≠ 0 ∧ s.slice_type = 0)) [
          optional (fun t => predWeightTable (chromaArrayType S) s.slice_type t x) s.pred_weight_table],
        ue s.five_minus_max_num_merge_cand,
        ifThen (mvResolution S = 2) [
          u 1 s.use_integer_mv_flag]],
      se s.slice_qp_delta,
      ifThen (P.head.pps_slice_chroma_qp_offsets_present_flag ≠ 0) [
        se s.slice_cb_qp_offset,
        se s.slice_cr_qp_offset],
      ifThen (actOffsetsPresent P ≠ 0) [
        se s.slice_act_y_qp_offset,
        se s.slice_act_cb_qp_offset,
        se s.slice_act_cr_qp_offset],
      ifThen (P.head.deblocking_filter_override_enabled_flag ≠ 0) [
        u 1 s.deblocking_filter_override_flag],
      ifThen (s.deblocking_filter_override_flag ≠ 0) [
        u 1 s.slice_deblocking_filter_disabled_flag,
        ifThen (s.slice_deblocking_filter_disabled_flag = 0) [
          se s.slice_beta_offset_div2,
          se s.slice_tc_offset_div2]],
      ifThen (P.head.pps_loop_filter_across_slices_enabled_flag ≠ 0 ∧
          (s.slice_sao_luma_flag ≠ 0 ∨ s.slice_sao_chroma_flag ≠ 0 ∨ deblockingDisabled P s = 0)) [
        u 1 s.slice_loop_filter_across_slices_enabled_flag]],
    ifThen (P.head.tiles_enabled_flag ≠ 0 ∨ P.head.entropy_coding_sync_enabled_flag ≠ 0) [
      ue s.num_entry_point_offsets,
      ifThen (s.num_entry_point_offsets > 0) [
        ue s.offset_len_minus1,
        list (u (s.offset_len_minus1 + 1)) s.entry_point_offset_minus1]],
    ifThen (P.head.slice_segment_header_extension_present_flag ≠ 0) [
      ue s.slice_segment_header_extension_length,
      list (u 8) s.slice_segment_header_extension_data_byte]]

end Std
end H265
