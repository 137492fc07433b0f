/-
Syntax of the sequence parameter set (clause 7.3.2.2).
-/
import Verif.Spec.Vui
import Verif.Spec.Headers
import Verif.Spec.SpsExt
import Verif.Spec.Scaling
import Verif.Spec.Rps

namespace H265
open Spec

/-- One entry of the vectors sps_max_dec_pic_buffering_minus1, sps_max_num_reorder_pics, sps_max_latency_increase_plus1 (pushed in
lockstep). -/
structure SpsSubLayerOrdering where
  sps_max_dec_pic_buffering_minus1 : Nat
  sps_max_num_reorder_pics : Nat
  sps_max_latency_increase_plus1 : Nat
  deriving DecidableEq, Repr, Inhabited

namespace Spec
/-- one entry of the sub-layer ordering info loop, clause 7.3.2.2 -/
def spsSubLayerOrdering (s : SpsSubLayerOrdering) : List Bool :=
  seq [ue s.sps_max_dec_pic_buffering_minus1,
    ue s.sps_max_num_reorder_pics,
    ue s.sps_max_latency_increase_plus1]

/-- ranges -/
structure ValidSpsSubLayerOrdering (s : SpsSubLayerOrdering) : Prop where
  sps_max_dec_pic_buffering_minus1 : 0 ≤ s.sps_max_dec_pic_buffering_minus1 ∧ s.sps_max_dec_pic_buffering_minus1 ≤ 15
  sps_max_num_reorder_pics : s.sps_max_num_reorder_pics < 2 ^ 32 - 1
  sps_max_latency_increase_plus1 : s.sps_max_latency_increase_plus1 < 2 ^ 32 - 1
end Spec

/-- One entry of the vectors lt_ref_pic_poc_lsb_sps and used_by_curr_pic_lt_sps_flag (pushed in lockstep). -/
structure LtRefPicSps where
  lt_ref_pic_poc_lsb_sps : Nat
  used_by_curr_pic_lt_sps_flag : Nat
  deriving DecidableEq, Repr, Inhabited

namespace Spec
/-- one long-term picture of the SPS, clause 7.3.2.2 -/
def ltRefPicSps (len : Nat) (s : LtRefPicSps) : List Bool :=
  seq [u (len) s.lt_ref_pic_poc_lsb_sps,
    u 1 s.used_by_curr_pic_lt_sps_flag]

/-- ranges -/
structure ValidLtRefPicSps (len : Nat) (s : LtRefPicSps) : Prop where
  lt_ref_pic_poc_lsb_sps : s.lt_ref_pic_poc_lsb_sps < 2 ^ (len)
  used_by_curr_pic_lt_sps_flag : s.used_by_curr_pic_lt_sps_flag < 2 ^ 1
end Spec

/-- `SpsState`, include/h265_sps_parser.h:60-146, without the extension data flag. -/
structure SpsBody where
  sps_video_parameter_set_id : Nat
  sps_max_sub_layers_minus1 : Nat
  sps_temporal_id_nesting_flag : Nat
  profile_tier_level : ProfileTierLevel
  sps_seq_parameter_set_id : Nat
  chroma_format_idc : Nat
  separate_colour_plane_flag : Nat
  pic_width_in_luma_samples : Nat
  pic_height_in_luma_samples : Nat
  conformance_window_flag : Nat
  conf_win_left_offset : Nat
  conf_win_right_offset : Nat
  conf_win_top_offset : Nat
  conf_win_bottom_offset : Nat
  bit_depth_luma_minus8 : Nat
  bit_depth_chroma_minus8 : Nat
  log2_max_pic_order_cnt_lsb_minus4 : Nat
  sps_sub_layer_ordering_info_present_flag : Nat
  sub_layer_ordering : List SpsSubLayerOrdering
  log2_min_luma_coding_block_size_minus3 : Nat
  log2_diff_max_min_luma_coding_block_size : Nat
  log2_min_luma_transform_block_size_minus2 : Nat
  log2_diff_max_min_luma_transform_block_size : Nat
  max_transform_hierarchy_depth_inter : Nat
  max_transform_hierarchy_depth_intra : Nat
  scaling_list_enabled_flag : Nat
  sps_scaling_list_data_present_flag : Nat
  scaling_list_data : Option ScalingListData
  amp_enabled_flag : Nat
  sample_adaptive_offset_enabled_flag : Nat
  pcm_enabled_flag : Nat
  pcm_sample_bit_depth_luma_minus1 : Nat
  pcm_sample_bit_depth_chroma_minus1 : Nat
  log2_min_pcm_luma_coding_block_size_minus3 : Nat
  log2_diff_max_min_pcm_luma_coding_block_size : Nat
  pcm_loop_filter_disabled_flag : Nat
  num_short_term_ref_pic_sets : Nat
  st_ref_pic_set : List StRefPicSet
  long_term_ref_pics_present_flag : Nat
  num_long_term_ref_pics_sps : Nat
  lt_ref_pics : List LtRefPicSps
  sps_temporal_mvp_enabled_flag : Nat
  strong_intra_smoothing_enabled_flag : Nat
  vui_parameters_present_flag : Nat
  vui_parameters : Option VuiParameters
  sps_extension_present_flag : Nat
  sps_range_extension_flag : Nat
  sps_multilayer_extension_flag : Nat
  sps_3d_extension_flag : Nat
  sps_scc_extension_flag : Nat
  sps_extension_4bits : Nat
  sps_range_extension : Option SpsRangeExtension
  sps_multilayer_extension : Option SpsMultilayerExtension
  sps_3d_extension : Option Sps3dExtension
  sps_scc_extension : Option SpsSccExtension
  deriving DecidableEq, Repr, Inhabited

namespace Spec
/-- seq_parameter_set_rbsp() up to the extension data, clause 7.3.2.2 -/
def spsBody (s : SpsBody) : List Bool :=
  seq [u 4 s.sps_video_parameter_set_id,
    u 3 s.sps_max_sub_layers_minus1,
    u 1 s.sps_temporal_id_nesting_flag,
    profileTierLevel s.profile_tier_level,
    ue s.sps_seq_parameter_set_id,
    ue s.chroma_format_idc,
    cond (s.chroma_format_idc = 3) (u 1 s.separate_colour_plane_flag),
    ue s.pic_width_in_luma_samples,
    ue s.pic_height_in_luma_samples,
    u 1 s.conformance_window_flag,
    cond (s.conformance_window_flag ≠ 0) (ue s.conf_win_left_offset),
    cond (s.conformance_window_flag ≠ 0) (ue s.conf_win_right_offset),
    cond (s.conformance_window_flag ≠ 0) (ue s.conf_win_top_offset),
    cond (s.conformance_window_flag ≠ 0) (ue s.conf_win_bottom_offset),
    ue s.bit_depth_luma_minus8,
    ue s.bit_depth_chroma_minus8,
    ue s.log2_max_pic_order_cnt_lsb_minus4,
    u 1 s.sps_sub_layer_ordering_info_present_flag,
    list spsSubLayerOrdering s.sub_layer_ordering,
    ue s.log2_min_luma_coding_block_size_minus3,
    ue s.log2_diff_max_min_luma_coding_block_size,
    ue s.log2_min_luma_transform_block_size_minus2,
    ue s.log2_diff_max_min_luma_transform_block_size,
    ue s.max_transform_hierarchy_depth_inter,
    ue s.max_transform_hierarchy_depth_intra,
    u 1 s.scaling_list_enabled_flag,
    cond (s.scaling_list_enabled_flag ≠ 0) (u 1 s.sps_scaling_list_data_present_flag),
    optional scalingListData s.scaling_list_data,
    u 1 s.amp_enabled_flag,
    u 1 s.sample_adaptive_offset_enabled_flag,
    u 1 s.pcm_enabled_flag,
    cond (s.pcm_enabled_flag ≠ 0) (u 4 s.pcm_sample_bit_depth_luma_minus1),
    cond (s.pcm_enabled_flag ≠ 0) (u 4 s.pcm_sample_bit_depth_chroma_minus1),
    cond (s.pcm_enabled_flag ≠ 0) (ue s.log2_min_pcm_luma_coding_block_size_minus3),
    cond (s.pcm_enabled_flag ≠ 0) (ue s.log2_diff_max_min_pcm_luma_coding_block_size),
    cond (s.pcm_enabled_flag ≠ 0) (u 1 s.pcm_loop_filter_disabled_flag),
    ue s.num_short_term_ref_pic_sets,
    stRefPicSets s.num_short_term_ref_pic_sets s.st_ref_pic_set,
    u 1 s.long_term_ref_pics_present_flag,
    cond (s.long_term_ref_pics_present_flag ≠ 0) (ue s.num_long_term_ref_pics_sps),
    list (ltRefPicSps (s.log2_max_pic_order_cnt_lsb_minus4 + 4)) s.lt_ref_pics,
    u 1 s.sps_temporal_mvp_enabled_flag,
    u 1 s.strong_intra_smoothing_enabled_flag,
    u 1 s.vui_parameters_present_flag,
    optional vuiParameters s.vui_parameters,
    u 1 s.sps_extension_present_flag,
    cond (s.sps_extension_present_flag ≠ 0) (u 1 s.sps_range_extension_flag),
    cond (s.sps_extension_present_flag ≠ 0) (u 1 s.sps_multilayer_extension_flag),
    cond (s.sps_extension_present_flag ≠ 0) (u 1 s.sps_3d_extension_flag),
    cond (s.sps_extension_present_flag ≠ 0) (u 1 s.sps_scc_extension_flag),
    cond (s.sps_extension_present_flag ≠ 0) (u 4 s.sps_extension_4bits),
    optional spsRangeExtension s.sps_range_extension,
    optional spsMultilayerExtension s.sps_multilayer_extension,
    optional sps3dExtension s.sps_3d_extension,
    optional (spsSccExtension s.bit_depth_luma_minus8 s.bit_depth_chroma_minus8) s.sps_scc_extension]

/-- ranges -/
structure ValidSpsBody (s : SpsBody) : Prop where
  sps_video_parameter_set_id : s.sps_video_parameter_set_id < 2 ^ 4
  sps_max_sub_layers_minus1 : s.sps_max_sub_layers_minus1 < 2 ^ 3
  sps_temporal_id_nesting_flag : s.sps_temporal_id_nesting_flag < 2 ^ 1
  profile_tier_level : ValidProfileTierLevel true s.sps_max_sub_layers_minus1 s.profile_tier_level
  sps_seq_parameter_set_id : 0 ≤ s.sps_seq_parameter_set_id ∧ s.sps_seq_parameter_set_id ≤ 15
  chroma_format_idc : 0 ≤ s.chroma_format_idc ∧ s.chroma_format_idc ≤ 3
  separate_colour_plane_flag : Opt (s.chroma_format_idc = 3) (s.separate_colour_plane_flag < 2 ^ 1) (s.separate_colour_plane_flag = 0)
  pic_width_in_luma_samples : 1 ≤ s.pic_width_in_luma_samples ∧ s.pic_width_in_luma_samples ≤ 16888
  pic_width_multiple : 8 * (s.pic_width_in_luma_samples / 8) = s.pic_width_in_luma_samples
  pic_height_in_luma_samples : 1 ≤ s.pic_height_in_luma_samples ∧ s.pic_height_in_luma_samples ≤ 16888
  pic_height_multiple : 8 * (s.pic_height_in_luma_samples / 8) = s.pic_height_in_luma_samples
  conformance_window_flag : s.conformance_window_flag < 2 ^ 1
  conf_win_left_offset : Opt (s.conformance_window_flag ≠ 0) (0 ≤ s.conf_win_left_offset ∧ s.conf_win_left_offset ≤ s.pic_width_in_luma_samples) (s.conf_win_left_offset = 0)
  conf_win_right_offset : Opt (s.conformance_window_flag ≠ 0) (0 ≤ s.conf_win_right_offset ∧ s.conf_win_right_offset ≤ s.pic_width_in_luma_samples) (s.conf_win_right_offset = 0)
  conf_win_top_offset : Opt (s.conformance_window_flag ≠ 0) (0 ≤ s.conf_win_top_offset ∧ s.conf_win_top_offset ≤ s.pic_height_in_luma_samples) (s.conf_win_top_offset = 0)
  conf_win_bottom_offset : Opt (s.conformance_window_flag ≠ 0) (0 ≤ s.conf_win_bottom_offset ∧ s.conf_win_bottom_offset ≤ s.pic_height_in_luma_samples) (s.conf_win_bottom_offset = 0)
  bit_depth_luma_minus8 : 0 ≤ s.bit_depth_luma_minus8 ∧ s.bit_depth_luma_minus8 ≤ 8
  bit_depth_chroma_minus8 : 0 ≤ s.bit_depth_chroma_minus8 ∧ s.bit_depth_chroma_minus8 ≤ 8
  log2_max_pic_order_cnt_lsb_minus4 : 0 ≤ s.log2_max_pic_order_cnt_lsb_minus4 ∧ s.log2_max_pic_order_cnt_lsb_minus4 ≤ 12
  sps_sub_layer_ordering_info_present_flag : s.sps_sub_layer_ordering_info_present_flag < 2 ^ 1
  sub_layer_ordering : Each (if s.sps_sub_layer_ordering_info_present_flag ≠ 0 then s.sps_max_sub_layers_minus1 + 1 else 1) ValidSpsSubLayerOrdering s.sub_layer_ordering
  log2_min_luma_coding_block_size_minus3 : 0 ≤ s.log2_min_luma_coding_block_size_minus3 ∧ s.log2_min_luma_coding_block_size_minus3 ≤ 3
  log2_diff_max_min_luma_coding_block_size : 0 ≤ s.log2_diff_max_min_luma_coding_block_size ∧ s.log2_diff_max_min_luma_coding_block_size ≤ 3
  log2_min_luma_transform_block_size_minus2 : s.log2_min_luma_transform_block_size_minus2 < 2 ^ 32 - 1
  log2_diff_max_min_luma_transform_block_size : s.log2_diff_max_min_luma_transform_block_size < 2 ^ 32 - 1
  max_transform_hierarchy_depth_inter : s.max_transform_hierarchy_depth_inter < 2 ^ 32 - 1
  max_transform_hierarchy_depth_intra : s.max_transform_hierarchy_depth_intra < 2 ^ 32 - 1
  scaling_list_enabled_flag : s.scaling_list_enabled_flag < 2 ^ 1
  sps_scaling_list_data_present_flag : Opt (s.scaling_list_enabled_flag ≠ 0) (s.sps_scaling_list_data_present_flag < 2 ^ 1) (s.sps_scaling_list_data_present_flag = 0)
  scaling_list_data : Maybe (s.sps_scaling_list_data_present_flag ≠ 0) ValidScalingListData s.scaling_list_data
  amp_enabled_flag : s.amp_enabled_flag < 2 ^ 1
  sample_adaptive_offset_enabled_flag : s.sample_adaptive_offset_enabled_flag < 2 ^ 1
  pcm_enabled_flag : s.pcm_enabled_flag < 2 ^ 1
  pcm_sample_bit_depth_luma_minus1 : Opt (s.pcm_enabled_flag ≠ 0) (s.pcm_sample_bit_depth_luma_minus1 < 2 ^ 4) (s.pcm_sample_bit_depth_luma_minus1 = 0)
  pcm_sample_bit_depth_chroma_minus1 : Opt (s.pcm_enabled_flag ≠ 0) (s.pcm_sample_bit_depth_chroma_minus1 < 2 ^ 4) (s.pcm_sample_bit_depth_chroma_minus1 = 0)
  log2_min_pcm_luma_coding_block_size_minus3 : Opt (s.pcm_enabled_flag ≠ 0) (s.log2_min_pcm_luma_coding_block_size_minus3 < 2 ^ 32 - 1) (s.log2_min_pcm_luma_coding_block_size_minus3 = 0)
  log2_diff_max_min_pcm_luma_coding_block_size : Opt (s.pcm_enabled_flag ≠ 0) (s.log2_diff_max_min_pcm_luma_coding_block_size < 2 ^ 32 - 1) (s.log2_diff_max_min_pcm_luma_coding_block_size = 0)
  pcm_loop_filter_disabled_flag : Opt (s.pcm_enabled_flag ≠ 0) (s.pcm_loop_filter_disabled_flag < 2 ^ 1) (s.pcm_loop_filter_disabled_flag = 0)
  num_short_term_ref_pic_sets : 0 ≤ s.num_short_term_ref_pic_sets ∧ s.num_short_term_ref_pic_sets ≤ 64
  st_ref_pic_set : ValidStRefPicSets s.num_short_term_ref_pic_sets 15 s.st_ref_pic_set
  long_term_ref_pics_present_flag : s.long_term_ref_pics_present_flag < 2 ^ 1
  num_long_term_ref_pics_sps : Opt (s.long_term_ref_pics_present_flag ≠ 0) (0 ≤ s.num_long_term_ref_pics_sps ∧ s.num_long_term_ref_pics_sps ≤ 32) (s.num_long_term_ref_pics_sps = 0)
  lt_ref_pics : Each (s.num_long_term_ref_pics_sps) (ValidLtRefPicSps (s.log2_max_pic_order_cnt_lsb_minus4 + 4)) s.lt_ref_pics
  sps_temporal_mvp_enabled_flag : s.sps_temporal_mvp_enabled_flag < 2 ^ 1
  strong_intra_smoothing_enabled_flag : s.strong_intra_smoothing_enabled_flag < 2 ^ 1
  vui_parameters_present_flag : s.vui_parameters_present_flag < 2 ^ 1
  vui_parameters : Maybe (s.vui_parameters_present_flag ≠ 0) (ValidVuiParameters s.sps_max_sub_layers_minus1) s.vui_parameters
  sps_extension_present_flag : s.sps_extension_present_flag < 2 ^ 1
  sps_range_extension_flag : Opt (s.sps_extension_present_flag ≠ 0) (s.sps_range_extension_flag < 2 ^ 1) (s.sps_range_extension_flag = 0)
  sps_multilayer_extension_flag : Opt (s.sps_extension_present_flag ≠ 0) (s.sps_multilayer_extension_flag < 2 ^ 1) (s.sps_multilayer_extension_flag = 0)
  sps_3d_extension_flag : Opt (s.sps_extension_present_flag ≠ 0) (s.sps_3d_extension_flag < 2 ^ 1) (s.sps_3d_extension_flag = 0)
  sps_scc_extension_flag : Opt (s.sps_extension_present_flag ≠ 0) (s.sps_scc_extension_flag < 2 ^ 1) (s.sps_scc_extension_flag = 0)
  sps_extension_4bits : Opt (s.sps_extension_present_flag ≠ 0) (s.sps_extension_4bits < 2 ^ 4) (s.sps_extension_4bits = 0)
  sps_range_extension : Maybe (s.sps_range_extension_flag ≠ 0) ValidSpsRangeExtension s.sps_range_extension
  sps_multilayer_extension : Maybe (s.sps_multilayer_extension_flag ≠ 0) ValidSpsMultilayerExtension s.sps_multilayer_extension
  sps_3d_extension : Maybe (s.sps_3d_extension_flag ≠ 0) ValidSps3dExtension s.sps_3d_extension
  sps_scc_extension : Maybe (s.sps_scc_extension_flag ≠ 0) (ValidSpsSccExtension s.chroma_format_idc s.bit_depth_luma_minus8 s.bit_depth_chroma_minus8) s.sps_scc_extension
end Spec

/-- `SpsState`, include/h265_sps_parser.h:60-146 -/
structure Sps where
  body : SpsBody
  sps_extension_data_flag : Nat
  deriving DecidableEq, Repr, Inhabited

/-- SubWidthC of Table 6-1, by chroma_format_idc (1 for monochrome and for separate colour planes) -/
def Spec.subWidthC (chroma_format_idc : Nat) : Int := if chroma_format_idc = 1 ∨ chroma_format_idc = 2 then 2 else 1
/-- SubHeightC of Table 6-1 -/
def Spec.subHeightC (chroma_format_idc : Nat) : Int := if chroma_format_idc = 1 then 2 else 1

end H265
