/-
Model of src/h265_sps_parser.cc.
-/
import Verif.Model.Vui
import Verif.Model.Headers
import Verif.Model.SpsExt
import Verif.Model.Scaling
import Verif.Model.Rps
import Verif.Spec.Sps

namespace H265
open Prog

/-- loop body, src/h265_sps_parser.cc:294-314; limit HEVC_MAX_DPB_SIZE = 16, include/h265_common.h -/
def parseSpsSubLayerOrdering : Prog SpsSubLayerOrdering := do
  let sps_max_dec_pic_buffering_minus1 ← ueRange 0 15
  let sps_max_num_reorder_pics ← uev
  let sps_max_latency_increase_plus1 ← uev
  return { sps_max_dec_pic_buffering_minus1, sps_max_num_reorder_pics, sps_max_latency_increase_plus1 }

/-- loop body, src/h265_sps_parser.cc:470-481 -/
def parseLtRefPicSps (len : Nat) : Prog LtRefPicSps := do
  let lt_ref_pic_poc_lsb_sps ← u (len)
  let used_by_curr_pic_lt_sps_flag ← u 1
  return { lt_ref_pic_poc_lsb_sps, used_by_curr_pic_lt_sps_flag }

/-- `ParseSps`, src/h265_sps_parser.cc:38-576; limits include/h265_sps_parser.h:31-56, include/h265_common.h:160-180, 248-249 (nested conditions
flattened; `getMinCbSizeY()` is called before log2_min_luma_coding_block_size_minus3 has been read, so that it is 1 << 3 = 8;
`getMaxNumNegativePics` yields 15, :863-867; the long-term loop has 0 iterations when the flag is 0) -/
def parseSpsBody : Prog SpsBody := do
  let sps_video_parameter_set_id ← u 4
  let sps_max_sub_layers_minus1 ← u 3
  let sps_temporal_id_nesting_flag ← u 1
  let profile_tier_level ← parseProfileTierLevel true sps_max_sub_layers_minus1
  let sps_seq_parameter_set_id ← ueRange 0 15
  let chroma_format_idc ← ueRange 0 3
  let separate_colour_plane_flag ← opt (chroma_format_idc = 3) (u 1) 0
  let pic_width_in_luma_samples ← ueRange 1 16888
  check (8 * (pic_width_in_luma_samples / 8) = pic_width_in_luma_samples)
  let pic_height_in_luma_samples ← ueRange 1 16888
  check (8 * (pic_height_in_luma_samples / 8) = pic_height_in_luma_samples)
  let conformance_window_flag ← u 1
  let conf_win_left_offset ← opt (conformance_window_flag ≠ 0) (ueRange 0 pic_width_in_luma_samples) 0
  let conf_win_right_offset ← opt (conformance_window_flag ≠ 0) (ueRange 0 pic_width_in_luma_samples) 0
  let conf_win_top_offset ← opt (conformance_window_flag ≠ 0) (ueRange 0 pic_height_in_luma_samples) 0
  let conf_win_bottom_offset ← opt (conformance_window_flag ≠ 0) (ueRange 0 pic_height_in_luma_samples) 0
  let bit_depth_luma_minus8 ← ueRange 0 8
  let bit_depth_chroma_minus8 ← ueRange 0 8
  let log2_max_pic_order_cnt_lsb_minus4 ← ueRange 0 12
  let sps_sub_layer_ordering_info_present_flag ← u 1
  let sub_layer_ordering ← rep (if sps_sub_layer_ordering_info_present_flag ≠ 0 then sps_max_sub_layers_minus1 + 1 else 1) parseSpsSubLayerOrdering
  let log2_min_luma_coding_block_size_minus3 ← ueRange 0 3
  let log2_diff_max_min_luma_coding_block_size ← ueRange 0 3
  let log2_min_luma_transform_block_size_minus2 ← uev
  let log2_diff_max_min_luma_transform_block_size ← uev
  let max_transform_hierarchy_depth_inter ← uev
  let max_transform_hierarchy_depth_intra ← uev
  let scaling_list_enabled_flag ← u 1
  let sps_scaling_list_data_present_flag ← opt (scaling_list_enabled_flag ≠ 0) (u 1) 0
  let scaling_list_data ← maybe (sps_scaling_list_data_present_flag ≠ 0) parseScalingListData
  let amp_enabled_flag ← u 1
  let sample_adaptive_offset_enabled_flag ← u 1
  let pcm_enabled_flag ← u 1
  let pcm_sample_bit_depth_luma_minus1 ← opt (pcm_enabled_flag ≠ 0) (u 4) 0
  let pcm_sample_bit_depth_chroma_minus1 ← opt (pcm_enabled_flag ≠ 0) (u 4) 0
  let log2_min_pcm_luma_coding_block_size_minus3 ← opt (pcm_enabled_flag ≠ 0) uev 0
  let log2_diff_max_min_pcm_luma_coding_block_size ← opt (pcm_enabled_flag ≠ 0) uev 0
  let pcm_loop_filter_disabled_flag ← opt (pcm_enabled_flag ≠ 0) (u 1) 0
  let num_short_term_ref_pic_sets ← ueRange 0 64
  let st_ref_pic_set ← parseStRefPicSets num_short_term_ref_pic_sets 15 num_short_term_ref_pic_sets []
  let long_term_ref_pics_present_flag ← u 1
  let num_long_term_ref_pics_sps ← opt (long_term_ref_pics_present_flag ≠ 0) (ueRange 0 32) 0
  let lt_ref_pics ← rep num_long_term_ref_pics_sps (parseLtRefPicSps (log2_max_pic_order_cnt_lsb_minus4 + 4))
  let sps_temporal_mvp_enabled_flag ← u 1
  let strong_intra_smoothing_enabled_flag ← u 1
  let vui_parameters_present_flag ← u 1
  let vui_parameters ← maybe (vui_parameters_present_flag ≠ 0) (parseVuiParameters sps_max_sub_layers_minus1)
  let sps_extension_present_flag ← u 1
  let sps_range_extension_flag ← opt (sps_extension_present_flag ≠ 0) (u 1) 0
  let sps_multilayer_extension_flag ← opt (sps_extension_present_flag ≠ 0) (u 1) 0
  let sps_3d_extension_flag ← opt (sps_extension_present_flag ≠ 0) (u 1) 0
  let sps_scc_extension_flag ← opt (sps_extension_present_flag ≠ 0) (u 1) 0
  let sps_extension_4bits ← opt (sps_extension_present_flag ≠ 0) (u 4) 0
  let sps_range_extension ← maybe (sps_range_extension_flag ≠ 0) parseSpsRangeExtension
  let sps_multilayer_extension ← maybe (sps_multilayer_extension_flag ≠ 0) parseSpsMultilayerExtension
  let sps_3d_extension ← maybe (sps_3d_extension_flag ≠ 0) parseSps3dExtension
  let sps_scc_extension ← maybe (sps_scc_extension_flag ≠ 0) (parseSpsSccExtension chroma_format_idc bit_depth_luma_minus8 bit_depth_chroma_minus8)
  return { sps_video_parameter_set_id, sps_max_sub_layers_minus1, sps_temporal_id_nesting_flag, profile_tier_level, sps_seq_parameter_set_id, chroma_format_idc, separate_colour_plane_flag, pic_width_in_luma_samples, pic_height_in_luma_samples, conformance_window_flag, conf_win_left_offset, conf_win_right_offset, conf_win_top_offset, conf_win_bottom_offset, bit_depth_luma_minus8, bit_depth_chroma_minus8, log2_max_pic_order_cnt_lsb_minus4, sps_sub_layer_ordering_info_present_flag, sub_layer_ordering, log2_min_luma_coding_block_size_minus3, log2_diff_max_min_luma_coding_block_size, log2_min_luma_transform_block_size_minus2, log2_diff_max_min_luma_transform_block_size, max_transform_hierarchy_depth_inter, max_transform_hierarchy_depth_intra, scaling_list_enabled_flag, sps_scaling_list_data_present_flag, scaling_list_data, amp_enabled_flag, sample_adaptive_offset_enabled_flag, pcm_enabled_flag, pcm_sample_bit_depth_luma_minus1, pcm_sample_bit_depth_chroma_minus1, log2_min_pcm_luma_coding_block_size_minus3, log2_diff_max_min_pcm_luma_coding_block_size, pcm_loop_filter_disabled_flag, num_short_term_ref_pic_sets, st_ref_pic_set, long_term_ref_pics_present_flag, num_long_term_ref_pics_sps, lt_ref_pics, sps_temporal_mvp_enabled_flag, strong_intra_smoothing_enabled_flag, vui_parameters_present_flag, vui_parameters, sps_extension_present_flag, sps_range_extension_flag, sps_multilayer_extension_flag, sps_3d_extension_flag, sps_scc_extension_flag, sps_extension_4bits, sps_range_extension, sps_multilayer_extension, sps_3d_extension, sps_scc_extension }

/-- `ParseSps`, src/h265_sps_parser.cc:38-590 -/
def parseSps : Prog Sps := do
  let body ← parseSpsBody
  let sps_extension_data_flag ← rbspTail body.sps_extension_4bits
  return { body, sps_extension_data_flag }

end H265
