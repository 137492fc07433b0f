/-
Models of src/h265_pps_parser.cc, src/h265_pps_scc_extension_parser.cc, src/h265_pps_multilayer_extension_parser.cc.
-/
import Verif.Model.Scaling
import Verif.Spec.Pps

namespace H265
open Prog

/-- src/h265_pps_multilayer_extension_parser.cc:85-112 -/
def parseRefLayerOffsets : Prog RefLayerOffsets := do
  let scaled_ref_layer_left_offset ← sev
  let scaled_ref_layer_top_offset ← sev
  let scaled_ref_layer_right_offset ← sev
  let scaled_ref_layer_bottom_offset ← sev
  return { scaled_ref_layer_left_offset, scaled_ref_layer_top_offset, scaled_ref_layer_right_offset, scaled_ref_layer_bottom_offset }

/-- src/h265_pps_multilayer_extension_parser.cc:123-145 -/
def parseRefRegionOffsets : Prog RefRegionOffsets := do
  let ref_region_left_offset ← sev
  let ref_region_top_offset ← sev
  let ref_region_right_offset ← sev
  let ref_region_bottom_offset ← sev
  return { ref_region_left_offset, ref_region_top_offset, ref_region_right_offset, ref_region_bottom_offset }

/-- src/h265_pps_multilayer_extension_parser.cc:156-178 -/
def parseResamplePhase : Prog ResamplePhase := do
  let phase_hor_luma ← sev
  let phase_ver_luma ← sev
  let phase_hor_chroma_plus8 ← sev
  let phase_ver_chroma_plus8 ← sev
  return { phase_hor_luma, phase_ver_luma, phase_hor_chroma_plus8, phase_ver_chroma_plus8 }

/-- loop body, src/h265_pps_multilayer_extension_parser.cc:70-180 -/
def parseRefLocOffset : Prog RefLocOffset := do
  let ref_loc_offset_layer_id ← u 6
  let scaled_ref_layer_offset_present_flag ← u 1
  let scaled_ref_layer_offset ← maybe (scaled_ref_layer_offset_present_flag ≠ 0) parseRefLayerOffsets
  let ref_region_offset_present_flag ← u 1
  let ref_region_offset ← maybe (ref_region_offset_present_flag ≠ 0) parseRefRegionOffsets
  let resample_phase_set_present_flag ← u 1
  let resample_phase_set ← maybe (resample_phase_set_present_flag ≠ 0) parseResamplePhase
  return { ref_loc_offset_layer_id, scaled_ref_layer_offset_present_flag, scaled_ref_layer_offset, ref_region_offset_present_flag, ref_region_offset, resample_phase_set_present_flag, resample_phase_set }

/-- `ParsePpsMultilayerExtension`, src/h265_pps_multilayer_extension_parser.cc:32-200 -/
def parsePpsMultilayerExtension : Prog PpsMultilayerExtension := do
  let poc_reset_info_present_flag ← u 1
  let pps_infer_scaling_list_flag ← u 1
  let pps_scaling_list_ref_layer_id ← opt (pps_infer_scaling_list_flag ≠ 0) (u 6) 0
  let num_ref_loc_offsets ← uev
  let ref_loc_offset ← rep num_ref_loc_offsets parseRefLocOffset
  let colour_mapping_enabled_flag ← u 1
  check (colour_mapping_enabled_flag = 0)
  return { poc_reset_info_present_flag, pps_infer_scaling_list_flag, pps_scaling_list_ref_layer_id, num_ref_loc_offsets, ref_loc_offset, colour_mapping_enabled_flag }

/-- `if (bit_depth == 0) return nullptr; if (!ReadBits(bit_depth, x)) return nullptr;`, src/h265_pps_scc_extension_parser.cc:132-146 -/
def uVar (n : Nat) : Prog Nat := do
  check (n ≠ 0)
  u n

/-- `ParsePpsSccExtension`, src/h265_pps_scc_extension_parser.cc:31-155 (nested conditions flattened: pps_num_palette_predictor_initializer and
monochrome_palette_flag are 0 unless read) -/
def parsePpsSccExtension : Prog PpsSccExtension := do
  let pps_curr_pic_ref_enabled_flag ← u 1
  let residual_adaptive_colour_transform_enabled_flag ← u 1
  let pps_slice_act_qp_offsets_present_flag ← opt (residual_adaptive_colour_transform_enabled_flag ≠ 0) (u 1) 0
  let pps_act_y_qp_offset_plus5 ← opt (residual_adaptive_colour_transform_enabled_flag ≠ 0) sev 0
  let pps_act_cb_qp_offset_plus5 ← opt (residual_adaptive_colour_transform_enabled_flag ≠ 0) sev 0
  let pps_act_cr_qp_offset_plus3 ← opt (residual_adaptive_colour_transform_enabled_flag ≠ 0) sev 0
  let pps_palette_predictor_initializer_present_flag ← u 1
  let pps_num_palette_predictor_initializer ← opt (pps_palette_predictor_initializer_present_flag ≠ 0) uev 0
  let monochrome_palette_flag ← opt (pps_num_palette_predictor_initializer > 0) (u 1) 0
  let luma_bit_depth_entry_minus8 ← opt (pps_num_palette_predictor_initializer > 0) uev 0
  let chroma_bit_depth_entry_minus8 ← opt (monochrome_palette_flag ≠ 0) uev 0
  let pps_palette_predictor_initializers ← opt (pps_num_palette_predictor_initializer > 0) (repI 0 (if monochrome_palette_flag ≠ 0 then 1 else 3) (fun comp => rep pps_num_palette_predictor_initializer (uVar (if comp = 0 then (luma_bit_depth_entry_minus8 + 8) % 2 ^ 32 else (chroma_bit_depth_entry_minus8 + 8) % 2 ^ 32)))) []
  return { pps_curr_pic_ref_enabled_flag, residual_adaptive_colour_transform_enabled_flag, pps_slice_act_qp_offsets_present_flag, pps_act_y_qp_offset_plus5, pps_act_cb_qp_offset_plus5, pps_act_cr_qp_offset_plus3, pps_palette_predictor_initializer_present_flag, pps_num_palette_predictor_initializer, monochrome_palette_flag, luma_bit_depth_entry_minus8, chroma_bit_depth_entry_minus8, pps_palette_predictor_initializers }

/-- `ParsePps`, src/h265_pps_parser.cc:33-299 (nested conditions flattened) -/
def parsePpsHead : Prog PpsHead := do
  let pps_pic_parameter_set_id ← uev
  let pps_seq_parameter_set_id ← uev
  let dependent_slice_segments_enabled_flag ← u 1
  let output_flag_present_flag ← u 1
  let num_extra_slice_header_bits ← u 3
  let sign_data_hiding_enabled_flag ← u 1
  let cabac_init_present_flag ← u 1
  let num_ref_idx_l0_default_active_minus1 ← uev
  let num_ref_idx_l1_default_active_minus1 ← uev
  let init_qp_minus26 ← sev
  let constrained_intra_pred_flag ← u 1
  let transform_skip_enabled_flag ← u 1
  let cu_qp_delta_enabled_flag ← u 1
  let diff_cu_qp_delta_depth ← opt (cu_qp_delta_enabled_flag ≠ 0) uev 0
  let pps_cb_qp_offset ← sev
  let pps_cr_qp_offset ← sev
  let pps_slice_chroma_qp_offsets_present_flag ← u 1
  let weighted_pred_flag ← u 1
  let weighted_bipred_flag ← u 1
  let transquant_bypass_enabled_flag ← u 1
  let tiles_enabled_flag ← u 1
  let entropy_coding_sync_enabled_flag ← u 1
  let num_tile_columns_minus1 ← opt (tiles_enabled_flag ≠ 0) uev 0
  let num_tile_rows_minus1 ← opt (tiles_enabled_flag ≠ 0) uev 0
  let uniform_spacing_flag ← opt (tiles_enabled_flag ≠ 0) (u 1) 0
  let column_width_minus1 ← opt ((tiles_enabled_flag ≠ 0 ∧ uniform_spacing_flag = 0)) (rep num_tile_columns_minus1 uev) []
  let row_height_minus1 ← opt ((tiles_enabled_flag ≠ 0 ∧ uniform_spacing_flag = 0)) (rep num_tile_rows_minus1 uev) []
  let loop_filter_across_tiles_enabled_flag ← opt (tiles_enabled_flag ≠ 0) (u 1) 0
  let pps_loop_filter_across_slices_enabled_flag ← u 1
  let deblocking_filter_control_present_flag ← u 1
  let deblocking_filter_override_enabled_flag ← opt (deblocking_filter_control_present_flag ≠ 0) (u 1) 0
  let pps_deblocking_filter_disabled_flag ← opt (deblocking_filter_control_present_flag ≠ 0) (u 1) 0
  let pps_beta_offset_div2 ← opt ((deblocking_filter_control_present_flag ≠ 0 ∧ pps_deblocking_filter_disabled_flag = 0)) sev 0
  let pps_tc_offset_div2 ← opt ((deblocking_filter_control_present_flag ≠ 0 ∧ pps_deblocking_filter_disabled_flag = 0)) sev 0
  let pps_scaling_list_data_present_flag ← u 1
  let scaling_list_data ← maybe (pps_scaling_list_data_present_flag ≠ 0) parseScalingListData
  let lists_modification_present_flag ← u 1
  let log2_parallel_merge_level_minus2 ← uev
  let slice_segment_header_extension_present_flag ← u 1
  let pps_extension_present_flag ← u 1
  let pps_range_extension_flag ← opt (pps_extension_present_flag ≠ 0) (u 1) 0
  let pps_multilayer_extension_flag ← opt (pps_extension_present_flag ≠ 0) (u 1) 0
  let pps_3d_extension_flag ← opt (pps_extension_present_flag ≠ 0) (u 1) 0
  let pps_scc_extension_flag ← opt (pps_extension_present_flag ≠ 0) (u 1) 0
  let pps_extension_4bits ← opt (pps_extension_present_flag ≠ 0) (u 4) 0
  check (pps_range_extension_flag = 0)
  return { pps_pic_parameter_set_id, pps_seq_parameter_set_id, dependent_slice_segments_enabled_flag, output_flag_present_flag, num_extra_slice_header_bits, sign_data_hiding_enabled_flag, cabac_init_present_flag, num_ref_idx_l0_default_active_minus1, num_ref_idx_l1_default_active_minus1, init_qp_minus26, constrained_intra_pred_flag, transform_skip_enabled_flag, cu_qp_delta_enabled_flag, diff_cu_qp_delta_depth, pps_cb_qp_offset, pps_cr_qp_offset, pps_slice_chroma_qp_offsets_present_flag, weighted_pred_flag, weighted_bipred_flag, transquant_bypass_enabled_flag, tiles_enabled_flag, entropy_coding_sync_enabled_flag, num_tile_columns_minus1, num_tile_rows_minus1, uniform_spacing_flag, column_width_minus1, row_height_minus1, loop_filter_across_tiles_enabled_flag, pps_loop_filter_across_slices_enabled_flag, deblocking_filter_control_present_flag, deblocking_filter_override_enabled_flag, pps_deblocking_filter_disabled_flag, pps_beta_offset_div2, pps_tc_offset_div2, pps_scaling_list_data_present_flag, scaling_list_data, lists_modification_present_flag, log2_parallel_merge_level_minus2, slice_segment_header_extension_present_flag, pps_extension_present_flag, pps_range_extension_flag, pps_multilayer_extension_flag, pps_3d_extension_flag, pps_scc_extension_flag, pps_extension_4bits }

/-- `if (pps->pps_multilayer_extension_flag) pps->pps_multilayer_extension = ParsePpsMultilayerExtension(bit_buffer);` the result is not
checked, src/h265_pps_parser.cc:301-306 -/
def parsePpsMultilayerUnchecked (flag : Nat) : Prog (Option PpsMultilayerExtension) :=
  if flag ≠ 0 then parsePpsMultilayerExtension.attempt else ret none

/-- `ParsePps`, src/h265_pps_parser.cc:33-324 -/
def parsePpsBody : Prog PpsBody := do
  let head ← parsePpsHead
  let pps_multilayer_extension ← parsePpsMultilayerUnchecked head.pps_multilayer_extension_flag
  check (head.pps_3d_extension_flag = 0)
  let pps_scc_extension ← maybe (head.pps_scc_extension_flag ≠ 0) parsePpsSccExtension
  return { head, pps_multilayer_extension, pps_scc_extension }

/-- `ParsePps`, src/h265_pps_parser.cc:33-338 -/
def parsePps : Prog Pps := do
  let body ← parsePpsBody
  let pps_extension_data_flag ← rbspTail body.head.pps_extension_4bits
  return { body, pps_extension_data_flag }

end H265
