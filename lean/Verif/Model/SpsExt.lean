/-
Models of the SPS extension parsers.
-/
import Verif.Model.Common
import Verif.Spec.SpsExt

namespace H265
open Prog

/-- `ParseSpsRangeExtension`, src/h265_sps_range_extension_parser.cc:31-94 -/
def parseSpsRangeExtension : Prog SpsRangeExtension := do
  let transform_skip_rotation_enabled_flag ← u 1
  let transform_skip_context_enabled_flag ← u 1
  let implicit_rdpcm_enabled_flag ← u 1
  let explicit_rdpcm_enabled_flag ← u 1
  let extended_precision_processing_flag ← u 1
  let intra_smoothing_disabled_flag ← u 1
  let high_precision_offsets_enabled_flag ← u 1
  let persistent_rice_adaptation_enabled_flag ← u 1
  let cabac_bypass_alignment_enabled_flag ← u 1
  return { transform_skip_rotation_enabled_flag, transform_skip_context_enabled_flag, implicit_rdpcm_enabled_flag, explicit_rdpcm_enabled_flag, extended_precision_processing_flag, intra_smoothing_disabled_flag, high_precision_offsets_enabled_flag, persistent_rice_adaptation_enabled_flag, cabac_bypass_alignment_enabled_flag }

/-- `ParseSpsMultilayerExtension`, src/h265_sps_multilayer_extension_parser.cc:32-48 -/
def parseSpsMultilayerExtension : Prog SpsMultilayerExtension := do
  let inter_view_mv_vert_constraint_flag ← u 1
  return { inter_view_mv_vert_constraint_flag }

/-- `ParseSps3dExtension`, src/h265_sps_3d_extension_parser.cc:33-126, with its loop over d = 0, 1 unrolled -/
def parseSps3dExtension : Prog Sps3dExtension := do
  let iv_di_mc_enabled_flag_0 ← u 1
  let iv_mv_scal_enabled_flag_0 ← u 1
  let log2_ivmc_sub_pb_size_minus3 ← uev
  let iv_res_pred_enabled_flag ← u 1
  let depth_ref_enabled_flag ← u 1
  let vsp_mc_enabled_flag ← u 1
  let dbbp_enabled_flag ← u 1
  let iv_di_mc_enabled_flag_1 ← u 1
  let iv_mv_scal_enabled_flag_1 ← u 1
  let tex_mc_enabled_flag ← u 1
  let log2_texmc_sub_pb_size_minus3 ← uev
  let intra_contour_enabled_flag ← u 1
  let intra_dc_only_wedge_enabled_flag ← u 1
  let cqt_cu_part_pred_enabled_flag ← u 1
  let inter_dc_only_enabled_flag ← u 1
  let skip_intra_enabled_flag ← u 1
  return { iv_di_mc_enabled_flag_0, iv_mv_scal_enabled_flag_0, log2_ivmc_sub_pb_size_minus3, iv_res_pred_enabled_flag, depth_ref_enabled_flag, vsp_mc_enabled_flag, dbbp_enabled_flag, iv_di_mc_enabled_flag_1, iv_mv_scal_enabled_flag_1, tex_mc_enabled_flag, log2_texmc_sub_pb_size_minus3, intra_contour_enabled_flag, intra_dc_only_wedge_enabled_flag, cqt_cu_part_pred_enabled_flag, inter_dc_only_enabled_flag, skip_intra_enabled_flag }

/-- `ParseSpsSccExtension`, src/h265_sps_scc_extension_parser.cc:33-163; limits include/h265_sps_scc_extension_parser.h:22-29 (nested conditions flattened) -/
def parseSpsSccExtension (chroma_format_idc bit_depth_luma_minus8 bit_depth_chroma_minus8 : Nat) : Prog SpsSccExtension := do
  let sps_curr_pic_ref_enabled_flag ← u 1
  let palette_mode_enabled_flag ← u 1
  let palette_max_size ← opt (palette_mode_enabled_flag ≠ 0) (ueRange 0 64) 0
  let delta_palette_max_predictor_size ← opt (palette_mode_enabled_flag ≠ 0) (ueRange 0 128) 0
  let sps_palette_predictor_initializers_present_flag ← opt (palette_mode_enabled_flag ≠ 0) (u 1) 0
  let sps_num_palette_predictor_initializers_minus1 ← opt (sps_palette_predictor_initializers_present_flag ≠ 0) (ueRange 0 127) 0
  let sps_palette_predictor_initializers ← opt (sps_palette_predictor_initializers_present_flag ≠ 0) (repI 0 (if chroma_format_idc = 0 then 1 else 3) (fun comp => rep (sps_num_palette_predictor_initializers_minus1 + 1) (u (if comp = 0 then 8 + bit_depth_luma_minus8 else 8 + bit_depth_chroma_minus8)))) []
  let motion_vector_resolution_control_idc ← u 2
  let intra_boundary_filtering_disabled_flag ← u 1
  return { sps_curr_pic_ref_enabled_flag, palette_mode_enabled_flag, palette_max_size, delta_palette_max_predictor_size, sps_palette_predictor_initializers_present_flag, sps_num_palette_predictor_initializers_minus1, sps_palette_predictor_initializers, motion_vector_resolution_control_idc, intra_boundary_filtering_disabled_flag }

end H265
