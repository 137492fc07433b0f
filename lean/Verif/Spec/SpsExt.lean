/-
Syntax of the SPS extensions.
-/
import Verif.Spec.Bits

namespace H265
open Spec

/-- `SpsRangeExtensionState`, include/h265_sps_range_extension_parser.h:22-45 -/
structure SpsRangeExtension where
  transform_skip_rotation_enabled_flag : Nat
  transform_skip_context_enabled_flag : Nat
  implicit_rdpcm_enabled_flag : Nat
  explicit_rdpcm_enabled_flag : Nat
  extended_precision_processing_flag : Nat
  intra_smoothing_disabled_flag : Nat
  high_precision_offsets_enabled_flag : Nat
  persistent_rice_adaptation_enabled_flag : Nat
  cabac_bypass_alignment_enabled_flag : Nat
  deriving DecidableEq, Repr, Inhabited

namespace Spec
/-- sps_range_extension(), clause 7.3.2.2.2 -/
def spsRangeExtension (s : SpsRangeExtension) : List Bool :=
  seq [u 1 s.transform_skip_rotation_enabled_flag,
    u 1 s.transform_skip_context_enabled_flag,
    u 1 s.implicit_rdpcm_enabled_flag,
    u 1 s.explicit_rdpcm_enabled_flag,
    u 1 s.extended_precision_processing_flag,
    u 1 s.intra_smoothing_disabled_flag,
    u 1 s.high_precision_offsets_enabled_flag,
    u 1 s.persistent_rice_adaptation_enabled_flag,
    u 1 s.cabac_bypass_alignment_enabled_flag]

/-- ranges -/
structure ValidSpsRangeExtension (s : SpsRangeExtension) : Prop where
  transform_skip_rotation_enabled_flag : s.transform_skip_rotation_enabled_flag < 2 ^ 1
  transform_skip_context_enabled_flag : s.transform_skip_context_enabled_flag < 2 ^ 1
  implicit_rdpcm_enabled_flag : s.implicit_rdpcm_enabled_flag < 2 ^ 1
  explicit_rdpcm_enabled_flag : s.explicit_rdpcm_enabled_flag < 2 ^ 1
  extended_precision_processing_flag : s.extended_precision_processing_flag < 2 ^ 1
  intra_smoothing_disabled_flag : s.intra_smoothing_disabled_flag < 2 ^ 1
  high_precision_offsets_enabled_flag : s.high_precision_offsets_enabled_flag < 2 ^ 1
  persistent_rice_adaptation_enabled_flag : s.persistent_rice_adaptation_enabled_flag < 2 ^ 1
  cabac_bypass_alignment_enabled_flag : s.cabac_bypass_alignment_enabled_flag < 2 ^ 1
end Spec

/-- `SpsMultilayerExtensionState`, include/h265_sps_multilayer_extension_parser.h:22-39 -/
structure SpsMultilayerExtension where
  inter_view_mv_vert_constraint_flag : Nat
  deriving DecidableEq, Repr, Inhabited

namespace Spec
/-- sps_multilayer_extension(), clause F.7.3.2.2.4 -/
def spsMultilayerExtension (s : SpsMultilayerExtension) : List Bool :=
  seq [u 1 s.inter_view_mv_vert_constraint_flag]

/-- ranges -/
structure ValidSpsMultilayerExtension (s : SpsMultilayerExtension) : Prop where
  inter_view_mv_vert_constraint_flag : s.inter_view_mv_vert_constraint_flag < 2 ^ 1
end Spec

/-- `Sps3dExtensionState`, include/h265_sps_3d_extension_parser.h:22-50; the two-element vectors iv_di_mc_enabled_flag and
iv_mv_scal_enabled_flag are given as fields with suffix _0, _1 -/
structure Sps3dExtension where
  iv_di_mc_enabled_flag_0 : Nat
  iv_mv_scal_enabled_flag_0 : Nat
  log2_ivmc_sub_pb_size_minus3 : Nat
  iv_res_pred_enabled_flag : Nat
  depth_ref_enabled_flag : Nat
  vsp_mc_enabled_flag : Nat
  dbbp_enabled_flag : Nat
  iv_di_mc_enabled_flag_1 : Nat
  iv_mv_scal_enabled_flag_1 : Nat
  tex_mc_enabled_flag : Nat
  log2_texmc_sub_pb_size_minus3 : Nat
  intra_contour_enabled_flag : Nat
  intra_dc_only_wedge_enabled_flag : Nat
  cqt_cu_part_pred_enabled_flag : Nat
  inter_dc_only_enabled_flag : Nat
  skip_intra_enabled_flag : Nat
  deriving DecidableEq, Repr, Inhabited

namespace Spec
/-- sps_3d_extension(), clause I.7.3.2.2.5, d = 0 then d = 1 -/
def sps3dExtension (s : Sps3dExtension) : List Bool :=
  seq [u 1 s.iv_di_mc_enabled_flag_0,
    u 1 s.iv_mv_scal_enabled_flag_0,
    ue s.log2_ivmc_sub_pb_size_minus3,
    u 1 s.iv_res_pred_enabled_flag,
    u 1 s.depth_ref_enabled_flag,
    u 1 s.vsp_mc_enabled_flag,
    u 1 s.dbbp_enabled_flag,
    u 1 s.iv_di_mc_enabled_flag_1,
    u 1 s.iv_mv_scal_enabled_flag_1,
    u 1 s.tex_mc_enabled_flag,
    ue s.log2_texmc_sub_pb_size_minus3,
    u 1 s.intra_contour_enabled_flag,
    u 1 s.intra_dc_only_wedge_enabled_flag,
    u 1 s.cqt_cu_part_pred_enabled_flag,
    u 1 s.inter_dc_only_enabled_flag,
    u 1 s.skip_intra_enabled_flag]

/-- ranges -/
structure ValidSps3dExtension (s : Sps3dExtension) : Prop where
  iv_di_mc_enabled_flag_0 : s.iv_di_mc_enabled_flag_0 < 2 ^ 1
  iv_mv_scal_enabled_flag_0 : s.iv_mv_scal_enabled_flag_0 < 2 ^ 1
  log2_ivmc_sub_pb_size_minus3 : s.log2_ivmc_sub_pb_size_minus3 < 2 ^ 32 - 1
  iv_res_pred_enabled_flag : s.iv_res_pred_enabled_flag < 2 ^ 1
  depth_ref_enabled_flag : s.depth_ref_enabled_flag < 2 ^ 1
  vsp_mc_enabled_flag : s.vsp_mc_enabled_flag < 2 ^ 1
  dbbp_enabled_flag : s.dbbp_enabled_flag < 2 ^ 1
  iv_di_mc_enabled_flag_1 : s.iv_di_mc_enabled_flag_1 < 2 ^ 1
  iv_mv_scal_enabled_flag_1 : s.iv_mv_scal_enabled_flag_1 < 2 ^ 1
  tex_mc_enabled_flag : s.tex_mc_enabled_flag < 2 ^ 1
  log2_texmc_sub_pb_size_minus3 : s.log2_texmc_sub_pb_size_minus3 < 2 ^ 32 - 1
  intra_contour_enabled_flag : s.intra_contour_enabled_flag < 2 ^ 1
  intra_dc_only_wedge_enabled_flag : s.intra_dc_only_wedge_enabled_flag < 2 ^ 1
  cqt_cu_part_pred_enabled_flag : s.cqt_cu_part_pred_enabled_flag < 2 ^ 1
  inter_dc_only_enabled_flag : s.inter_dc_only_enabled_flag < 2 ^ 1
  skip_intra_enabled_flag : s.skip_intra_enabled_flag < 2 ^ 1
end Spec

/-- `SpsSccExtensionState`, include/h265_sps_scc_extension_parser.h:32-55 -/
structure SpsSccExtension where
  sps_curr_pic_ref_enabled_flag : Nat
  palette_mode_enabled_flag : Nat
  palette_max_size : Nat
  delta_palette_max_predictor_size : Nat
  sps_palette_predictor_initializers_present_flag : Nat
  sps_num_palette_predictor_initializers_minus1 : Nat
  sps_palette_predictor_initializers : List (List Nat)
  motion_vector_resolution_control_idc : Nat
  intra_boundary_filtering_disabled_flag : Nat
  deriving DecidableEq, Repr, Inhabited

namespace Spec
/-- sps_scc_extension(), clause 7.3.2.2.3 -/
def spsSccExtension (bit_depth_luma_minus8 : Nat) (bit_depth_chroma_minus8 : Nat) (s : SpsSccExtension) : List Bool :=
  seq [u 1 s.sps_curr_pic_ref_enabled_flag,
    u 1 s.palette_mode_enabled_flag,
    cond (s.palette_mode_enabled_flag ≠ 0) (ue s.palette_max_size),
    cond (s.palette_mode_enabled_flag ≠ 0) (ue s.delta_palette_max_predictor_size),
    cond (s.palette_mode_enabled_flag ≠ 0) (u 1 s.sps_palette_predictor_initializers_present_flag),
    cond (s.sps_palette_predictor_initializers_present_flag ≠ 0) (ue s.sps_num_palette_predictor_initializers_minus1),
    cond (s.sps_palette_predictor_initializers_present_flag ≠ 0) (listI (fun comp => list (u (if comp = 0 then 8 + bit_depth_luma_minus8 else 8 + bit_depth_chroma_minus8))) 0 s.sps_palette_predictor_initializers),
    u 2 s.motion_vector_resolution_control_idc,
    u 1 s.intra_boundary_filtering_disabled_flag]

/-- ranges -/
structure ValidSpsSccExtension (chroma_format_idc bit_depth_luma_minus8 bit_depth_chroma_minus8 : Nat) (s : SpsSccExtension) : Prop where
  sps_curr_pic_ref_enabled_flag : s.sps_curr_pic_ref_enabled_flag < 2 ^ 1
  palette_mode_enabled_flag : s.palette_mode_enabled_flag < 2 ^ 1
  palette_max_size : Opt (s.palette_mode_enabled_flag ≠ 0) (0 ≤ s.palette_max_size ∧ s.palette_max_size ≤ 64) (s.palette_max_size = 0)
  delta_palette_max_predictor_size : Opt (s.palette_mode_enabled_flag ≠ 0) (0 ≤ s.delta_palette_max_predictor_size ∧ s.delta_palette_max_predictor_size ≤ 128) (s.delta_palette_max_predictor_size = 0)
  sps_palette_predictor_initializers_present_flag : Opt (s.palette_mode_enabled_flag ≠ 0) (s.sps_palette_predictor_initializers_present_flag < 2 ^ 1) (s.sps_palette_predictor_initializers_present_flag = 0)
  sps_num_palette_predictor_initializers_minus1 : Opt (s.sps_palette_predictor_initializers_present_flag ≠ 0) (0 ≤ s.sps_num_palette_predictor_initializers_minus1 ∧ s.sps_num_palette_predictor_initializers_minus1 ≤ 127) (s.sps_num_palette_predictor_initializers_minus1 = 0)
  sps_palette_predictor_initializers : Opt (s.sps_palette_predictor_initializers_present_flag ≠ 0) (EachI (if chroma_format_idc = 0 then 1 else 3) (fun comp => Each (s.sps_num_palette_predictor_initializers_minus1 + 1) (· < 2 ^ (if comp = 0 then 8 + bit_depth_luma_minus8 else 8 + bit_depth_chroma_minus8))) s.sps_palette_predictor_initializers) (s.sps_palette_predictor_initializers = [])
  motion_vector_resolution_control_idc : s.motion_vector_resolution_control_idc < 2 ^ 2
  intra_boundary_filtering_disabled_flag : s.intra_boundary_filtering_disabled_flag < 2 ^ 1
end Spec

end H265
