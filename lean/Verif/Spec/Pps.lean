/-
Syntax of the picture parameter set and its extensions (clauses 7.3.2.3, F.7.3.2.3.4).
-/
import Verif.Spec.Scaling

namespace H265
open Spec

/-- One entry of the vectors scaled_ref_layer_*_offset (pushed in lockstep) -/
structure RefLayerOffsets where
  scaled_ref_layer_left_offset : Int
  scaled_ref_layer_top_offset : Int
  scaled_ref_layer_right_offset : Int
  scaled_ref_layer_bottom_offset : Int
  deriving DecidableEq, Repr, Inhabited

namespace Spec
/-- scaled reference layer offsets, clause F.7.3.2.3.4 -/
def refLayerOffsets (s : RefLayerOffsets) : List Bool :=
  seq [se s.scaled_ref_layer_left_offset,
    se s.scaled_ref_layer_top_offset,
    se s.scaled_ref_layer_right_offset,
    se s.scaled_ref_layer_bottom_offset]

/-- ranges -/
structure ValidRefLayerOffsets (s : RefLayerOffsets) : Prop where
  scaled_ref_layer_left_offset : -(2 ^ 31) < s.scaled_ref_layer_left_offset ∧ s.scaled_ref_layer_left_offset < 2 ^ 30
  scaled_ref_layer_top_offset : -(2 ^ 31) < s.scaled_ref_layer_top_offset ∧ s.scaled_ref_layer_top_offset < 2 ^ 30
  scaled_ref_layer_right_offset : -(2 ^ 31) < s.scaled_ref_layer_right_offset ∧ s.scaled_ref_layer_right_offset < 2 ^ 30
  scaled_ref_layer_bottom_offset : -(2 ^ 31) < s.scaled_ref_layer_bottom_offset ∧ s.scaled_ref_layer_bottom_offset < 2 ^ 30
end Spec

/-- One entry of the vectors ref_region_*_offset (pushed in lockstep) -/
structure RefRegionOffsets where
  ref_region_left_offset : Int
  ref_region_top_offset : Int
  ref_region_right_offset : Int
  ref_region_bottom_offset : Int
  deriving DecidableEq, Repr, Inhabited

namespace Spec
/-- reference region offsets, clause F.7.3.2.3.4 -/
def refRegionOffsets (s : RefRegionOffsets) : List Bool :=
  seq [se s.ref_region_left_offset,
    se s.ref_region_top_offset,
    se s.ref_region_right_offset,
    se s.ref_region_bottom_offset]

/-- ranges -/
structure ValidRefRegionOffsets (s : RefRegionOffsets) : Prop where
  ref_region_left_offset : -(2 ^ 31) < s.ref_region_left_offset ∧ s.ref_region_left_offset < 2 ^ 30
  ref_region_top_offset : -(2 ^ 31) < s.ref_region_top_offset ∧ s.ref_region_top_offset < 2 ^ 30
  ref_region_right_offset : -(2 ^ 31) < s.ref_region_right_offset ∧ s.ref_region_right_offset < 2 ^ 30
  ref_region_bottom_offset : -(2 ^ 31) < s.ref_region_bottom_offset ∧ s.ref_region_bottom_offset < 2 ^ 30
end Spec

/-- One entry of the vectors phase_* (pushed in lockstep) -/
structure ResamplePhase where
  phase_hor_luma : Int
  phase_ver_luma : Int
  phase_hor_chroma_plus8 : Int
  phase_ver_chroma_plus8 : Int
  deriving DecidableEq, Repr, Inhabited

namespace Spec
/-- resampling phase set, clause F.7.3.2.3.4 (as read by the code: four se(v)) -/
def resamplePhase (s : ResamplePhase) : List Bool :=
  seq [se s.phase_hor_luma,
    se s.phase_ver_luma,
    se s.phase_hor_chroma_plus8,
    se s.phase_ver_chroma_plus8]

/-- ranges -/
structure ValidResamplePhase (s : ResamplePhase) : Prop where
  phase_hor_luma : -(2 ^ 31) < s.phase_hor_luma ∧ s.phase_hor_luma < 2 ^ 30
  phase_ver_luma : -(2 ^ 31) < s.phase_ver_luma ∧ s.phase_ver_luma < 2 ^ 30
  phase_hor_chroma_plus8 : -(2 ^ 31) < s.phase_hor_chroma_plus8 ∧ s.phase_hor_chroma_plus8 < 2 ^ 30
  phase_ver_chroma_plus8 : -(2 ^ 31) < s.phase_ver_chroma_plus8 ∧ s.phase_ver_chroma_plus8 < 2 ^ 30
end Spec

/-- One iteration of the loop of ParsePpsMultilayerExtension: the entries it pushes to the vectors of `PpsMultilayerExtensionState`,
include/h265_pps_multilayer_extension_parser.h:41-57 (the vectors of offsets and phases hold the present entries only) -/
structure RefLocOffset where
  ref_loc_offset_layer_id : Nat
  scaled_ref_layer_offset_present_flag : Nat
  scaled_ref_layer_offset : Option RefLayerOffsets
  ref_region_offset_present_flag : Nat
  ref_region_offset : Option RefRegionOffsets
  resample_phase_set_present_flag : Nat
  resample_phase_set : Option ResamplePhase
  deriving DecidableEq, Repr, Inhabited

namespace Spec
/-- one reference location offset entry, clause F.7.3.2.3.4 -/
def refLocOffset (s : RefLocOffset) : List Bool :=
  seq [u 6 s.ref_loc_offset_layer_id,
    u 1 s.scaled_ref_layer_offset_present_flag,
    optional refLayerOffsets s.scaled_ref_layer_offset,
    u 1 s.ref_region_offset_present_flag,
    optional refRegionOffsets s.ref_region_offset,
    u 1 s.resample_phase_set_present_flag,
    optional resamplePhase s.resample_phase_set]

/-- ranges -/
structure ValidRefLocOffset (s : RefLocOffset) : Prop where
  ref_loc_offset_layer_id : s.ref_loc_offset_layer_id < 2 ^ 6
  scaled_ref_layer_offset_present_flag : s.scaled_ref_layer_offset_present_flag < 2 ^ 1
  scaled_ref_layer_offset : Maybe (s.scaled_ref_layer_offset_present_flag ≠ 0) ValidRefLayerOffsets s.scaled_ref_layer_offset
  ref_region_offset_present_flag : s.ref_region_offset_present_flag < 2 ^ 1
  ref_region_offset : Maybe (s.ref_region_offset_present_flag ≠ 0) ValidRefRegionOffsets s.ref_region_offset
  resample_phase_set_present_flag : s.resample_phase_set_present_flag < 2 ^ 1
  resample_phase_set : Maybe (s.resample_phase_set_present_flag ≠ 0) ValidResamplePhase s.resample_phase_set
end Spec

/-- `PpsMultilayerExtensionState`, include/h265_pps_multilayer_extension_parser.h:22-60 -/
structure PpsMultilayerExtension where
  poc_reset_info_present_flag : Nat
  pps_infer_scaling_list_flag : Nat
  pps_scaling_list_ref_layer_id : Nat
  num_ref_loc_offsets : Nat
  ref_loc_offset : List RefLocOffset
  colour_mapping_enabled_flag : Nat
  deriving DecidableEq, Repr, Inhabited

namespace Spec
/-- pps_multilayer_extension(), clause F.7.3.2.3.4 (without colour_mapping_table(), which the code does not support) -/
def ppsMultilayerExtension (s : PpsMultilayerExtension) : List Bool :=
  seq [u 1 s.poc_reset_info_present_flag,
    u 1 s.pps_infer_scaling_list_flag,
    cond (s.pps_infer_scaling_list_flag ≠ 0) (u 6 s.pps_scaling_list_ref_layer_id),
    ue s.num_ref_loc_offsets,
    list refLocOffset s.ref_loc_offset,
    u 1 s.colour_mapping_enabled_flag]

/-- ranges -/
structure ValidPpsMultilayerExtension (s : PpsMultilayerExtension) : Prop where
  poc_reset_info_present_flag : s.poc_reset_info_present_flag < 2 ^ 1
  pps_infer_scaling_list_flag : s.pps_infer_scaling_list_flag < 2 ^ 1
  pps_scaling_list_ref_layer_id : Opt (s.pps_infer_scaling_list_flag ≠ 0) (s.pps_scaling_list_ref_layer_id < 2 ^ 6) (s.pps_scaling_list_ref_layer_id = 0)
  num_ref_loc_offsets : s.num_ref_loc_offsets < 2 ^ 32 - 1
  ref_loc_offset : Each (s.num_ref_loc_offsets) ValidRefLocOffset s.ref_loc_offset
  colour_mapping_enabled_flag : s.colour_mapping_enabled_flag < 2 ^ 1
  colour_mapping_unsupported : s.colour_mapping_enabled_flag = 0
end Spec

namespace Spec
/-- a fixed-length value whose width `n` is itself computed from the bitstream -/
structure ValidUVar (n v : Nat) : Prop where
  pos : 0 < n
  le : n ≤ 32
  lt : v < 2 ^ n
end Spec

/-- `PpsSccExtensionState`, include/h265_pps_scc_extension_parser.h:22-48 -/
structure PpsSccExtension where
  pps_curr_pic_ref_enabled_flag : Nat
  residual_adaptive_colour_transform_enabled_flag : Nat
  pps_slice_act_qp_offsets_present_flag : Nat
  pps_act_y_qp_offset_plus5 : Int
  pps_act_cb_qp_offset_plus5 : Int
  pps_act_cr_qp_offset_plus3 : Int
  pps_palette_predictor_initializer_present_flag : Nat
  pps_num_palette_predictor_initializer : Nat
  monochrome_palette_flag : Nat
  luma_bit_depth_entry_minus8 : Nat
  chroma_bit_depth_entry_minus8 : Nat
  pps_palette_predictor_initializers : List (List Nat)
  deriving DecidableEq, Repr, Inhabited

namespace Spec
/-- pps_scc_extension(), clause 7.3.2.3.3, as accepted by the code: chroma_bit_depth_entry_minus8 is present when
monochrome_palette_flag is 1 (the standard: when it is 0) -/
def ppsSccExtension (s : PpsSccExtension) : List Bool :=
  seq [u 1 s.pps_curr_pic_ref_enabled_flag,
    u 1 s.residual_adaptive_colour_transform_enabled_flag,
    cond (s.residual_adaptive_colour_transform_enabled_flag ≠ 0) (u 1 s.pps_slice_act_qp_offsets_present_flag),
    cond (s.residual_adaptive_colour_transform_enabled_flag ≠ 0) (se s.pps_act_y_qp_offset_plus5),
    cond (s.residual_adaptive_colour_transform_enabled_flag ≠ 0) (se s.pps_act_cb_qp_offset_plus5),
    cond (s.residual_adaptive_colour_transform_enabled_flag ≠ 0) (se s.pps_act_cr_qp_offset_plus3),
    u 1 s.pps_palette_predictor_initializer_present_flag,
    cond (s.pps_palette_predictor_initializer_present_flag ≠ 0) (ue s.pps_num_palette_predictor_initializer),
    cond (s.pps_num_palette_predictor_initializer > 0) (u 1 s.monochrome_palette_flag),
    cond (s.pps_num_palette_predictor_initializer > 0) (ue s.luma_bit_depth_entry_minus8),
    cond (s.monochrome_palette_flag ≠ 0) (ue s.chroma_bit_depth_entry_minus8),
    cond (s.pps_num_palette_predictor_initializer > 0) (listI (fun comp => list (u (if comp = 0 then (s.luma_bit_depth_entry_minus8 + 8) % 2 ^ 32 else (s.chroma_bit_depth_entry_minus8 + 8) % 2 ^ 32))) 0 s.pps_palette_predictor_initializers)]

/-- ranges -/
structure ValidPpsSccExtension (s : PpsSccExtension) : Prop where
  pps_curr_pic_ref_enabled_flag : s.pps_curr_pic_ref_enabled_flag < 2 ^ 1
  residual_adaptive_colour_transform_enabled_flag : s.residual_adaptive_colour_transform_enabled_flag < 2 ^ 1
  pps_slice_act_qp_offsets_present_flag : Opt (s.residual_adaptive_colour_transform_enabled_flag ≠ 0) (s.pps_slice_act_qp_offsets_present_flag < 2 ^ 1) (s.pps_slice_act_qp_offsets_present_flag = 0)
  pps_act_y_qp_offset_plus5 : Opt (s.residual_adaptive_colour_transform_enabled_flag ≠ 0) (-(2 ^ 31) < s.pps_act_y_qp_offset_plus5 ∧ s.pps_act_y_qp_offset_plus5 < 2 ^ 30) (s.pps_act_y_qp_offset_plus5 = 0)
  pps_act_cb_qp_offset_plus5 : Opt (s.residual_adaptive_colour_transform_enabled_flag ≠ 0) (-(2 ^ 31) < s.pps_act_cb_qp_offset_plus5 ∧ s.pps_act_cb_qp_offset_plus5 < 2 ^ 30) (s.pps_act_cb_qp_offset_plus5 = 0)
  pps_act_cr_qp_offset_plus3 : Opt (s.residual_adaptive_colour_transform_enabled_flag ≠ 0) (-(2 ^ 31) < s.pps_act_cr_qp_offset_plus3 ∧ s.pps_act_cr_qp_offset_plus3 < 2 ^ 30) (s.pps_act_cr_qp_offset_plus3 = 0)
  pps_palette_predictor_initializer_present_flag : s.pps_palette_predictor_initializer_present_flag < 2 ^ 1
  pps_num_palette_predictor_initializer : Opt (s.pps_palette_predictor_initializer_present_flag ≠ 0) (s.pps_num_palette_predictor_initializer < 2 ^ 32 - 1) (s.pps_num_palette_predictor_initializer = 0)
  monochrome_palette_flag : Opt (s.pps_num_palette_predictor_initializer > 0) (s.monochrome_palette_flag < 2 ^ 1) (s.monochrome_palette_flag = 0)
  luma_bit_depth_entry_minus8 : Opt (s.pps_num_palette_predictor_initializer > 0) (s.luma_bit_depth_entry_minus8 < 2 ^ 32 - 1) (s.luma_bit_depth_entry_minus8 = 0)
  chroma_bit_depth_entry_minus8 : Opt (s.monochrome_palette_flag ≠ 0) (s.chroma_bit_depth_entry_minus8 < 2 ^ 32 - 1) (s.chroma_bit_depth_entry_minus8 = 0)
  pps_palette_predictor_initializers : Opt (s.pps_num_palette_predictor_initializer > 0) (EachI (if s.monochrome_palette_flag ≠ 0 then 1 else 3) (fun comp => Each s.pps_num_palette_predictor_initializer (ValidUVar (if comp = 0 then (s.luma_bit_depth_entry_minus8 + 8) % 2 ^ 32 else (s.chroma_bit_depth_entry_minus8 + 8) % 2 ^ 32))) s.pps_palette_predictor_initializers) (s.pps_palette_predictor_initializers = [])
end Spec

/-- `PpsState`, include/h265_pps_parser.h:26-93, up to the extension flags -/
structure PpsHead where
  pps_pic_parameter_set_id : Nat
  pps_seq_parameter_set_id : Nat
  dependent_slice_segments_enabled_flag : Nat
  output_flag_present_flag : Nat
  num_extra_slice_header_bits : Nat
  sign_data_hiding_enabled_flag : Nat
  cabac_init_present_flag : Nat
  num_ref_idx_l0_default_active_minus1 : Nat
  num_ref_idx_l1_default_active_minus1 : Nat
  init_qp_minus26 : Int
  constrained_intra_pred_flag : Nat
  transform_skip_enabled_flag : Nat
  cu_qp_delta_enabled_flag : Nat
  diff_cu_qp_delta_depth : Nat
  pps_cb_qp_offset : Int
  pps_cr_qp_offset : Int
  pps_slice_chroma_qp_offsets_present_flag : Nat
  weighted_pred_flag : Nat
  weighted_bipred_flag : Nat
  transquant_bypass_enabled_flag : Nat
  tiles_enabled_flag : Nat
  entropy_coding_sync_enabled_flag : Nat
  num_tile_columns_minus1 : Nat
  num_tile_rows_minus1 : Nat
  uniform_spacing_flag : Nat
  column_width_minus1 : List Nat
  row_height_minus1 : List Nat
  loop_filter_across_tiles_enabled_flag : Nat
  pps_loop_filter_across_slices_enabled_flag : Nat
  deblocking_filter_control_present_flag : Nat
  deblocking_filter_override_enabled_flag : Nat
  pps_deblocking_filter_disabled_flag : Nat
  pps_beta_offset_div2 : Int
  pps_tc_offset_div2 : Int
  pps_scaling_list_data_present_flag : Nat
  scaling_list_data : Option ScalingListData
  lists_modification_present_flag : Nat
  log2_parallel_merge_level_minus2 : Nat
  slice_segment_header_extension_present_flag : Nat
  pps_extension_present_flag : Nat
  pps_range_extension_flag : Nat
  pps_multilayer_extension_flag : Nat
  pps_3d_extension_flag : Nat
  pps_scc_extension_flag : Nat
  pps_extension_4bits : Nat
  deriving DecidableEq, Repr, Inhabited

namespace Spec
/-- pic_parameter_set_rbsp() up to the extension flags, clause 7.3.2.3; pps_range_extension() is not supported -/
def ppsHead (s : PpsHead) : List Bool :=
  seq [ue s.pps_pic_parameter_set_id,
    ue s.pps_seq_parameter_set_id,
    u 1 s.dependent_slice_segments_enabled_flag,
    u 1 s.output_flag_present_flag,
    u 3 s.num_extra_slice_header_bits,
    u 1 s.sign_data_hiding_enabled_flag,
    u 1 s.cabac_init_present_flag,
    ue s.num_ref_idx_l0_default_active_minus1,
    ue s.num_ref_idx_l1_default_active_minus1,
    se s.init_qp_minus26,
    u 1 s.constrained_intra_pred_flag,
    u 1 s.transform_skip_enabled_flag,
    u 1 s.cu_qp_delta_enabled_flag,
    cond (s.cu_qp_delta_enabled_flag ≠ 0) (ue s.diff_cu_qp_delta_depth),
    se s.pps_cb_qp_offset,
    se s.pps_cr_qp_offset,
    u 1 s.pps_slice_chroma_qp_offsets_present_flag,
    u 1 s.weighted_pred_flag,
    u 1 s.weighted_bipred_flag,
    u 1 s.transquant_bypass_enabled_flag,
    u 1 s.tiles_enabled_flag,
    u 1 s.entropy_coding_sync_enabled_flag,
    cond (s.tiles_enabled_flag ≠ 0) (ue s.num_tile_columns_minus1),
    cond (s.tiles_enabled_flag ≠ 0) (ue s.num_tile_rows_minus1),
    cond (s.tiles_enabled_flag ≠ 0) (u 1 s.uniform_spacing_flag),
    cond ((s.tiles_enabled_flag ≠ 0 ∧ s.uniform_spacing_flag = 0)) (list ue s.column_width_minus1),
    cond ((s.tiles_enabled_flag ≠ 0 ∧ s.uniform_spacing_flag = 0)) (list ue s.row_height_minus1),
    cond (s.tiles_enabled_flag ≠ 0) (u 1 s.loop_filter_across_tiles_enabled_flag),
    u 1 s.pps_loop_filter_across_slices_enabled_flag,
    u 1 s.deblocking_filter_control_present_flag,
    cond (s.deblocking_filter_control_present_flag ≠ 0) (u 1 s.deblocking_filter_override_enabled_flag),
    cond (s.deblocking_filter_control_present_flag ≠ 0) (u 1 s.pps_deblocking_filter_disabled_flag),
    cond ((s.deblocking_filter_control_present_flag ≠ 0 ∧ s.pps_deblocking_filter_disabled_flag = 0)) (se s.pps_beta_offset_div2),
    cond ((s.deblocking_filter_control_present_flag ≠ 0 ∧ s.pps_deblocking_filter_disabled_flag = 0)) (se s.pps_tc_offset_div2),
    u 1 s.pps_scaling_list_data_present_flag,
    optional scalingListData s.scaling_list_data,
    u 1 s.lists_modification_present_flag,
    ue s.log2_parallel_merge_level_minus2,
    u 1 s.slice_segment_header_extension_present_flag,
    u 1 s.pps_extension_present_flag,
    cond (s.pps_extension_present_flag ≠ 0) (u 1 s.pps_range_extension_flag),
    cond (s.pps_extension_present_flag ≠ 0) (u 1 s.pps_multilayer_extension_flag),
    cond (s.pps_extension_present_flag ≠ 0) (u 1 s.pps_3d_extension_flag),
    cond (s.pps_extension_present_flag ≠ 0) (u 1 s.pps_scc_extension_flag),
    cond (s.pps_extension_present_flag ≠ 0) (u 4 s.pps_extension_4bits)]

/-- ranges -/
structure ValidPpsHead (s : PpsHead) : Prop where
  pps_pic_parameter_set_id : s.pps_pic_parameter_set_id < 2 ^ 32 - 1
  pps_seq_parameter_set_id : s.pps_seq_parameter_set_id < 2 ^ 32 - 1
  dependent_slice_segments_enabled_flag : s.dependent_slice_segments_enabled_flag < 2 ^ 1
  output_flag_present_flag : s.output_flag_present_flag < 2 ^ 1
  num_extra_slice_header_bits : s.num_extra_slice_header_bits < 2 ^ 3
  sign_data_hiding_enabled_flag : s.sign_data_hiding_enabled_flag < 2 ^ 1
  cabac_init_present_flag : s.cabac_init_present_flag < 2 ^ 1
  num_ref_idx_l0_default_active_minus1 : s.num_ref_idx_l0_default_active_minus1 < 2 ^ 32 - 1
  num_ref_idx_l1_default_active_minus1 : s.num_ref_idx_l1_default_active_minus1 < 2 ^ 32 - 1
  init_qp_minus26 : -(2 ^ 31) < s.init_qp_minus26 ∧ s.init_qp_minus26 < 2 ^ 30
  constrained_intra_pred_flag : s.constrained_intra_pred_flag < 2 ^ 1
  transform_skip_enabled_flag : s.transform_skip_enabled_flag < 2 ^ 1
  cu_qp_delta_enabled_flag : s.cu_qp_delta_enabled_flag < 2 ^ 1
  diff_cu_qp_delta_depth : Opt (s.cu_qp_delta_enabled_flag ≠ 0) (s.diff_cu_qp_delta_depth < 2 ^ 32 - 1) (s.diff_cu_qp_delta_depth = 0)
  pps_cb_qp_offset : -(2 ^ 31) < s.pps_cb_qp_offset ∧ s.pps_cb_qp_offset < 2 ^ 30
  pps_cr_qp_offset : -(2 ^ 31) < s.pps_cr_qp_offset ∧ s.pps_cr_qp_offset < 2 ^ 30
  pps_slice_chroma_qp_offsets_present_flag : s.pps_slice_chroma_qp_offsets_present_flag < 2 ^ 1
  weighted_pred_flag : s.weighted_pred_flag < 2 ^ 1
  weighted_bipred_flag : s.weighted_bipred_flag < 2 ^ 1
  transquant_bypass_enabled_flag : s.transquant_bypass_enabled_flag < 2 ^ 1
  tiles_enabled_flag : s.tiles_enabled_flag < 2 ^ 1
  entropy_coding_sync_enabled_flag : s.entropy_coding_sync_enabled_flag < 2 ^ 1
  num_tile_columns_minus1 : Opt (s.tiles_enabled_flag ≠ 0) (s.num_tile_columns_minus1 < 2 ^ 32 - 1) (s.num_tile_columns_minus1 = 0)
  num_tile_rows_minus1 : Opt (s.tiles_enabled_flag ≠ 0) (s.num_tile_rows_minus1 < 2 ^ 32 - 1) (s.num_tile_rows_minus1 = 0)
  uniform_spacing_flag : Opt (s.tiles_enabled_flag ≠ 0) (s.uniform_spacing_flag < 2 ^ 1) (s.uniform_spacing_flag = 0)
  column_width_minus1 : Opt ((s.tiles_enabled_flag ≠ 0 ∧ s.uniform_spacing_flag = 0)) (Each (s.num_tile_columns_minus1) (· < 2 ^ 32 - 1) s.column_width_minus1) (s.column_width_minus1 = [])
  row_height_minus1 : Opt ((s.tiles_enabled_flag ≠ 0 ∧ s.uniform_spacing_flag = 0)) (Each (s.num_tile_rows_minus1) (· < 2 ^ 32 - 1) s.row_height_minus1) (s.row_height_minus1 = [])
  loop_filter_across_tiles_enabled_flag : Opt (s.tiles_enabled_flag ≠ 0) (s.loop_filter_across_tiles_enabled_flag < 2 ^ 1) (s.loop_filter_across_tiles_enabled_flag = 0)
  pps_loop_filter_across_slices_enabled_flag : s.pps_loop_filter_across_slices_enabled_flag < 2 ^ 1
  deblocking_filter_control_present_flag : s.deblocking_filter_control_present_flag < 2 ^ 1
  deblocking_filter_override_enabled_flag : Opt (s.deblocking_filter_control_present_flag ≠ 0) (s.deblocking_filter_override_enabled_flag < 2 ^ 1) (s.deblocking_filter_override_enabled_flag = 0)
  pps_deblocking_filter_disabled_flag : Opt (s.deblocking_filter_control_present_flag ≠ 0) (s.pps_deblocking_filter_disabled_flag < 2 ^ 1) (s.pps_deblocking_filter_disabled_flag = 0)
  pps_beta_offset_div2 : Opt ((s.deblocking_filter_control_present_flag ≠ 0 ∧ s.pps_deblocking_filter_disabled_flag = 0)) (-(2 ^ 31) < s.pps_beta_offset_div2 ∧ s.pps_beta_offset_div2 < 2 ^ 30) (s.pps_beta_offset_div2 = 0)
  pps_tc_offset_div2 : Opt ((s.deblocking_filter_control_present_flag ≠ 0 ∧ s.pps_deblocking_filter_disabled_flag = 0)) (-(2 ^ 31) < s.pps_tc_offset_div2 ∧ s.pps_tc_offset_div2 < 2 ^ 30) (s.pps_tc_offset_div2 = 0)
  pps_scaling_list_data_present_flag : s.pps_scaling_list_data_present_flag < 2 ^ 1
  scaling_list_data : Maybe (s.pps_scaling_list_data_present_flag ≠ 0) ValidScalingListData s.scaling_list_data
  lists_modification_present_flag : s.lists_modification_present_flag < 2 ^ 1
  log2_parallel_merge_level_minus2 : s.log2_parallel_merge_level_minus2 < 2 ^ 32 - 1
  slice_segment_header_extension_present_flag : s.slice_segment_header_extension_present_flag < 2 ^ 1
  pps_extension_present_flag : s.pps_extension_present_flag < 2 ^ 1
  pps_range_extension_flag : Opt (s.pps_extension_present_flag ≠ 0) (s.pps_range_extension_flag < 2 ^ 1) (s.pps_range_extension_flag = 0)
  pps_multilayer_extension_flag : Opt (s.pps_extension_present_flag ≠ 0) (s.pps_multilayer_extension_flag < 2 ^ 1) (s.pps_multilayer_extension_flag = 0)
  pps_3d_extension_flag : Opt (s.pps_extension_present_flag ≠ 0) (s.pps_3d_extension_flag < 2 ^ 1) (s.pps_3d_extension_flag = 0)
  pps_scc_extension_flag : Opt (s.pps_extension_present_flag ≠ 0) (s.pps_scc_extension_flag < 2 ^ 1) (s.pps_scc_extension_flag = 0)
  pps_extension_4bits : Opt (s.pps_extension_present_flag ≠ 0) (s.pps_extension_4bits < 2 ^ 4) (s.pps_extension_4bits = 0)
  pps_range_extension_unsupported : s.pps_range_extension_flag = 0
end Spec

/-- `PpsState`, include/h265_pps_parser.h:26-93, without the extension data flag; the fields read before the extensions are grouped
in `head` -/
structure PpsBody where
  head : PpsHead
  pps_multilayer_extension : Option PpsMultilayerExtension
  pps_scc_extension : Option PpsSccExtension
  deriving DecidableEq, Repr, Inhabited

/-- `PpsState`, include/h265_pps_parser.h:26-93 -/
structure Pps where
  body : PpsBody
  pps_extension_data_flag : Nat
  deriving DecidableEq, Repr, Inhabited

namespace Spec
/-- pic_parameter_set_rbsp() up to the extension data, clause 7.3.2.3 -/
def ppsBody (s : PpsBody) : List Bool :=
  seq [ppsHead s.head, optional ppsMultilayerExtension s.pps_multilayer_extension, optional ppsSccExtension s.pps_scc_extension]

/-- ranges; pps_3d_extension() is not supported -/
structure ValidPpsBody (s : PpsBody) : Prop where
  head : ValidPpsHead s.head
  pps_multilayer_extension : Maybe (s.head.pps_multilayer_extension_flag ≠ 0) ValidPpsMultilayerExtension s.pps_multilayer_extension
  pps_3d_extension_unsupported : s.head.pps_3d_extension_flag = 0
  pps_scc_extension : Maybe (s.head.pps_scc_extension_flag ≠ 0) ValidPpsSccExtension s.pps_scc_extension
end Spec

/-- The multilayer extension of a returned PPS is missing although it was announced. -/
def Spec.MultilayerLost (s : PpsBody) : Prop := s.head.pps_multilayer_extension_flag = 1 ∧ s.pps_multilayer_extension = none

end H265
