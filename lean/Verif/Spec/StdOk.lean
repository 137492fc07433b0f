/-
Which structures of the standard the library supports, and how it reports them.
-/
import Verif.Spec.Std

namespace H265.Std
open Spec

set_option autoImplicit false

/-! ### the supported part of the standard -/

/-- sub_layer_level_present_flag = sub_layer_profile_present_flag for every sub-layer (the library reads the level if the profile is present) -/
def SupportedPtl (p : StdPtl) : Prop := ∀ x ∈ p.sub_layers, x.profile_present_flag = x.level_present_flag

/-- how the library reports a profile_tier_level( ) -/
def StdPtl.reported (maxSub : Nat) (p : StdPtl) : ProfileTierLevel where
  general := some p.general
  general_level_idc := p.general_level_idc
  sub_layer_flags := p.sub_layers.map fun x => (x.profile_present_flag, x.level_present_flag)
  reserved_zero_2bits := if maxSub > 0 then List.replicate (8 - maxSub) 0 else []
  sub_layers := p.sub_layers.map fun x => if x.profile_present_flag ≠ 0 then some (x.profile, x.level_idc) else none

/-- no sub-layer with fixed_pic_rate_general_flag 1 (the library does not infer fixed_pic_rate_within_cvs_flag) -/
def SupportedHrd (s : HrdParameters) : Prop := ∀ x ∈ s.sub_layers, x.fixed_pic_rate_general_flag = 0

/-- the HRD parameters are supported; no offset of the default display window is above 16384 -/
structure SupportedVui (s : VuiParameters) : Prop where
  hrd : ∀ h, s.hrd_parameters = some h → SupportedHrd h
  left : s.def_disp_win_left_offset ≤ 16384
  right : s.def_disp_win_right_offset ≤ 16384
  top : s.def_disp_win_top_offset ≤ 16384
  bottom : s.def_disp_win_bottom_offset ≤ 16384

structure SupportedSps (ptl : StdPtl) (s : SpsBody) : Prop where
  ptl : SupportedPtl ptl
  vui : ∀ x, s.vui_parameters = some x → SupportedVui x

/-- the multilayer extension has no colour mapping table, and its phases are 0 or 1 (the library reads the unsigned phases as signed ones;
the two codes agree on 0 and 1 only) -/
structure SupportedPpsMultilayer (s : PpsMultilayerExtension) : Prop where
  colour_mapping : s.colour_mapping_enabled_flag = 0
  phases : ∀ e ∈ s.ref_loc_offset, ∀ p, e.resample_phase_set = some p →
    p.phase_hor_luma ≤ 1 ∧ p.phase_ver_luma ≤ 1 ∧ p.phase_hor_chroma_plus8 ≤ 1 ∧ p.phase_ver_chroma_plus8 ≤ 1

/-- no range or 3D extension, a supported multilayer extension, no palette predictor initializers (the library reads their bit depth under
the opposite condition) -/
structure SupportedPps (s : PpsBody) : Prop where
  range : s.head.pps_range_extension_flag = 0
  multilayer : ∀ x, s.pps_multilayer_extension = some x → SupportedPpsMultilayer x
  ext3d : s.head.pps_3d_extension_flag = 0
  palette : ∀ x, s.pps_scc_extension = some x → x.pps_num_palette_predictor_initializer = 0

/-- The slice segment headers the library reads as the standard does: no ref_pic_lists_modification( ); num_ref_idx values that matter are
transmitted (or inferred to be 0); weights only for P slices, with SAO enabled or ChromaArrayType 0; the presence of
slice_loop_filter_across_slices_enabled_flag does not depend on the inference of slice_deblocking_filter_disabled_flag; with tiles and
wavefronts, no entry points after the last but one CTB row. -/
structure SupportedSlice (nal_unit_type : Nat) (P : PpsBody) (S : SpsBody) (s : SliceBody) : Prop where
  lists : s.dependent_slice_segment_flag = 0 → s.slice_type ≤ 1 →
    P.head.lists_modification_present_flag = 0 ∨ numPicTotalCurr nal_unit_type P S s ≤ 1
  num_ref_idx : s.dependent_slice_segment_flag = 0 → s.slice_type ≤ 1 → s.slice_temporal_mvp_enabled_flag ≠ 0 ∨ s.pred_weight_table ≠ none →
    s.num_ref_idx_active_override_flag ≠ 0 ∨
      (P.head.num_ref_idx_l0_default_active_minus1 = 0 ∧ (s.slice_type = 0 → P.head.num_ref_idx_l1_default_active_minus1 = 0))
  weights : s.pred_weight_table ≠ none → s.slice_type = 1 ∧ (S.sample_adaptive_offset_enabled_flag ≠ 0 ∨ chromaArrayType S = 0)
  deblocking : s.dependent_slice_segment_flag = 0 → P.head.pps_loop_filter_across_slices_enabled_flag ≠ 0 →
    s.slice_sao_luma_flag ≠ 0 ∨ s.slice_sao_chroma_flag ≠ 0 ∨ s.deblocking_filter_override_flag ≠ 0 ∨ P.head.pps_deblocking_filter_disabled_flag = 0
  entry_points : P.head.tiles_enabled_flag ≠ 0 → P.head.entropy_coding_sync_enabled_flag ≠ 0 →
    s.num_entry_point_offsets ≤ (P.head.num_tile_columns_minus1 + 1) * (picHeightInCtbsY S - 1)

end H265.Std
