/- C48: the excluded constructs are needed: conforming structures that the library does not read back. -/
import Verif.Props.StdExample

namespace H265.Std
open Spec

set_option autoImplicit false

/-- closes the conditions on literal values -/
local macro "conf" : tactic => `(tactic| repeat' (first
  | decide
  | (intro x hx; cases hx; done)
  | (intro x hx; change some _ = some x at hx; cases hx)
  | (intro x hx; change x ∈ [_] at hx; simp only [List.mem_singleton] at hx; subst hx)
  | (intro i x hx; exact absurd hx (by simp [exSps, exPps, exSlice, exSliceP]))
  | (intro h; exact absurd h (by decide))
  | (intro h; contradiction)
  | constructor
  | (intro _; constructor)))

/-- what the slice parser returns for a header written after the standard with parameter sets `P` and `S`, followed by a stop bit -/
def sliceResult (nal : Nat) (P : PpsBody) (S : SpsBody) (s : SliceBody) (x : SliceExtra) : Option SliceSegmentHeader :=
  match (parseSliceSegmentLayer nal (fun _ => some ⟨P, 0⟩) (fun _ => some ⟨S, 0⟩)).denote (sliceSegmentHeader nal P S exHead s x ++ [true]) with
  | .ok v _ => some v
  | _ => none

/-- what the SPS parser returns for a body written after the standard, followed by a stop bit -/
def spsResult (ptl : StdPtl) (s : SpsBody) : Option SpsBody :=
  match parseSps.denote (Std.sps ptl s ++ [true]) with
  | .ok v _ => some v.body
  | _ => none

def ppsResult (s : PpsBody) : Option PpsBody :=
  match parsePps.denote (Std.pps s ++ [true]) with
  | .ok v _ => some v.body
  | _ => none

/-- the same functions on what is supported -/
example : sliceResult 1 exPps exSps exSliceP default = some ⟨1, exHead, exSliceP⟩ ∧ spsResult exPtl exSps = some exSps ∧ ppsResult exPps = some exPps := by
  decide +kernel

/-! ### reference picture list modification -/

def refs2 : SpsBody := { exSps with st_ref_pic_set := [{ inter_ref_pic_set_prediction_flag := 0, delta_idx_minus1 := 0, delta_rps_sign := 0, abs_delta_rps_minus1 := 0, flags := [], num_negative_pics := 2, num_positive_pics := 0, s0 := [⟨0, 1⟩, ⟨0, 1⟩], s1 := [] }] }
def listsPps : PpsBody := { exPps with head := { exPps.head with lists_modification_present_flag := 1 } }

theorem refs2_conforms : ConformsSpsBody exPtl refs2 := by
  constructor
  case profile_tier_level => exact ⟨exPtl_conforms, rfl⟩
  case st_ref_pic_set =>
    refine ⟨rfl, fun i s h => ?_⟩
    match i, h with
    | 0, h =>
      cases h; left
      constructor
      case s0 =>
        refine ⟨rfl, fun x hx => ?_⟩
        simp only [List.mem_cons, List.not_mem_nil, or_false, or_self] at hx
        subst hx
        constructor <;> decide
      all_goals conf
    | i + 1, h => cases h
  all_goals conf

theorem listsPps_conforms : ConformsPpsBody listsPps := by conf

theorem lists_conforms : ConformsSliceBody 1 listsPps refs2 1 exSliceP := by conf

/-- C48: with two reference pictures and lists_modification_present_flag 1, the slice header is not read back: the library does not read
ref_pic_lists_modification( ). -/
theorem C48_lists_modification_not_read :
    ConformsSpsBody exPtl refs2 ∧ ConformsPpsBody listsPps ∧ ConformsSliceBody 1 listsPps refs2 1 exSliceP ∧
    sliceResult 1 listsPps refs2 exSliceP default ≠ some ⟨1, exHead, exSliceP⟩ :=
  ⟨refs2_conforms, listsPps_conforms, lists_conforms, by decide +kernel⟩

/-! ### default numbers of active reference pictures -/

def activePps : PpsBody := { exPps with head := { exPps.head with num_ref_idx_l0_default_active_minus1 := 1 } }
def activeSlice : SliceBody := { exSliceP with collocated_ref_idx := 1 }

/-- C48: num_ref_idx_l0_active_minus1 is not inferred from the PPS: collocated_ref_idx is not read. -/
theorem C48_default_active_not_inferred :
    ConformsPpsBody activePps ∧ ConformsSliceBody 1 activePps exSps 1 activeSlice ∧
    sliceResult 1 activePps exSps activeSlice default ≠ some ⟨1, exHead, activeSlice⟩ := by
  refine ⟨?_, ?_, by decide +kernel⟩
  · conf
  · conf

/-! ### weights -/

def weightPps : PpsBody := { exPps with head := { exPps.head with weighted_pred_flag := 1, weighted_bipred_flag := 1 } }
def noSaoSps : SpsBody := { exSps with sample_adaptive_offset_enabled_flag := 0 }
def weightSlice : SliceBody := { exSliceP with slice_sao_luma_flag := 0, slice_sao_chroma_flag := 0, pred_weight_table := some ⟨3, 1, [0], [0], [⟨none, none⟩]⟩ }
def weightSliceB : SliceBody := { exSliceP with slice_type := 0, pred_weight_table := some ⟨3, 1, [0], [0], [⟨none, none⟩]⟩ }

theorem weightPps_conforms : ConformsPpsBody weightPps := by conf

theorem noSaoSps_conforms : ConformsSpsBody exPtl noSaoSps := by
  constructor
  case profile_tier_level => exact ⟨exPtl_conforms, rfl⟩
  case st_ref_pic_set => exact exSps_conforms.st_ref_pic_set
  all_goals conf

theorem weights_conform (c : Nat) (hc : c ≠ 0) : ConformsPredWeightTable c 0 ⟨3, 1, [0], [0], [⟨none, none⟩]⟩ where
  luma_log2_weight_denom := by decide
  delta_chroma_log2_weight_denom := ⟨fun _ => by decide, fun h => absurd hc h⟩
  luma_weight_l0_flag := ⟨rfl, by decide⟩
  chroma_weight_l0_flag := ⟨fun _ => ⟨rfl, by decide⟩, fun h => absurd hc h⟩
  weights := by
    refine ⟨rfl, fun i x hx => ?_⟩
    match i, hx with
    | 0, hx => cases hx; conf
    | i + 1, hx => cases hx

/-- C48: when SAO is off, ChromaArrayType is taken to be 0 and the chroma weights are not read. -/
theorem C48_weights_need_sao :
    ConformsPpsBody weightPps ∧ ConformsSpsBody exPtl noSaoSps ∧ ConformsSliceBody 1 weightPps noSaoSps 1 weightSlice ∧
    sliceResult 1 weightPps noSaoSps weightSlice default ≠ some ⟨1, exHead, weightSlice⟩ := by
  refine ⟨weightPps_conforms, noSaoSps_conforms, ?_, by decide +kernel⟩
  constructor
  case pred_weight_table =>
    refine ⟨by decide, fun x hx => ?_⟩
    cases hx
    exact weights_conform 1 (by decide)
  all_goals conf

/-- C48: the weights of list 1 of a B slice are not read. -/
theorem C48_list1_weights_not_read :
    ConformsPpsBody weightPps ∧ ConformsSliceBody 1 weightPps exSps 1 weightSliceB ∧
    sliceResult 1 weightPps exSps weightSliceB ⟨0, [], 0, [], [0], [0], [⟨none, none⟩]⟩ ≠ some ⟨1, exHead, weightSliceB⟩ := by
  refine ⟨weightPps_conforms, ?_, by decide +kernel⟩
  constructor
  case pred_weight_table =>
    refine ⟨by decide, fun x hx => ?_⟩
    cases hx
    exact weights_conform 1 (by decide)
  all_goals conf

/-! ### deblocking -/

def deblockPps : PpsBody := { exPps with head := { exPps.head with deblocking_filter_control_present_flag := 1, pps_deblocking_filter_disabled_flag := 1, pps_loop_filter_across_slices_enabled_flag := 1 } }
def deblockSlice : SliceBody := { exSliceP with slice_sao_luma_flag := 0, slice_sao_chroma_flag := 0 }

/-- C48: slice_deblocking_filter_disabled_flag is not inferred from the PPS: a loop filter flag that is not there is read.  Here the bit
behind the header becomes slice_loop_filter_across_slices_enabled_flag. -/
theorem C48_deblocking_not_inferred :
    ConformsPpsBody deblockPps ∧ ConformsSliceBody 1 deblockPps exSps 1 deblockSlice ∧
    sliceResult 1 deblockPps exSps deblockSlice default = some ⟨1, exHead, { deblockSlice with slice_loop_filter_across_slices_enabled_flag := 1 }⟩ := by
  refine ⟨?_, ?_, by decide +kernel⟩
  · conf
  · conf

/-! ### entry points -/

def tilesPps : PpsBody := { exPps with head := { exPps.head with tiles_enabled_flag := 1, entropy_coding_sync_enabled_flag := 1, num_tile_columns_minus1 := 1, num_tile_rows_minus1 := 0, uniform_spacing_flag := 1 } }
/-- 23 CTB rows in two tile columns: 45 entry points -/
def tilesSlice : SliceBody := { exSlice with num_entry_point_offsets := 45, offset_len_minus1 := 0, entry_point_offset_minus1 := List.replicate 45 0 }

theorem tiles_conforms : ConformsSliceBody 19 tilesPps exSps 1 tilesSlice := by
  constructor
  case num_entry_point_offsets => constructor <;> decide +kernel
  case entry_point_offset_minus1 => exact ⟨fun _ => ⟨rfl, by decide⟩, fun h => absurd (by decide) h⟩
  all_goals conf

/-- C48: with tiles and wavefronts, a slice with an entry point for every CTB row of every tile column is rejected. -/
theorem C48_entry_points_rejected :
    ConformsPpsBody tilesPps ∧ ConformsSliceBody 19 tilesPps exSps 1 tilesSlice ∧ sliceResult 19 tilesPps exSps tilesSlice default = none := by
  refine ⟨?_, tiles_conforms, by decide +kernel⟩
  conf

/-! ### profile_tier_level( ) -/

/-- one sub-layer with a level but no profile -/
def levelPtl : StdPtl := { exPtl with sub_layers := [{ profile_present_flag := 0, level_present_flag := 1, profile := exPtl.general, level_idc := 90 }] }
def levelSps : SpsBody := { exSps with sps_max_sub_layers_minus1 := 1, profile_tier_level := levelPtl.reported 1, sps_sub_layer_ordering_info_present_flag := 0 }

theorem levelPtl_conforms : ConformsPtl 1 levelPtl := by
  have hx : ∀ x ∈ levelPtl.sub_layers, x = { profile_present_flag := 0, level_present_flag := 1, profile := exPtl.general, level_idc := 90 } := by
    intro x hx; exact List.mem_singleton.mp hx
  refine ⟨by decide, exPtl_conforms.general, by decide, rfl, ?_, ?_, ?_⟩ <;> intro x h <;> rw [hx x h]
  · decide
  · intro h; cases h
  · decide

theorem levelSps_conforms : ConformsSpsBody levelPtl levelSps := by
  constructor
  case profile_tier_level => exact ⟨levelPtl_conforms, rfl⟩
  case st_ref_pic_set => exact exSps_conforms.st_ref_pic_set
  all_goals conf

/-- C48: sub_layer_level_idc is only read when the sub-layer profile is present. -/
theorem C48_sub_layer_level_not_read : ConformsSpsBody levelPtl levelSps ∧ spsResult levelPtl levelSps ≠ some levelSps :=
  ⟨levelSps_conforms, by decide +kernel⟩

/-! ### PPS extensions -/

/-- range, 3D extension: the flags -/
def rangePps : PpsBody := { exPps with head := { exPps.head with pps_extension_present_flag := 1, pps_range_extension_flag := 1 } }
def ext3dPps : PpsBody := { exPps with head := { exPps.head with pps_extension_present_flag := 1, pps_3d_extension_flag := 1 } }

/-- C48: a PPS that announces a range or 3D extension is never returned, whatever the bits are. -/
theorem C48_pps_extensions_rejected {bb bb' : BB} {v : Pps} (s : PpsBody) (hwf : bb.WF) (hr : parsePps.run bb = .ok v bb')
    (h : s.head.pps_range_extension_flag ≠ 0 ∨ s.head.pps_3d_extension_flag ≠ 0) : v.body ≠ s := by
  obtain ⟨h1, h2, _⟩ := C29_pps_limits hwf hr
  intro he
  rw [he] at h1 h2
  omega

/-- hypotheses met -/
example : ConformsPpsBody rangePps ∧ ConformsPpsBody ext3dPps ∧ ppsResult rangePps = none ∧ ppsResult ext3dPps = none := by
  refine ⟨by conf, by conf, by decide +kernel, by decide +kernel⟩

/-- a PPS with a multilayer extension that has one reference location offset entry with the given phases -/
def multilayerPps (ph : ResamplePhase) (colour : Nat) : PpsBody :=
  { exPps with
    head := { exPps.head with pps_extension_present_flag := 1, pps_multilayer_extension_flag := 1 }
    pps_multilayer_extension := some ⟨1, 1, 5, 1, [⟨3, 1, some ⟨-4, 2, -16384, 16383⟩, 0, none, 1, some ph⟩], colour⟩ }

/-- C48, a supported multilayer extension: scaled reference layer offsets and phases 0 and 1 -/
example : ConformsPpsBody (multilayerPps ⟨0, 1, 0, 1⟩ 0) ∧ SupportedPps (multilayerPps ⟨0, 1, 0, 1⟩ 0) ∧
    ppsResult (multilayerPps ⟨0, 1, 0, 1⟩ 0) = some (multilayerPps ⟨0, 1, 0, 1⟩ 0) := by
  refine ⟨by conf, ?_, by decide +kernel⟩
  refine ⟨rfl, fun x hx => ?_, rfl, fun x hx => by cases hx⟩
  cases hx
  refine ⟨rfl, fun e he p hp => ?_⟩
  cases he with
  | head => cases hp; decide
  | tail _ h => cases h

/-- C48: the phases of a multilayer extension are ue(v) in the standard and are read as se(v).  The usual values (luma phase 0, chroma
phase 8) come out as -4 for the chroma phases. -/
theorem C48_phases_excluded :
    ConformsPpsBody (multilayerPps ⟨0, 0, 8, 8⟩ 0) ∧ ppsResult (multilayerPps ⟨0, 0, 8, 8⟩ 0) = some (multilayerPps ⟨0, 0, -4, -4⟩ 0) := by
  refine ⟨by conf, by decide +kernel⟩

/-- C48: no PPS with a colour mapping table is reported, whatever the bits are. -/
theorem C48_colour_mapping_lost {bb bb' : BB} {v : Pps} {x : PpsMultilayerExtension} (hwf : bb.WF) (hr : parsePps.run bb = .ok v bb')
    (h : v.body.pps_multilayer_extension = some x) : x.colour_mapping_enabled_flag = 0 :=
  ((C29_pps_sound hwf hr fun hl => absurd (hl.2.symm.trans h) (by simp)).1.pps_multilayer_extension.valid x h).colour_mapping_unsupported

/-- hypotheses met: a conforming extension -/
example : ConformsPpsBody (multilayerPps ⟨0, 0, 0, 0⟩ 1) := by conf

/-! ### VUI -/

/-- C48: no SPS with an offset of the default display window above 16384 is reported, whatever the bits are. -/
theorem C48_display_window_limited {bb bb' : BB} {v : Sps} {x : VuiParameters} (hwf : bb.WF) (hr : parseSps.run bb = .ok v bb')
    (h : v.body.vui_parameters = some x) :
    x.def_disp_win_left_offset ≤ 16384 ∧ x.def_disp_win_right_offset ≤ 16384 ∧
    x.def_disp_win_top_offset ≤ 16384 ∧ x.def_disp_win_bottom_offset ≤ 16384 := by
  have hv := (C27_sps_inverts.sound _ _ _ hwf hr).1.vui_parameters.valid x h
  by_cases hd : x.default_display_window_flag ≠ 0
  · exact ⟨(hv.def_disp_win_left_offset.present hd).2, (hv.def_disp_win_right_offset.present hd).2,
      (hv.def_disp_win_top_offset.present hd).2, (hv.def_disp_win_bottom_offset.present hd).2⟩
  · rw [hv.def_disp_win_left_offset.absent hd, hv.def_disp_win_right_offset.absent hd, hv.def_disp_win_top_offset.absent hd,
      hv.def_disp_win_bottom_offset.absent hd]
    decide

/-- a conforming SPS for a picture 16888 samples wide with such a window -/
def windowSps : SpsBody := { exSps with
  chroma_format_idc := 3
  pic_width_in_luma_samples := 16888
  vui_parameters := exSps.vui_parameters.map fun x => { x with default_display_window_flag := 1, def_disp_win_left_offset := 16400 } }

/-- conforming, and not accepted -/
example : ConformsSpsBody exPtl windowSps ∧ spsResult exPtl windowSps = none := by
  refine ⟨?_, by decide +kernel⟩
  constructor
  case profile_tier_level => exact exSps_conforms.profile_tier_level
  case st_ref_pic_set => exact exSps_conforms.st_ref_pic_set
  all_goals conf

end H265.Std
