/-
Dumping a valid structure dereferences no null pointer and reads inside its vectors.
-/
import Verif.Model.DumpNal
import Verif.Proof.Dump
import Verif.Spec.Hrd

set_option autoImplicit false

namespace H265
open Spec

/-- the dump writes a text -/
def OkD (x : Dump) : Prop := ∃ d, x = .ok d

structure OkAll (l : List Dump) : Prop where
  all : ∀ x ∈ l, OkD x

theorem OkAll.nil : OkAll [] := ⟨by simp⟩
theorem OkAll.cons {x : Dump} {l : List Dump} (h : OkD x) (hl : OkAll l) : OkAll (x :: l) :=
  ⟨fun y hy => by
    rcases List.mem_cons.1 hy with rfl | hy
    · exact h
    · exact hl.all y hy⟩
theorem OkAll.append {l m : List Dump} (h : OkAll l) (hm : OkAll m) : OkAll (l ++ m) :=
  ⟨fun y hy => by
    rcases List.mem_append.1 hy with hy | hy
    · exact h.all y hy
    · exact hm.all y hy⟩

theorem OkD.ok (d : Doc) : OkD (.ok d) := ⟨d, rfl⟩
theorem OkD.seq {l : List Dump} (h : OkAll l) : OkD (Dump.seq l) := by
  induction l with
  | nil => exact ⟨_, rfl⟩
  | cons x l ih =>
    obtain ⟨a, rfl⟩ := h.all x (by simp)
    obtain ⟨b, hb⟩ := ih ⟨fun y hy => h.all y (by simp [hy])⟩
    exact ⟨.cat a b, by simp [Dump.seq, hb]⟩
theorem OkD.fld (name : String) (v : List Char) : OkD (Dump.fld name v) := ⟨_, rfl⟩
theorem OkD.lst {α : Type} (name : String) (f : α → List Char) (l : List α) : OkD (Dump.lst name f l) := ⟨_, rfl⟩
theorem OkD.on {x : Dump} (h : OkD x) : OkD (Dump.on x) := OkD.seq (OkAll.cons ⟨_, rfl⟩ (OkAll.cons h OkAll.nil))
theorem OkD.cond {c : Prop} [Decidable c] {l : List Dump} (h : c → OkAll l) : OkD (Dump.cond c l) := by
  unfold Dump.cond; split
  · exact OkD.seq (h (by assumption))
  · exact ⟨_, rfl⟩
theorem OkD.blk {name : String} {l : List Dump} (h : OkAll l) : OkD (Dump.blk name l) := by
  obtain ⟨d, hd⟩ := OkD.seq h
  exact ⟨_, by unfold Dump.blk; rw [hd]⟩
theorem OkD.deref {α : Type} {o : Option α} {f : α → Dump} (hs : o.isSome) (h : ∀ a, o = some a → OkD (f a)) : OkD (Dump.deref o f) := by
  cases o with
  | none => cases hs
  | some a => exact h a rfl
theorem OkD.ifSome {α : Type} {o : Option α} {f : α → Dump} (h : ∀ a, o = some a → OkD (f a)) : OkD (Dump.ifSome o f) := by
  cases o with
  | none => exact ⟨_, rfl⟩
  | some a => exact h a rfl
theorem OkD.elem {α : Type} {l : List α} {i : Nat} {f : α → Dump} (hi : i < l.length) (h : ∀ a, OkD (f a)) : OkD (Dump.elem l i f) := by
  unfold Dump.elem
  rw [List.getElem?_eq_getElem hi]
  exact h _
theorem OkD.each {α : Type} {l : List α} {f : α → Dump} (h : ∀ a ∈ l, OkD (f a)) : OkD (Dump.each l f) :=
  OkD.seq ⟨fun x hx => by obtain ⟨a, ha, rfl⟩ := List.mem_map.1 hx; exact h a ha⟩
theorem OkD.upTo {α : Type} {n : Nat} {l : List α} {f : Nat → α → Dump} (hn : n ≤ l.length) (h : ∀ i a, a ∈ l → OkD (f i a)) : OkD (Dump.upTo n l f) := by
  unfold Dump.upTo
  rw [if_pos hn]
  refine OkD.seq ⟨fun x hx => ?_⟩
  obtain ⟨i, hi, rfl⟩ := List.mem_mapIdx.1 hx
  exact h _ _ (List.mem_of_mem_take (List.getElem_mem hi))

attribute [local irreducible] Dump.fld Dump.lst Dump.on Dump.cond Dump.deref Dump.ifSome Dump.elem Dump.each Dump.upTo Dump.blk Dump.seq OkD

/-- one step -/
macro "safe1" : tactic => `(tactic| first
  | exact OkAll.nil | apply OkAll.cons
  | exact OkD.fld _ _ | exact OkD.lst _ _ _ | apply OkD.on | refine OkD.cond (fun _ => ?_) | apply OkD.blk | apply OkD.seq
  | refine OkD.ifSome (fun _ _ => ?_) | refine OkD.each (fun _ _ => ?_))
macro "safe" : tactic => `(tactic| repeat' safe1)

theorem safe_profileInfo (s : ProfileInfo) : OkAll (profileInfoItems s) := by unfold profileInfoItems; safe

theorem safe_dumpPtl {present : Bool} {n k : Nat} {s : ProfileTierLevel} (hv : ValidProfileTierLevel present k s) : OkD (dumpPtl present n s) := by
  unfold dumpPtl dumpPtl.items
  repeat' first | exact safe_profileInfo _ | safe1
  exact OkD.deref (hv.general.present.2 (by assumption)) (fun g _ => OkD.blk (safe_profileInfo g))

theorem safe_dumpNalUnitHeader (s : NalUnitHeader) : OkD (dumpNalUnitHeader s) := by
  unfold dumpNalUnitHeader dumpNalUnitHeader.items
  safe

theorem safe_dumpAud (s : Aud) : OkD (dumpAud s) := by
  unfold dumpAud dumpAud.items
  safe

theorem safe_dumpSubLayerHrd (s : List SubLayerHrdEntry) : OkD (dumpSubLayerHrd s) := by
  unfold dumpSubLayerHrd dumpSubLayerHrd.items
  safe

theorem safe_dumpHrd (common : Nat) (s : HrdParameters) : OkD (dumpHrd common s) := by
  unfold dumpHrd dumpHrd.items
  repeat' first | exact safe_dumpSubLayerHrd _ | safe1

theorem safe_dumpVui {n : Nat} {s : VuiParameters} (hv : ValidVuiParameters n s) : OkD (dumpVui s) := by
  unfold dumpVui dumpVui.items
  repeat' safe1
  exact OkD.deref (hv.hrd_parameters.present.2 ⟨by assumption, by assumption⟩) (fun h _ => safe_dumpHrd 1 h)

theorem safe_dumpVps {v : Vps} (hv : ValidVpsBody v.body) : OkD (dumpVps v) := by
  unfold dumpVps dumpVps.items
  repeat' first | exact safe_dumpPtl hv.profile_tier_level | safe1
  refine OkD.deref ?_ (fun h _ => safe_dumpHrd _ _)
  have hl := hv.hrds.length
  have : v.body.hrds ≠ [] := by intro h0; rw [h0] at hl; simp at hl; omega
  rw [List.getLast?_eq_some_getLast this]; rfl

theorem safe_dumpStRefPicSet (idx num : Nat) (s : StRefPicSet) : OkD (dumpStRefPicSet idx num s) := by
  unfold dumpStRefPicSet dumpStRefPicSet.items
  safe

theorem safe_dumpScalingListData (s : ScalingListData) : OkD (dumpScalingListData s) := by
  unfold dumpScalingListData dumpScalingListData.items
  safe

theorem safe_dumpSpsRangeExtension (s : SpsRangeExtension) : OkD (dumpSpsRangeExtension s) := by
  unfold dumpSpsRangeExtension dumpSpsRangeExtension.items
  safe

theorem safe_dumpSpsMultilayerExtension (s : SpsMultilayerExtension) : OkD (dumpSpsMultilayerExtension s) := by
  unfold dumpSpsMultilayerExtension dumpSpsMultilayerExtension.items
  safe

theorem safe_dumpSps3dExtension (s : Sps3dExtension) : OkD (dumpSps3dExtension s) := by
  unfold dumpSps3dExtension dumpSps3dExtension.items
  safe

theorem safe_dumpSpsSccExtension (s : SpsSccExtension) : OkD (dumpSpsSccExtension s) := by
  unfold dumpSpsSccExtension dumpSpsSccExtension.items
  safe

theorem safe_dumpSps {add_resolution : Bool} {v : Sps} (hv : ValidSpsBody v.body) (hr : OkD (dumpResolution v.body)) : OkD (dumpSps add_resolution v) := by
  unfold dumpSps dumpSps.items
  repeat' first
    | exact safe_dumpPtl hv.profile_tier_level | exact hr
    | exact OkD.deref (hv.scaling_list_data.present.2 (by assumption)) (fun _ _ => safe_dumpScalingListData _)
    | exact OkD.deref (hv.vui_parameters.present.2 (by assumption)) (fun _ h => safe_dumpVui (hv.vui_parameters.valid _ h))
    | exact OkD.deref (hv.sps_range_extension.present.2 (by assumption)) (fun _ _ => safe_dumpSpsRangeExtension _)
    | exact OkD.deref (hv.sps_multilayer_extension.present.2 (by assumption)) (fun _ _ => safe_dumpSpsMultilayerExtension _)
    | exact OkD.deref (hv.sps_3d_extension.present.2 (by assumption)) (fun _ _ => safe_dumpSps3dExtension _)
    | exact OkD.deref (hv.sps_scc_extension.present.2 (by assumption)) (fun _ _ => safe_dumpSpsSccExtension _)
    | exact OkD.upTo (Nat.le_of_eq hv.st_ref_pic_set.length.symm) (fun _ _ _ => OkD.on (safe_dumpStRefPicSet _ _ _))
    | safe1

theorem safe_dumpPpsMultilayerExtension (s : PpsMultilayerExtension) : OkD (dumpPpsMultilayerExtension s) := by
  unfold dumpPpsMultilayerExtension dumpPpsMultilayerExtension.items
  safe

theorem safe_dumpPpsSccExtension (s : PpsSccExtension) : OkD (dumpPpsSccExtension s) := by
  unfold dumpPpsSccExtension dumpPpsSccExtension.items
  safe

theorem safe_dumpPps {v : Pps} (hs : v.body.head.pps_scc_extension_flag ≠ 0 → v.body.pps_scc_extension.isSome)
    (hm : v.body.head.pps_multilayer_extension_flag ≠ 0 → v.body.pps_multilayer_extension.isSome) : OkD (dumpPps v) := by
  unfold dumpPps dumpPps.items
  repeat' first
    | exact OkD.deref (And.right (by assumption)) (fun _ _ => safe_dumpScalingListData _)
    | exact OkD.deref (hm (by assumption)) (fun _ _ => safe_dumpPpsMultilayerExtension _)
    | exact OkD.deref (hs (by assumption)) (fun _ _ => safe_dumpPpsSccExtension _)
    | safe1

theorem safe_dumpPredWeightTable (chroma : Nat) (s : PredWeightTable) : OkD (dumpPredWeightTable chroma s) := by
  unfold dumpPredWeightTable dumpPredWeightTable.items
  safe

theorem safe_dumpLtRefPic (S : SpsBody) (s : SliceBody) (i : Nat) : OkD (dumpLtRefPic S s i) := by
  unfold dumpLtRefPic
  safe

theorem safe_dumpSliceSegmentHeader {t : Nat} {P : PpsBody} {S : SpsBody} {h : SliceSegmentHeader} (hv : ValidSliceBody h.nal_unit_type P S t h.body) :
    OkD (dumpSliceSegmentHeader P S h) := by
  unfold dumpSliceSegmentHeader dumpSliceSegmentHeader.items
  repeat' first
    | exact safe_dumpStRefPicSet _ _ _ | exact safe_dumpLtRefPic _ _ _
    | exact OkD.deref (hv.pred_weight_table.present.2 ⟨by assumption, by assumption⟩) (fun _ _ => safe_dumpPredWeightTable _ _)
    | safe1

theorem safe_dumpSliceSegmentLayer {t : Nat} {P : PpsBody} {S : SpsBody} {h : SliceSegmentHeader} (hv : ValidSliceBody h.nal_unit_type P S t h.body) :
    OkD (dumpSliceSegmentLayer P S h) := by
  unfold dumpSliceSegmentLayer dumpSliceSegmentLayer.items
  repeat' first | exact safe_dumpSliceSegmentHeader hv | safe1

theorem safe_dumpSeiUserDataRegistered (s : SeiUserDataRegistered) : OkD (dumpSeiUserDataRegistered s) := by
  unfold dumpSeiUserDataRegistered dumpSeiUserDataRegistered.items
  safe

theorem safe_dumpSeiUserDataUnregistered (s : SeiUserDataUnregistered) : OkD (dumpSeiUserDataUnregistered s) := by
  unfold dumpSeiUserDataUnregistered dumpSeiUserDataUnregistered.items
  safe

theorem safe_dumpSeiContentLightLevel (s : SeiContentLightLevel) : OkD (dumpSeiContentLightLevel s) := by
  unfold dumpSeiContentLightLevel dumpSeiContentLightLevel.items
  safe

theorem safe_dumpSeiKneeFunction (s : SeiKneeFunction) : OkD (dumpSeiKneeFunction s) := by
  unfold dumpSeiKneeFunction dumpSeiKneeFunction.items
  safe

theorem safe_dumpSeiAlternativeTransfer (s : SeiAlternativeTransfer) : OkD (dumpSeiAlternativeTransfer s) := by
  unfold dumpSeiAlternativeTransfer dumpSeiAlternativeTransfer.items
  safe

theorem safe_dumpSeiAmbientViewing (s : SeiAmbientViewing) : OkD (dumpSeiAmbientViewing s) := by
  unfold dumpSeiAmbientViewing dumpSeiAmbientViewing.items
  safe

theorem safe_dumpSeiAlphaChannelInfo (s : SeiAlphaChannelInfo) : OkD (dumpSeiAlphaChannelInfo s) := by
  unfold dumpSeiAlphaChannelInfo dumpSeiAlphaChannelInfo.items
  safe

theorem safe_dumpSeiUnknown (s : SeiUnknown) : OkD (dumpSeiUnknown s) := by
  unfold dumpSeiUnknown dumpSeiUnknown.items
  safe

theorem safe_dumpSeiMasteringDisplay {s : SeiMasteringDisplay} (hv : ValidSeiMasteringDisplay s) : OkD (dumpSeiMasteringDisplay s) := by
  unfold dumpSeiMasteringDisplay dumpSeiMasteringDisplay.items
  have hl := hv.display_primaries.length
  repeat' first | refine OkD.elem (by omega) (fun _ => ?_) | safe1

theorem safe_dumpSeiColourRemapping {s : SeiColourRemapping} (hv : ValidSeiColourRemapping s) : OkD (dumpSeiColourRemapping s) := by
  unfold dumpSeiColourRemapping dumpSeiColourRemapping.items
  repeat' first
    | refine OkD.elem (by have hl := (hv.pre_lut.present (by assumption)).length; omega) (fun _ => ?_)
    | refine OkD.elem (by have hl := (hv.post_lut.present (by assumption)).length; omega) (fun _ => ?_)
    | safe1

theorem safe_dumpSeiContentColourVolume {s : SeiContentColourVolume} (hv : ValidSeiContentColourVolume s) : OkD (dumpSeiContentColourVolume s) := by
  unfold dumpSeiContentColourVolume dumpSeiContentColourVolume.items
  repeat' first
    | refine OkD.elem (by have hl := (hv.ccv_primaries.present ⟨by assumption, by assumption⟩).length; omega) (fun _ => ?_)
    | safe1

theorem safe_dumpSeiPayload {t n : Nat} {s : SeiPayload} (hv : ValidSeiPayload t n s) : OkD (dumpSeiPayload s) := by
  unfold dumpSeiPayload
  cases s with
  | userDataRegistered s => exact safe_dumpSeiUserDataRegistered _
  | userDataUnregistered s => exact safe_dumpSeiUserDataUnregistered _
  | masteringDisplay s => exact safe_dumpSeiMasteringDisplay hv.2
  | contentLightLevel s => exact safe_dumpSeiContentLightLevel _
  | kneeFunction s => exact safe_dumpSeiKneeFunction _
  | colourRemapping s => exact safe_dumpSeiColourRemapping hv.2
  | contentColourVolume s => exact safe_dumpSeiContentColourVolume hv.2
  | alternativeTransfer s => exact safe_dumpSeiAlternativeTransfer _
  | ambientViewing s => exact safe_dumpSeiAmbientViewing _
  | alphaChannelInfo s => exact safe_dumpSeiAlphaChannelInfo _
  | unknown s => exact safe_dumpSeiUnknown _

theorem safe_dumpSei {s : SeiMessage} (hv : ∀ p, s.payload_state = some p → ValidSeiPayload s.payload_type s.payload_size p) : OkD (dumpSei s) := by
  unfold dumpSei dumpSei.items
  exact OkD.blk (OkAll.cons (OkD.fld _ _) (OkAll.cons (OkD.fld _ _) (OkAll.cons (OkD.ifSome (fun p h => OkD.on (safe_dumpSeiPayload (hv p h)))) OkAll.nil)))

end H265
