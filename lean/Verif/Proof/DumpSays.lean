/-
The words of every dump are those of the tables of `Spec/DumpTables.lean`.
-/
import Verif.Model.DumpNal
import Verif.Proof.DumpWords
import Verif.Spec.DumpTables

set_option autoImplicit false

namespace H265
open Spec

theorem wordsD_chroma (v : Nat) : words (putChroma v) = [decimal v, '(' :: (fraction 5 (2 * v) ++ [')'])] := by
  have e : putChroma v = putU v ++ (' ' :: ('(' :: (putF 5 (2 * v) ++ [')']))) := by simp [putChroma]
  rw [e, words_sep _ (Sep.space _), words_space, words_solid (putU_word v).solid, words_solid, putU_decimal, putF_fraction]; rfl
  refine ⟨by simp, fun c hc => ?_⟩
  simp only [List.mem_cons, List.mem_append, List.not_mem_nil, or_false] at hc
  rcases hc with rfl | hc | rfl
  · rfl
  · exact (putF_word _ _).solid.2 c hc
  · rfl

theorem wordsD_candela (v : Nat) : words (putCandela v) = [decimal v, '(' :: fraction 4 v, "cd/m^2)".toList] := by
  have e : putCandela v = putU v ++ (' ' :: ('(' :: putF 4 v ++ " cd/m^2)".toList)) := by simp [putCandela]
  have h3 : words " cd/m^2)".toList = ["cd/m^2)".toList] := by decide
  rw [e, words_sep _ (Sep.space _), words_space, words_solid (putU_word v).solid, putU_decimal,
    words_sep _ (show Sep " cd/m^2)".toList from Sep.space _), h3, words_solid, putF_fraction]; rfl
  refine ⟨by simp, fun c hc => ?_⟩
  rcases List.mem_cons.1 hc with rfl | hc
  · rfl
  · exact (putF_word _ _).solid.2 c hc

theorem wordsD_light (v : Nat) : words (putU v ++ " cd/m^2".toList) = [decimal v, "cd/m^2".toList] := by
  have h3 : words " cd/m^2".toList = ["cd/m^2".toList] := by decide
  rw [words_sep _ (show Sep " cd/m^2".toList from Sep.space _), h3, words_solid (putU_word v).solid, putU_decimal]; rfl

theorem wordsD_gap (v : Nat) : words (putU v ++ [' ']) = [decimal v] := by
  rw [words_sep _ (Sep.space _), words_solid (putU_word v).solid, putU_decimal]; rfl

theorem wordsD_uuid (a b : Nat) : words (putUuid a b) = [uuid a b] := by
  have e : putUuid a b = uuid a b := by unfold putUuid uuid; simp only [putX0_hex]
  rw [← e]
  refine words_solid ⟨by simp [putUuid], fun c hc => ?_⟩
  unfold putUuid at hc
  simp only [List.mem_cons, List.mem_append] at hc
  rcases hc with hc | rfl | hc | rfl | hc | rfl | hc | rfl | hc <;> first | rfl | exact (putX0_word _ _).solid.2 c hc

theorem wordsD_hex (w n : Nat) : words ("0x".toList ++ putX0 w n) = ["0x".toList ++ hexadecimal w n] := by
  rw [putX0_hex]
  refine words_solid ⟨by simp, fun c hc => ?_⟩
  rcases List.mem_append.1 hc with hc | hc
  · have h2 : ∀ c ∈ "0x".toList, blank c = false := by decide
    exact h2 c hc
  · rw [← putX0_hex] at hc; exact (putX0_word _ _).solid.2 c hc

theorem profileName_eq (p : ProfileType) : profileTypeToString p = profileName p := by cases p <;> rfl

theorem Line.some? {α : Type} {o : Option α} {f : α → Dump} {g : α → Text} (h : ∀ a, Line (f a) (g a)) : Line (Dump.ifSome o f) (some? o g) := Line.ifSome h
theorem Line.elem? {α : Type} {l : List α} {i : Nat} {f : α → Dump} {g : α → Text} (h : ∀ a, Line (f a) (g a)) :
    Line (Dump.elem l i f) (Spec.some? l[i]? g) := Line.elem h
theorem Says.some? {α : Type} {o : Option α} {f : α → Dump} {g : α → Text} (h : ∀ a, Says (f a) (g a)) : Says (Dump.ifSome o f) (Spec.some? o g) := Says.ifSome h
theorem Says.deref? {α : Type} {o : Option α} {f : α → Dump} {g : α → Text} (h : ∀ a, Says (f a) (g a)) : Says (Dump.deref o f) (Spec.some? o g) := Says.deref h
theorem Line.chromaticity {name : String} {v : Nat} (h : NameSolid name) : Line (Dump.fld name (putChroma v)) (chromaticity name v) :=
  Line.fldText h (wordsD_chroma v)
theorem Line.luminance {name : String} {v : Nat} (h : NameSolid name) : Line (Dump.fld name (putCandela v)) (luminance name v) :=
  Line.fldText h (wordsD_candela v)
theorem Line.gap {name : String} {v : Nat} (h : NameSolid name) : Line (Dump.fld name (putU v ++ [' '])) (num name v) :=
  Line.fldText h (wordsD_gap v)
theorem itemUNat : ItemSays (Dump.item putU) oneNat := itemU

attribute [local irreducible] putI putU putD putX putX0 putF putUuid putChroma putCandela profileTypeToString profileName Dump.item Dump.itemGap Dump.sub
  Dump.fld Dump.lst Dump.on Dump.cond Dump.deref Dump.ifSome Dump.elem Dump.each Dump.upTo Dump.blk Dump.seq
  entry num u32 listed one one32 oneNat row block opt some? decimal hexadecimal fraction chromaticity luminance uuid

/-- one step -/
macro "says1" : tactic => `(tactic| first
  | exact Lists.nil | apply Lists.cons
  | exact Line.fldI (NameSolid.lit _ rfl rfl) | exact Line.fldU (NameSolid.lit _ rfl rfl) | exact Line.fldD (NameSolid.lit _ rfl rfl)
  | refine Line.lst (NameSolid.lit _ rfl rfl) ?_
  | apply Line.cond | apply Line.on | apply Says.blk | apply Line.seq
  | refine Says.deref? (fun _ => ?_) | refine Says.some? (fun _ => ?_) | refine Line.some? (fun _ => ?_) | refine Line.elem? (fun _ => ?_)
  | refine Line.each (fun _ => ?_) | refine Line.upTo (fun _ _ => ?_)
  | exact itemI | exact itemUNat | exact itemD | exact gapI | apply ItemSays.sub)

/-- proves that a list of statements says a list of texts -/
macro "says" : tactic => `(tactic| repeat' says1)

theorem says_profileInfo (s : ProfileInfo) : Lists (profileInfoItems s) (textProfileInfo s) := by
  unfold profileInfoItems textProfileInfo
  repeat' first
    | exact Line.fldText (name := "profile") (NameSolid.lit _ rfl rfl) (by rw [profileName_eq]) | says1

theorem says_dumpPtl (present : Bool) (n : Nat) (s : ProfileTierLevel) : Says (dumpPtl present n s) (textPtl present n s) := by
  unfold dumpPtl dumpPtl.items textPtl
  repeat' first | exact says_profileInfo _ | says1

theorem line_dumpResolution {s : SpsBody} (h : s.getResolution = .ok
    (s.pic_width_in_luma_samples - subWidthC s.chroma_format_idc * (s.conf_win_left_offset + s.conf_win_right_offset),
     s.pic_height_in_luma_samples - subHeightC s.chroma_format_idc * (s.conf_win_top_offset + s.conf_win_bottom_offset))) :
    Line (dumpResolution s) (textResolution s) := by
  unfold dumpResolution textResolution
  rw [h]
  exact Line.seq (Lists.cons (Line.fldD (NameSolid.lit _ rfl rfl)) (Lists.cons (Line.fldD (NameSolid.lit _ rfl rfl)) Lists.nil))

theorem says_dumpNalUnitHeader (s : NalUnitHeader) : Says (dumpNalUnitHeader s) (textNalUnitHeader s) := by
  unfold dumpNalUnitHeader dumpNalUnitHeader.items textNalUnitHeader
  says

theorem says_dumpAud (s : Aud) : Says (dumpAud s) (textAud s) := by
  unfold dumpAud dumpAud.items textAud
  says

theorem says_dumpSubLayerHrd (s : List SubLayerHrdEntry) : Says (dumpSubLayerHrd s) (textSubLayerHrd s) := by
  unfold dumpSubLayerHrd dumpSubLayerHrd.items textSubLayerHrd
  says

theorem says_dumpHrd (common : Nat) (s : HrdParameters) : Says (dumpHrd common s) (textHrd common s) := by
  unfold dumpHrd dumpHrd.items textHrd
  show Says _ _
  repeat' first | exact says_dumpSubLayerHrd _ | says1

theorem says_dumpVui (s : VuiParameters) : Says (dumpVui s) (textVui s) := by
  unfold dumpVui dumpVui.items textVui
  repeat' first | exact says_dumpHrd _ _ | says1

theorem says_dumpVps (v : Vps) : Says (dumpVps v) (textVps v) := by
  unfold dumpVps dumpVps.items textVps
  repeat' first | exact says_dumpPtl _ _ _ | exact says_dumpHrd _ _ | exact Line.fldText (NameSolid.lit _ rfl rfl) (wordsD_hex _ _) | says1

theorem says_dumpStRefPicSet (idx num : Nat) (s : StRefPicSet) : Says (dumpStRefPicSet idx num s) (textStRefPicSet idx num s) := by
  unfold dumpStRefPicSet dumpStRefPicSet.items textStRefPicSet
  says

theorem says_dumpScalingListData (s : ScalingListData) : Says (dumpScalingListData s) (textScalingListData s) := by
  unfold dumpScalingListData dumpScalingListData.items textScalingListData
  says

theorem says_dumpSpsRangeExtension (s : SpsRangeExtension) : Says (dumpSpsRangeExtension s) (textSpsRangeExtension s) := by
  unfold dumpSpsRangeExtension dumpSpsRangeExtension.items textSpsRangeExtension
  says

theorem says_dumpSpsMultilayerExtension (s : SpsMultilayerExtension) : Says (dumpSpsMultilayerExtension s) (textSpsMultilayerExtension s) := by
  unfold dumpSpsMultilayerExtension dumpSpsMultilayerExtension.items textSpsMultilayerExtension
  says

theorem says_dumpSps3dExtension (s : Sps3dExtension) : Says (dumpSps3dExtension s) (textSps3dExtension s) := by
  unfold dumpSps3dExtension dumpSps3dExtension.items textSps3dExtension
  says

theorem says_dumpSpsSccExtension (s : SpsSccExtension) : Says (dumpSpsSccExtension s) (textSpsSccExtension s) := by
  unfold dumpSpsSccExtension dumpSpsSccExtension.items textSpsSccExtension
  says

theorem says_dumpSps (add_resolution : Bool) (v : Sps) (hres : add_resolution = true → v.body.getResolution = .ok
    (v.body.pic_width_in_luma_samples - subWidthC v.body.chroma_format_idc * (v.body.conf_win_left_offset + v.body.conf_win_right_offset),
     v.body.pic_height_in_luma_samples - subHeightC v.body.chroma_format_idc * (v.body.conf_win_top_offset + v.body.conf_win_bottom_offset))) : Says (dumpSps add_resolution v) (textSps add_resolution v) := by
  unfold dumpSps dumpSps.items textSps
  have key : Line (.cond (add_resolution = true) [dumpResolution v.body]) (opt (add_resolution = true) [textResolution v.body]) := by
    by_cases h : add_resolution = true
    · exact Line.cond (Lists.cons (line_dumpResolution (hres h)) Lists.nil)
    · unfold Dump.cond opt; rw [if_neg h, if_neg h]; exact Line.nil
  repeat' first | exact says_dumpPtl _ _ _ | exact says_dumpVui _ | exact says_dumpStRefPicSet _ _ _ | exact says_dumpScalingListData _ | exact says_dumpSpsRangeExtension _ | exact says_dumpSpsMultilayerExtension _ | exact says_dumpSps3dExtension _ | exact says_dumpSpsSccExtension _ | exact key | says1

theorem says_dumpPpsMultilayerExtension (s : PpsMultilayerExtension) : Says (dumpPpsMultilayerExtension s) (textPpsMultilayerExtension s) := by
  unfold dumpPpsMultilayerExtension dumpPpsMultilayerExtension.items textPpsMultilayerExtension
  says

theorem says_dumpPpsSccExtension (s : PpsSccExtension) : Says (dumpPpsSccExtension s) (textPpsSccExtension s) := by
  unfold dumpPpsSccExtension dumpPpsSccExtension.items textPpsSccExtension
  says

theorem says_dumpPps (v : Pps) : Says (dumpPps v) (textPps v) := by
  unfold dumpPps dumpPps.items textPps
  repeat' first | exact says_dumpScalingListData _ | exact says_dumpPpsMultilayerExtension _ | exact says_dumpPpsSccExtension _ | says1

theorem says_dumpPredWeightTable (chroma : Nat) (s : PredWeightTable) : Says (dumpPredWeightTable chroma s) (textPredWeightTable chroma s) := by
  unfold dumpPredWeightTable dumpPredWeightTable.items textPredWeightTable
  says

theorem line_dumpLtRefPic (S : SpsBody) (s : SliceBody) (i : Nat) : Line (dumpLtRefPic S s i) (textLtRefPic S s i) := by
  unfold dumpLtRefPic textLtRefPic
  says

theorem says_dumpSliceSegmentHeader (P : PpsBody) (S : SpsBody) (h : SliceSegmentHeader) : Says (dumpSliceSegmentHeader P S h) (textSliceSegmentHeader P S h) := by
  unfold dumpSliceSegmentHeader dumpSliceSegmentHeader.items textSliceSegmentHeader
  repeat' first | exact says_dumpStRefPicSet _ _ _ | exact says_dumpPredWeightTable _ _ | exact line_dumpLtRefPic _ _ _ | says1

theorem says_dumpSliceSegmentLayer (P : PpsBody) (S : SpsBody) (h : SliceSegmentHeader) : Says (dumpSliceSegmentLayer P S h) (textSliceSegmentLayer P S h) := by
  unfold dumpSliceSegmentLayer dumpSliceSegmentLayer.items textSliceSegmentLayer
  repeat' first | exact says_dumpSliceSegmentHeader _ _ _ | says1

theorem says_dumpSeiUserDataRegistered (s : SeiUserDataRegistered) : Says (dumpSeiUserDataRegistered s) (textSeiUserDataRegistered s) := by
  unfold dumpSeiUserDataRegistered dumpSeiUserDataRegistered.items textSeiUserDataRegistered
  says

theorem says_dumpSeiUserDataUnregistered (s : SeiUserDataUnregistered) : Says (dumpSeiUserDataUnregistered s) (textSeiUserDataUnregistered s) := by
  unfold dumpSeiUserDataUnregistered dumpSeiUserDataUnregistered.items textSeiUserDataUnregistered
  repeat' first | exact Line.fldText (NameSolid.lit _ rfl rfl) (wordsD_uuid _ _) | says1

theorem says_dumpSeiAlphaChannelInfo (s : SeiAlphaChannelInfo) : Says (dumpSeiAlphaChannelInfo s) (textSeiAlphaChannelInfo s) := by
  unfold dumpSeiAlphaChannelInfo dumpSeiAlphaChannelInfo.items textSeiAlphaChannelInfo
  says

theorem says_dumpSeiMasteringDisplay (s : SeiMasteringDisplay) : Says (dumpSeiMasteringDisplay s) (textSeiMasteringDisplay s) := by
  unfold dumpSeiMasteringDisplay dumpSeiMasteringDisplay.items textSeiMasteringDisplay
  repeat' first | exact Line.chromaticity (NameSolid.lit _ rfl rfl) | exact Line.luminance (NameSolid.lit _ rfl rfl) | says1

theorem says_dumpSeiContentLightLevel (s : SeiContentLightLevel) : Says (dumpSeiContentLightLevel s) (textSeiContentLightLevel s) := by
  unfold dumpSeiContentLightLevel dumpSeiContentLightLevel.items textSeiContentLightLevel
  repeat' first | exact Line.fldText (NameSolid.lit _ rfl rfl) (wordsD_light _) | says1

theorem says_dumpSeiKneeFunction (s : SeiKneeFunction) : Says (dumpSeiKneeFunction s) (textSeiKneeFunction s) := by
  unfold dumpSeiKneeFunction dumpSeiKneeFunction.items textSeiKneeFunction
  says

theorem says_dumpSeiColourRemapping (s : SeiColourRemapping) : Says (dumpSeiColourRemapping s) (textSeiColourRemapping s) := by
  unfold dumpSeiColourRemapping dumpSeiColourRemapping.items textSeiColourRemapping
  says

theorem says_dumpSeiContentColourVolume (s : SeiContentColourVolume) : Says (dumpSeiContentColourVolume s) (textSeiContentColourVolume s) := by
  unfold dumpSeiContentColourVolume dumpSeiContentColourVolume.items textSeiContentColourVolume
  says

theorem says_dumpSeiAlternativeTransfer (s : SeiAlternativeTransfer) : Says (dumpSeiAlternativeTransfer s) (textSeiAlternativeTransfer s) := by
  unfold dumpSeiAlternativeTransfer dumpSeiAlternativeTransfer.items textSeiAlternativeTransfer
  says

theorem says_dumpSeiAmbientViewing (s : SeiAmbientViewing) : Says (dumpSeiAmbientViewing s) (textSeiAmbientViewing s) := by
  unfold dumpSeiAmbientViewing dumpSeiAmbientViewing.items textSeiAmbientViewing
  says

theorem says_dumpSeiUnknown (s : SeiUnknown) : Says (dumpSeiUnknown s) (textSeiUnknown s) := by
  unfold dumpSeiUnknown dumpSeiUnknown.items textSeiUnknown
  repeat' first | exact Line.gap (NameSolid.lit _ rfl rfl) | says1

theorem says_dumpSeiPayload (s : SeiPayload) : Says (dumpSeiPayload s) (textSeiPayload s) := by
  unfold dumpSeiPayload textSeiPayload
  cases s
  · exact says_dumpSeiUserDataRegistered _
  · exact says_dumpSeiUserDataUnregistered _
  · exact says_dumpSeiMasteringDisplay _
  · exact says_dumpSeiContentLightLevel _
  · exact says_dumpSeiKneeFunction _
  · exact says_dumpSeiColourRemapping _
  · exact says_dumpSeiContentColourVolume _
  · exact says_dumpSeiAlternativeTransfer _
  · exact says_dumpSeiAmbientViewing _
  · exact says_dumpSeiAlphaChannelInfo _
  · exact says_dumpSeiUnknown _

theorem says_dumpSei (s : SeiMessage) : Says (dumpSei s) (textSei s) := by
  unfold dumpSei dumpSei.items textSei
  exact Says.blk (Lists.cons (Line.fldI (NameSolid.lit _ rfl rfl)) (Lists.cons (Line.fldU (NameSolid.lit _ rfl rfl))
    (Lists.cons (Line.some? (fun p => Line.on (says_dumpSeiPayload p))) Lists.nil)))

end H265
