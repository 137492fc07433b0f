/-
The layout lemmas for every dump function.
-/
import Verif.Proof.DumpLayout

set_option autoImplicit false

namespace H265
open Spec

attribute [local irreducible] putI putU putD putX putX0 putF putUuid putChroma putCandela profileTypeToString Dump.item Dump.itemGap Dump.sub
  Dump.fld Dump.lst Dump.on Dump.cond Dump.deref Dump.ifSome Dump.elem Dump.each Dump.upTo Dump.blk Dump.seq Lay LayAll

/-- one step -/
macro "lay1" : tactic => `(tactic| first
  | exact LayAll.nil | apply LayAll.cons 
  | apply Lay.fld | refine Lay.lst ?_ (fun _ => ?_) | apply Lay.on | apply Lay.cond | refine Lay.deref (fun _ => ?_) | refine Lay.ifSome (fun _ => ?_) | refine Lay.elem (fun _ => ?_) | refine Lay.each (fun _ => ?_)
  | refine Lay.upTo (fun _ _ => ?_) | apply Lay.blk | apply Lay.seq | exact Lay.nil
  | exact neutral_putI _ | exact neutral_putU _ | exact neutral_putD _ | exact neutral_putX _ | exact neutral_putX0 _ _
  | exact neutral_putUuid _ _ | exact neutral_putChroma _ | exact neutral_putCandela _ | exact neutral_profileType _
  | exact NameOk.lit _ rfl rfl
  | refine Neutral.item (fun _ => ?_) _ | refine Neutral.itemGap (fun _ => ?_) _ | refine Neutral.sub (fun _ => ?_) _
  | apply Neutral.append | exact Neutral.lit rfl)

/-- proves `Lay` of a list of statements -/
macro "lay" : tactic => `(tactic| repeat' lay1)

theorem lay_profileInfo (s : ProfileInfo) : LayAll (profileInfoItems s) := by unfold profileInfoItems; lay

theorem lay_dumpPtl (present : Bool) (n : Nat) (s : ProfileTierLevel) : Lay (dumpPtl present n s) := by
  unfold dumpPtl dumpPtl.items
  repeat' first | exact lay_profileInfo _ | lay1

theorem lay_dumpResolution (s : SpsBody) : Lay (dumpResolution s) := by
  unfold dumpResolution
  split
  · exact Lay.error _
  · lay

theorem lay_dumpNalUnitHeader (s : NalUnitHeader) : Lay (dumpNalUnitHeader s) := by
  unfold dumpNalUnitHeader dumpNalUnitHeader.items
  lay

theorem lay_dumpAud (s : Aud) : Lay (dumpAud s) := by
  unfold dumpAud dumpAud.items
  lay

theorem lay_dumpSubLayerHrd (s : List SubLayerHrdEntry) : Lay (dumpSubLayerHrd s) := by
  unfold dumpSubLayerHrd dumpSubLayerHrd.items
  lay

theorem lay_dumpHrd (common : Nat) (s : HrdParameters) : Lay (dumpHrd common s) := by
  unfold dumpHrd dumpHrd.items
  repeat' first | exact lay_dumpSubLayerHrd _ | lay1

theorem lay_dumpVui (s : VuiParameters) : Lay (dumpVui s) := by
  unfold dumpVui dumpVui.items
  repeat' first | exact lay_dumpHrd _ _ | lay1

theorem lay_dumpVps (v : Vps) : Lay (dumpVps v) := by
  unfold dumpVps dumpVps.items
  repeat' first | exact lay_dumpPtl _ _ _ | exact lay_dumpHrd _ _ | lay1

theorem lay_dumpStRefPicSet (idx num : Nat) (s : StRefPicSet) : Lay (dumpStRefPicSet idx num s) := by
  unfold dumpStRefPicSet dumpStRefPicSet.items
  lay

theorem lay_dumpScalingListData (s : ScalingListData) : Lay (dumpScalingListData s) := by
  unfold dumpScalingListData dumpScalingListData.items
  lay

theorem lay_dumpSpsRangeExtension (s : SpsRangeExtension) : Lay (dumpSpsRangeExtension s) := by
  unfold dumpSpsRangeExtension dumpSpsRangeExtension.items
  lay

theorem lay_dumpSpsMultilayerExtension (s : SpsMultilayerExtension) : Lay (dumpSpsMultilayerExtension s) := by
  unfold dumpSpsMultilayerExtension dumpSpsMultilayerExtension.items
  lay

theorem lay_dumpSps3dExtension (s : Sps3dExtension) : Lay (dumpSps3dExtension s) := by
  unfold dumpSps3dExtension dumpSps3dExtension.items
  lay

theorem lay_dumpSpsSccExtension (s : SpsSccExtension) : Lay (dumpSpsSccExtension s) := by
  unfold dumpSpsSccExtension dumpSpsSccExtension.items
  lay

theorem lay_dumpSps (add_resolution : Bool) (v : Sps) : Lay (dumpSps add_resolution v) := by
  unfold dumpSps dumpSps.items
  repeat' first | exact lay_dumpPtl _ _ _ | exact lay_dumpResolution _ | exact lay_dumpVui _ | exact lay_dumpStRefPicSet _ _ _ | exact lay_dumpScalingListData _ | exact lay_dumpSpsRangeExtension _ | exact lay_dumpSpsMultilayerExtension _ | exact lay_dumpSps3dExtension _ | exact lay_dumpSpsSccExtension _ | lay1

theorem lay_dumpPpsMultilayerExtension (s : PpsMultilayerExtension) : Lay (dumpPpsMultilayerExtension s) := by
  unfold dumpPpsMultilayerExtension dumpPpsMultilayerExtension.items
  lay

theorem lay_dumpPpsSccExtension (s : PpsSccExtension) : Lay (dumpPpsSccExtension s) := by
  unfold dumpPpsSccExtension dumpPpsSccExtension.items
  lay

theorem lay_dumpPps (v : Pps) : Lay (dumpPps v) := by
  unfold dumpPps dumpPps.items
  repeat' first | exact lay_dumpScalingListData _ | exact lay_dumpPpsMultilayerExtension _ | exact lay_dumpPpsSccExtension _ | lay1

theorem lay_dumpLtRefPic (S : SpsBody) (s : SliceBody) (i : Nat) : Lay (dumpLtRefPic S s i) := by
  unfold dumpLtRefPic
  lay

theorem lay_dumpPredWeightTable (chroma : Nat) (s : PredWeightTable) : Lay (dumpPredWeightTable chroma s) := by
  unfold dumpPredWeightTable dumpPredWeightTable.items
  lay

theorem lay_dumpSliceSegmentHeader (P : PpsBody) (S : SpsBody) (h : SliceSegmentHeader) : Lay (dumpSliceSegmentHeader P S h) := by
  unfold dumpSliceSegmentHeader dumpSliceSegmentHeader.items
  repeat' first | exact lay_dumpStRefPicSet _ _ _ | exact lay_dumpLtRefPic _ _ _ | exact lay_dumpPredWeightTable _ _ | lay1

theorem lay_dumpSliceSegmentLayer (P : PpsBody) (S : SpsBody) (h : SliceSegmentHeader) : Lay (dumpSliceSegmentLayer P S h) := by
  unfold dumpSliceSegmentLayer dumpSliceSegmentLayer.items
  repeat' first | exact lay_dumpSliceSegmentHeader _ _ _ | lay1

theorem lay_dumpSeiUserDataRegistered (s : SeiUserDataRegistered) : Lay (dumpSeiUserDataRegistered s) := by
  unfold dumpSeiUserDataRegistered dumpSeiUserDataRegistered.items
  lay

theorem lay_dumpSeiUserDataUnregistered (s : SeiUserDataUnregistered) : Lay (dumpSeiUserDataUnregistered s) := by
  unfold dumpSeiUserDataUnregistered dumpSeiUserDataUnregistered.items
  lay

theorem lay_dumpSeiAlphaChannelInfo (s : SeiAlphaChannelInfo) : Lay (dumpSeiAlphaChannelInfo s) := by
  unfold dumpSeiAlphaChannelInfo dumpSeiAlphaChannelInfo.items
  lay

theorem lay_dumpSeiMasteringDisplay (s : SeiMasteringDisplay) : Lay (dumpSeiMasteringDisplay s) := by
  unfold dumpSeiMasteringDisplay dumpSeiMasteringDisplay.items
  lay

theorem lay_dumpSeiContentLightLevel (s : SeiContentLightLevel) : Lay (dumpSeiContentLightLevel s) := by
  unfold dumpSeiContentLightLevel dumpSeiContentLightLevel.items
  lay

theorem lay_dumpSeiKneeFunction (s : SeiKneeFunction) : Lay (dumpSeiKneeFunction s) := by
  unfold dumpSeiKneeFunction dumpSeiKneeFunction.items
  lay

theorem lay_dumpSeiColourRemapping (s : SeiColourRemapping) : Lay (dumpSeiColourRemapping s) := by
  unfold dumpSeiColourRemapping dumpSeiColourRemapping.items
  lay

theorem lay_dumpSeiContentColourVolume (s : SeiContentColourVolume) : Lay (dumpSeiContentColourVolume s) := by
  unfold dumpSeiContentColourVolume dumpSeiContentColourVolume.items
  lay

theorem lay_dumpSeiAlternativeTransfer (s : SeiAlternativeTransfer) : Lay (dumpSeiAlternativeTransfer s) := by
  unfold dumpSeiAlternativeTransfer dumpSeiAlternativeTransfer.items
  lay

theorem lay_dumpSeiAmbientViewing (s : SeiAmbientViewing) : Lay (dumpSeiAmbientViewing s) := by
  unfold dumpSeiAmbientViewing dumpSeiAmbientViewing.items
  lay

theorem lay_dumpSeiUnknown (s : SeiUnknown) : Lay (dumpSeiUnknown s) := by
  unfold dumpSeiUnknown dumpSeiUnknown.items
  lay

theorem lay_dumpSeiPayload (s : SeiPayload) : Lay (dumpSeiPayload s) := by
  unfold dumpSeiPayload
  cases s
  · exact lay_dumpSeiUserDataRegistered _
  · exact lay_dumpSeiUserDataUnregistered _
  · exact lay_dumpSeiMasteringDisplay _
  · exact lay_dumpSeiContentLightLevel _
  · exact lay_dumpSeiKneeFunction _
  · exact lay_dumpSeiColourRemapping _
  · exact lay_dumpSeiContentColourVolume _
  · exact lay_dumpSeiAlternativeTransfer _
  · exact lay_dumpSeiAmbientViewing _
  · exact lay_dumpSeiAlphaChannelInfo _
  · exact lay_dumpSeiUnknown _

theorem lay_dumpSei (s : SeiMessage) : Lay (dumpSei s) := by
  unfold dumpSei dumpSei.items
  repeat' first | exact lay_dumpSeiPayload _ | lay1

theorem lay_dumpSlice (st : ParserState) (h : SliceSegmentHeader) : Lay (dumpSlice st h) := by
  unfold dumpSlice
  repeat' first | exact lay_dumpSliceSegmentLayer _ _ _ | lay1

theorem lay_dumpNalUnitPayload (o : ParsingOptions) (st : ParserState) (t : Nat) (p : NalUnitPayload) : Lay (dumpNalUnitPayload o st t p) := by
  unfold dumpNalUnitPayload dumpNalUnitPayload.items
  refine Lay.blk (NameOk.lit _ rfl rfl) (LayAll.cons (Lay.on ?_) LayAll.nil)
  repeat' first
    | exact lay_dumpSlice _ _ | exact lay_dumpVps _ | exact lay_dumpSps _ _ | exact lay_dumpPps _ | exact lay_dumpAud _ | exact lay_dumpSei _
    | split | lay1

theorem lay_dumpNalUnit (o : ParsingOptions) (st : ParserState) (n : NalUnit) : Lay (dumpNalUnit o st n) := by
  unfold dumpNalUnit dumpNalUnit.items
  repeat' first | exact lay_dumpNalUnitHeader _ | exact lay_dumpNalUnitPayload _ _ _ _ | exact neutral_checksum _ | lay1

theorem lay_dumpHvccUnit (o : ParsingOptions) (j i : Nat) (x : ParserState × HvccUnit) : Lay (dumpHvccUnit o j i x) := by
  unfold dumpHvccUnit
  exact Lay.seq (LayAll.cons (Lay.fld (nameOk_indexed (nameOk_indexed (NameOk.lit _ rfl rfl) j) i) (neutral_putI _))
    (LayAll.cons (Lay.on (Lay.deref (fun n => lay_dumpNalUnit o x.1 n))) LayAll.nil))

theorem lay_dumpHvccArray (o : ParsingOptions) (j : Nat) (x : ParserState × HvccArray) : Lay (dumpHvccArray o j x) := by
  unfold dumpHvccArray
  have f : ∀ (n : String) (v : Nat), NameOk n → Lay (Dump.fld (indexed n j) (putI v)) := fun n v h => Lay.fld (nameOk_indexed h j) (neutral_putI v)
  exact Lay.seq (LayAll.cons (f _ _ (NameOk.lit _ rfl rfl)) (LayAll.cons (f _ _ (NameOk.lit _ rfl rfl)) (LayAll.cons (f _ _ (NameOk.lit _ rfl rfl))
    (LayAll.cons (f _ _ (NameOk.lit _ rfl rfl)) (LayAll.cons (Lay.upTo (fun i x => lay_dumpHvccUnit o j i x)) LayAll.nil)))))

theorem lay_dumpConfigurationBox (o : ParsingOptions) (st : ParserState) (b : ConfigurationBox) : Lay (dumpConfigurationBox o st b) := by
  unfold dumpConfigurationBox dumpHvccHeader.items
  refine Lay.blk (NameOk.lit _ rfl rfl) (LayAll.append ?_ ?_)
  · lay
  · repeat' first | exact lay_dumpHvccArray _ _ _ | lay1

theorem lay_dumpRtpSingle (o : ParsingOptions) (st : ParserState) (r : RtpSingle) : Lay (dumpRtpSingle o st r) := by
  unfold dumpRtpSingle
  repeat' first | exact lay_dumpNalUnitHeader _ | exact lay_dumpNalUnitPayload _ _ _ _ | lay1

theorem lay_dumpRtpApUnit (o : ParsingOptions) (x : ParserState × RtpApUnit) : Lay (dumpRtpApUnit o x) := by
  unfold dumpRtpApUnit
  repeat' first | exact lay_dumpNalUnitHeader _ | exact lay_dumpNalUnitPayload _ _ _ _ | lay1

theorem lay_dumpRtpAp (o : ParsingOptions) (st : ParserState) (r : RtpAp) : Lay (dumpRtpAp o st r) := by
  unfold dumpRtpAp
  repeat' first | exact lay_dumpNalUnitHeader _ | exact lay_dumpRtpApUnit _ _ | lay1

theorem lay_dumpRtpFu (o : ParsingOptions) (st : ParserState) (r : RtpFu) : Lay (dumpRtpFu o st r) := by
  unfold dumpRtpFu
  repeat' first | exact lay_dumpNalUnitHeader _ | exact lay_dumpNalUnitPayload _ _ _ _ | lay1

theorem lay_dumpRtp (o : ParsingOptions) (st : ParserState) (r : Rtp) : Lay (dumpRtp o st r) := by
  unfold dumpRtp
  repeat' first
    | exact lay_dumpNalUnitHeader _ | exact lay_dumpRtpSingle _ _ _ | exact lay_dumpRtpAp _ _ _ | exact lay_dumpRtpFu _ _ _ | split | lay1

end H265
