/-
The work of the parsers of NAL units is paid for by the bits they consume, up to a constant; see Verif/Proof/Work.lean.
-/
import Verif.Proof.Work
import Verif.Props.Rbsp

set_option autoImplicit false

namespace H265
open Spec Prog

theorem uVar_frugal (n : Nat) : (uVar n).Frugal := by unfold uVar; frugal

theorem refDeltas_frugal (sgn : Int) (v : List RpsEntry) : ∀ n i d, (refDeltas sgn v n i d).Frugal
  | 0, _, _ => .ret _
  | n + 1, i, d => by
    unfold refDeltas
    have := refDeltas_frugal sgn v n (i + 1)
    frugal
    apply this

theorem pushPoc_frugal (neg : Bool) (flags : List RpsFlags) (d : Int) (k : Nat) (acc : List (Int × Nat)) : (pushPoc neg flags d k acc).Frugal := by
  unfold pushPoc
  refine Frugal.ite (fun _ => ?_) (fun _ => ?_) <;> frugal

theorem pocsDown_frugal (neg : Bool) (flags : List RpsFlags) (rps : Int) (ds : List Int) (base : Nat) : ∀ n acc, (pocsDown neg flags rps ds base n acc).Frugal
  | 0, _ => .ret _
  | n + 1, acc => .bind' (.at' _ _) fun _ => .bind' (.int32 _) fun _ => .bind' (pushPoc_frugal _ _ _ _ _) fun _ => pocsDown_frugal neg flags rps ds base n _

theorem pocsUp_frugal (neg : Bool) (flags : List RpsFlags) (rps : Int) (ds : List Int) (base : Nat) : ∀ n j acc, (pocsUp neg flags rps ds base n j acc).Frugal
  | 0, _, _ => .ret _
  | n + 1, j, acc => .bind' (.at' _ _) fun _ => .bind' (.int32 _) fun _ => .bind' (pushPoc_frugal _ _ _ _ _) fun _ => pocsUp_frugal neg flags rps ds base n _ _

theorem outS0_frugal : ∀ p l, (outS0 p l).Frugal
  | _, [] => .ret _
  | p, (d, f) :: l => .bind' (.int32 _) fun _ => .bind' (.int32 _) fun _ => .bind' (.int32 _) fun _ => .bind' (outS0_frugal d l) fun _ => .ret _

theorem outS1_frugal : ∀ p l, (outS1 p l).Frugal
  | _, [] => .ret _
  | p, (d, f) :: l => .bind' (.int32 _) fun _ => .bind' (.int32 _) fun _ => .bind' (outS1_frugal d l) fun _ => .ret _

theorem deriveValues_frugal (ref : StRefPicSet) (sign absm1 : Nat) (flags : List RpsFlags) : (deriveValues ref sign absm1 flags).Frugal := by
  unfold deriveValues
  exact .bind (refDeltas_frugal _ _ _ _ _) fun _ => .bind (refDeltas_frugal _ _ _ _ _) fun _ => .bind (pocsDown_frugal _ _ _ _ _ _ _) fun _ =>
    .bind (pushPoc_frugal _ _ _ _ _) fun _ => .bind (pocsUp_frugal _ _ _ _ _ _ _ _) fun _ => .bind (outS0_frugal _ _) fun _ =>
    .bind (pocsDown_frugal _ _ _ _ _ _ _) fun _ => .bind (pushPoc_frugal _ _ _ _ _) fun _ => .bind (pocsUp_frugal _ _ _ _ _ _ _ _) fun _ =>
    .bind (outS1_frugal _ _) fun _ => .pure _

theorem parseRpsFlags_frugal : parseRpsFlags.Frugal := by unfold parseRpsFlags; frugal
theorem parseRpsEntry_frugal : parseRpsEntry.Frugal := by unfold parseRpsEntry; frugal

theorem parseInterRps_frugal (idx num : Nat) (prev : List StRefPicSet) : (parseInterRps idx num prev).Frugal := by
  unfold parseInterRps
  have h1 := parseRpsFlags_frugal
  have h2 := deriveValues_frugal
  frugal
  apply h2

theorem parseExplicitRps_frugal (maxNum : Nat) : (parseExplicitRps maxNum).Frugal := by
  unfold parseExplicitRps
  have h1 := parseRpsEntry_frugal
  frugal

theorem parseStRefPicSet_frugal (idx num : Nat) (prev : List StRefPicSet) (maxNum : Nat) : (parseStRefPicSet idx num prev maxNum).Frugal := by
  unfold parseStRefPicSet
  have h1 := parseInterRps_frugal idx num prev
  have h2 := parseExplicitRps_frugal maxNum
  frugal

theorem parsePredWeight_frugal (a b : Nat) : (parsePredWeight a b).Frugal := by
  unfold parsePredWeight parseLumaWeight parseChromaWeight; frugal

theorem parsePredWeightAt_frugal (c : Nat) (l m : List Nat) (i : Nat) : (parsePredWeightAt c l m i).Frugal := by
  unfold parsePredWeightAt
  have := parsePredWeight_frugal
  frugal
  apply this

theorem parsePredWeightTable_frugal (c n : Nat) : (parsePredWeightTable c n).Frugal := by
  unfold parsePredWeightTable
  have := parsePredWeightAt_frugal
  frugal
  apply this

theorem parseLtRefPicHead_frugal (a b c i : Nat) : (parseLtRefPicHead a b c i).Frugal := by unfold parseLtRefPicHead; frugal

theorem ltLoop_frugal (numSps numPics numLtSps pocLen : Nat) : ∀ fuel i acc, (ltLoop numSps numPics numLtSps pocLen fuel i acc).Frugal
  | 0, _, _ => .bad _
  | fuel + 1, i, acc => .ite (fun _ => .bind' (parseLtRefPicHead_frugal _ _ _ _) fun _ => .bind' (.at' _ _) fun _ => .bind' (.opt .uev) fun _ =>
      ltLoop_frugal numSps numPics numLtSps pocLen fuel _ _) (fun _ => .ret _)

theorem parseLtRefPics_frugal (numSps numPics numLtSps pocLen : Nat) : (parseLtRefPics numSps numPics numLtSps pocLen).Frugal :=
  .remaining fun _ => ltLoop_frugal _ _ _ _ _ _ _

theorem parseSliceHead_frugal (t : Nat) : (parseSliceHead t).Frugal := by unfold parseSliceHead; frugal

theorem ppsActFlag_frugal (p : PpsBody) : (ppsActFlag p).Frugal := by
  unfold ppsActFlag
  refine Frugal.ite (fun _ => ?_) (fun _ => .ret _)
  split
  · exact .ret _
  · exact .bad _

theorem uAddress_frugal (n : Nat) : (uAddress n).Frugal := by
  unfold uAddress
  exact .ite (fun _ => .bad _) (fun _ => uVar_frugal _)

theorem parseSliceBody_frugal (t : Nat) (p : PpsBody) (s : SpsBody) (first : Nat) : (parseSliceBody t p s first).Frugal := by
  unfold parseSliceBody
  have h1 := uAddress_frugal
  have h2 := parseStRefPicSet_frugal
  have h3 := parseLtRefPics_frugal
  have h4 := parsePredWeightTable_frugal
  have h5 := ppsActFlag_frugal p
  frugal
  all_goals first | apply h1 | apply h2 | apply h3 | apply h4

theorem parseSliceSegmentHeader_frugal (t : Nat) (pps : Nat → Option Pps) (sps : Nat → Option Sps) : (parseSliceSegmentHeader t pps sps).Frugal := by
  unfold parseSliceSegmentHeader
  refine Frugal.bind (parseSliceHead_frugal t) fun head => ?_
  split
  · exact .fail
  · split
    · exact .fail
    · exact .bind (parseSliceBody_frugal _ _ _ _) fun _ => .pure _

/-! ### profile_tier_level -/

theorem wide_frugal (k : Nat) : (wide k).Frugal := by unfold wide; frugal
theorem parseConstraintsExt_frugal (idc : Nat) (f : List Nat) : (parseConstraintsExt idc f).Frugal := by
  unfold parseConstraintsExt; frugal_with [wide_frugal]
theorem parseConstraints_frugal (idc : Nat) (f : List Nat) : (parseConstraints idc f).Frugal := by
  unfold parseConstraints parseConstraintsMain10 parseConstraintsOther; frugal_with [wide_frugal, parseConstraintsExt_frugal]
theorem parseProfileInfo_frugal : parseProfileInfo.Frugal := by unfold parseProfileInfo; frugal_with [parseConstraints_frugal]
theorem parseProfileTierLevel_frugal (b : Bool) (n : Nat) : (parseProfileTierLevel b n).Frugal := by
  unfold parseProfileTierLevel parseSubLayerFlags parseSubLayerProfile; frugal_with [parseProfileInfo_frugal]

/-! ### HRD, VUI, VPS -/

theorem parseSubLayerHrdEntry_frugal (n : Nat) : (parseSubLayerHrdEntry n).Frugal := by unfold parseSubLayerHrdEntry; frugal
theorem parseHrdSubLayer_frugal (a b c : Nat) : (parseHrdSubLayer a b c).Frugal := by unfold parseHrdSubLayer; frugal_with [parseSubLayerHrdEntry_frugal]
theorem parseHrdParameters_frugal (a b : Nat) : (parseHrdParameters a b).Frugal := by unfold parseHrdParameters; frugal_with [parseHrdSubLayer_frugal]
theorem parseVuiParameters_frugal (a : Nat) : (parseVuiParameters a).Frugal := by unfold parseVuiParameters; frugal_with [parseHrdParameters_frugal]
theorem parseVpsHrd_frugal (a b : Nat) : (parseVpsHrd a b).Frugal := by unfold parseVpsHrd; frugal_with [parseHrdParameters_frugal]
theorem parseVpsBody_frugal : parseVpsBody.Frugal := by
  unfold parseVpsBody parseSubLayerOrdering; frugal_with [parseProfileTierLevel_frugal, parseVpsHrd_frugal]

/-! ### SPS -/

theorem parseScalingCoefs_frugal : ∀ n next, (parseScalingCoefs n next).Frugal
  | 0, _ => .ret _
  | n + 1, next => by
    unfold parseScalingCoefs
    frugal_with [parseScalingCoefs_frugal n]

theorem startCoef_frugal (a : Nat) (b : Int) : (startCoef a b).Frugal := by unfold startCoef; frugal
theorem parseScalingMatrix_frugal (a : Nat) : (parseScalingMatrix a).Frugal := by
  unfold parseScalingMatrix; frugal_with [startCoef_frugal, parseScalingCoefs_frugal]
theorem parseScalingListData_frugal : parseScalingListData.Frugal := by
  unfold parseScalingListData; frugal_with [parseScalingMatrix_frugal]

theorem parseStRefPicSets_frugal (a b : Nat) : ∀ n acc, (parseStRefPicSets a b n acc).Frugal
  | 0, _ => .ret _
  | n + 1, acc => .bind (parseStRefPicSet_frugal _ _ _ _) fun _ => parseStRefPicSets_frugal a b n _

theorem parseSpsSccExtension_frugal (a b c : Nat) : (parseSpsSccExtension a b c).Frugal := by unfold parseSpsSccExtension; frugal
theorem parseSps3dExtension_frugal : parseSps3dExtension.Frugal := by unfold parseSps3dExtension; frugal
theorem parseSpsRangeExtension_frugal : parseSpsRangeExtension.Frugal := by unfold parseSpsRangeExtension; frugal
theorem parseSpsMultilayerExtension_frugal : parseSpsMultilayerExtension.Frugal := by unfold parseSpsMultilayerExtension; frugal

theorem parseSpsBody_frugal : parseSpsBody.Frugal := by
  unfold parseSpsBody parseSpsSubLayerOrdering parseLtRefPicSps
  frugal_with [parseProfileTierLevel_frugal, parseScalingListData_frugal, parseStRefPicSets_frugal, parseVuiParameters_frugal,
    parseSpsSccExtension_frugal, parseSps3dExtension_frugal, parseSpsRangeExtension_frugal, parseSpsMultilayerExtension_frugal]

/-! ### PPS -/

theorem parsePpsHead_frugal : parsePpsHead.Frugal := by unfold parsePpsHead; frugal_with [parseScalingListData_frugal]
theorem parsePpsMultilayerExtension_frugal : parsePpsMultilayerExtension.Frugal := by
  unfold parsePpsMultilayerExtension parseRefLocOffset parseRefLayerOffsets parseRefRegionOffsets parseResamplePhase; frugal
theorem parsePpsSccExtension_frugal : parsePpsSccExtension.Frugal := by unfold parsePpsSccExtension; frugal_with [uVar_frugal]

/-! ### SEI -/

theorem u32x2_frugal : u32x2.Frugal := by unfold u32x2; frugal
theorem i32v_frugal : i32v.Frugal := by unfold i32v; frugal
theorem uAny_frugal (n : Nat) : (uAny n).Frugal := by unfold uAny; frugal
theorem parseSeiUserDataRegistered_frugal (n : Nat) : (parseSeiUserDataRegistered n).Frugal := by unfold parseSeiUserDataRegistered; frugal
theorem parseSeiUserDataUnregistered_frugal (n : Nat) : (parseSeiUserDataUnregistered n).Frugal := by
  unfold parseSeiUserDataUnregistered; frugal_with [u32x2_frugal]
theorem parseSeiAlphaChannelInfo_frugal : parseSeiAlphaChannelInfo.Frugal := by unfold parseSeiAlphaChannelInfo; frugal
theorem parseSeiMasteringDisplay_frugal : parseSeiMasteringDisplay.Frugal := by unfold parseSeiMasteringDisplay parseSeiPrimaries; frugal
theorem parseSeiContentLightLevel_frugal : parseSeiContentLightLevel.Frugal := by unfold parseSeiContentLightLevel; frugal
theorem parseSeiKneeFunction_frugal : parseSeiKneeFunction.Frugal := by unfold parseSeiKneeFunction parseSeiKneePoint; frugal
theorem parseSeiLut_frugal (n : Nat) : (parseSeiLut n).Frugal := by unfold parseSeiLut parseSeiLutEntry; frugal_with [uAny_frugal]
theorem parseSeiColourRemapping_frugal : parseSeiColourRemapping.Frugal := by unfold parseSeiColourRemapping; frugal_with [parseSeiLut_frugal]
theorem parseSeiContentColourVolume_frugal : parseSeiContentColourVolume.Frugal := by
  unfold parseSeiContentColourVolume parseSeiCcvPrimaries; frugal_with [i32v_frugal]
theorem parseSeiAlternativeTransfer_frugal : parseSeiAlternativeTransfer.Frugal := by unfold parseSeiAlternativeTransfer; frugal
theorem parseSeiAmbientViewing_frugal : parseSeiAmbientViewing.Frugal := by unfold parseSeiAmbientViewing; frugal
theorem parseSeiUnknown_frugal (n : Nat) : (parseSeiUnknown n).Frugal := by unfold parseSeiUnknown; frugal

theorem parseSeiPayload_frugal (t n : Nat) : (parseSeiPayload t n).Frugal := by
  unfold parseSeiPayload
  frugal_with [parseSeiUserDataRegistered_frugal, parseSeiUserDataUnregistered_frugal, parseSeiAlphaChannelInfo_frugal, parseSeiMasteringDisplay_frugal,
    parseSeiContentLightLevel_frugal, parseSeiKneeFunction_frugal, parseSeiColourRemapping_frugal, parseSeiContentColourVolume_frugal,
    parseSeiAlternativeTransfer_frugal, parseSeiAmbientViewing_frugal, parseSeiUnknown_frugal]

theorem ffLoop_frugal : ∀ fuel acc, (ffLoop fuel acc).Frugal
  | 0, _ => .bad _
  | fuel + 1, acc => .bind' (.u 8) fun _ => .ite (fun _ => .fail) fun _ => .ite (fun _ => ffLoop_frugal fuel _) fun _ => .ret _

theorem ffCodedNumber_frugal : ffCodedNumber.Frugal := .remaining fun _ => ffLoop_frugal _ _

theorem parseNalUnitHeader_frugal : parseNalUnitHeader.Frugal := by unfold parseNalUnitHeader; frugal

/-! ### the end of the parameter sets -/

namespace Prog

theorem work_read1 {α : Type} (k : Option Nat → Prog α) (r : List Bool) :
    (Prog.read 32 1 k).work r = if 1 ≤ r.length then 1 + (k (some (val (r.take 1)))).work (r.drop 1) else 1 + (k none).work r := by
  rw [work, if_neg (by omega)]
  by_cases h : 1 ≤ r.length
  · rw [if_pos ⟨by omega, h⟩, if_pos h]
  · rw [if_neg (fun x => h x.2), if_neg h]

theorem denote_read1 {α : Type} (k : Option Nat → Prog α) (r : List Bool) :
    (Prog.read 32 1 k).denote r = if 1 ≤ r.length then (k (some (val (r.take 1)))).denote (r.drop 1) else (k none).denote r := by
  rw [denote, if_neg (by omega)]
  by_cases h : 1 ≤ r.length
  · rw [if_pos ⟨by omega, h⟩, if_pos h]
  · rw [if_neg (fun x => h x.2), if_neg h]

/-- `more_rbsp_data` consumes nothing and peeks at most once -/
theorem moreRbspData_run (r : List Bool) : ∃ b, moreRbspData.denote r = .ok b r ∧ moreRbspData.work r ≤ 1 ∧ (b = true → 1 ≤ r.length) := by
  unfold moreRbspData
  by_cases h0 : r.length = 0
  · exact ⟨false, by simp [denote, h0], by simp [work, h0], by simp⟩
  by_cases h8 : r.length > 8
  · exact ⟨true, by simp [denote, h0, h8], by simp [work, h0, h8], by intro; omega⟩
  · have h32 : r.length ≤ 32 := by omega
    refine ⟨!(decide (val (r.take r.length) = 1 <<< (r.length - 1))), ?_, ?_, by intro; omega⟩
    · simp [denote, h0, h8, h32]
    · simp [work, h0, h8, h32]

/-- one step more than what is paid for -/
theorem extLoop_spend : ∀ fuel x r, match (extLoop fuel x).denote r with
    | .ok _ r' => (extLoop fuel x).work r + 4 * r'.length ≤ 1 + 4 * r.length
    | _ => (extLoop fuel x).work r ≤ 1 + 4 * r.length
  | 0, _, r => by simp [extLoop, work]
  | fuel + 1, x, r => by
    unfold extLoop
    obtain ⟨b, h1, h2, h3⟩ := moreRbspData_run r
    rw [← Prog.bind_def, denote_bind, work_bind, h1, ARes.ok_bind]
    cases b with
    | false =>
      simp only [Bool.false_eq_true, if_false, denote, work]
      omega
    | true =>
      have h3 := h3 rfl
      have ih := extLoop_spend fuel (val (r.take 1)) (r.drop 1)
      rw [List.length_drop] at ih
      simp only [if_true]
      rw [work_read1, denote_read1, if_pos h3, if_pos h3]
      cases h : (extLoop fuel (val (r.take 1))).denote (r.drop 1) <;> rw [h] at ih <;> simp only at ih ⊢ <;> omega

theorem trailLoop_work : ∀ fuel r, (trailLoop fuel).work r ≤ fuel
  | 0, r => Nat.le_refl _
  | fuel + 1, r => by
    unfold trailLoop
    have ih := trailLoop_work fuel (r.drop 1)
    rw [work]
    cases (r.length % 8 == 0) with
    | true => exact Nat.zero_le _
    | false =>
      rw [if_neg (by simp), work_read1]
      by_cases h1 : 1 ≤ r.length
      · rw [if_pos h1]
        dsimp only
        by_cases hv : val (r.take 1) ≠ 0
        · rw [if_pos hv, work]; omega
        · rw [if_neg hv]; omega
      · rw [if_neg h1]
        dsimp only
        rw [work]; omega

theorem rbspTrailingBits_work (r : List Bool) : rbspTrailingBits.work r ≤ 9 := by
  unfold rbspTrailingBits
  have ih := trailLoop_work 8 (r.drop 1)
  rw [work_read1]
  by_cases h1 : 1 ≤ r.length
  · rw [if_pos h1]
    dsimp only
    by_cases hv : val (r.take 1) ≠ 1
    · rw [if_pos hv, work]; omega
    · rw [if_neg hv]; omega
  · rw [if_neg h1]
    dsimp only
    rw [work]; omega

theorem rbspTail_within (ext : Nat) : (rbspTail ext).Within 10 4 := by
  intro r
  unfold rbspTail
  have h1 := extLoop_spend (r.length + 1) 0 r
  have h2 : ∀ (x : Nat) r, (rbspTrailingBits.bind fun _ => Prog.ret x).work r ≤ 9 := by
    intro x r
    have := rbspTrailingBits_work r
    rw [← Prog.bind_def, work_bind]
    cases rbspTrailingBits.denote r <;> simp only [work] <;> omega
  rw [← Prog.bind_def, work_bind]
  by_cases he : ext ≠ 0
  · simp only [Prog.opt, if_pos he, work, denote]
    cases h : (extLoop (r.length + 1) 0).denote r with
    | ok a r' =>
      rw [h] at h1
      have := h2 a r'
      simp only at h1 ⊢
      omega
    | fail r' => rw [h] at h1; simp only at h1 ⊢; omega
    | bad k => rw [h] at h1; simp only at h1 ⊢; omega
  · simp only [Prog.opt, if_neg he, work, denote]
    have := h2 0 r
    omega

end Prog

theorem parseVps_within : parseVps.Within 12 4 :=
  ((Frugal.then (m := 0) parseVpsBody_frugal) fun _ => Within.bind (m2 := 0) (c2 := 0) (rbspTail_within _) fun _ => .pure _).mono (by omega) (by omega)

theorem parseSps_within : parseSps.Within 12 4 :=
  ((Frugal.then (m := 0) parseSpsBody_frugal) fun _ => Within.bind (m2 := 0) (c2 := 0) (rbspTail_within _) fun _ => .pure _).mono (by omega) (by omega)

theorem parsePpsMultilayerUnchecked_within (flag : Nat) : (parsePpsMultilayerUnchecked flag).Within 1 4 := by
  unfold parsePpsMultilayerUnchecked
  split
  · exact parsePpsMultilayerExtension_frugal.within.attempt
  · exact .ret _

theorem parsePpsBody_within : parsePpsBody.Within 3 8 :=
  (Frugal.then (m := 4) parsePpsHead_frugal fun _ => (Within.bind (parsePpsMultilayerUnchecked_within _) fun _ =>
    ((Frugal.check _).bind fun _ => (Frugal.maybe parsePpsSccExtension_frugal).bind fun _ => .pure _).within : Prog.Within (1 + 1) (4 + 4) _)).mono (by omega) (by omega)

theorem parsePps_within : parsePps.Within 13 12 :=
  (Within.bind parsePpsBody_within fun _ => Within.bind (m2 := 0) (c2 := 0) (rbspTail_within _) fun _ => .pure _).mono (by omega) (by omega)

theorem parseAud_within : parseAud.Within 10 4 := by
  refine ((Frugal.then (m := 0) (.u 3)) fun _ => Within.bind (c1 := 9) (m1 := 0) (c2 := 0) (m2 := 4) (fun r => ?_) fun _ => .pure _).mono (by omega) (by omega)
  have := rbspTrailingBits_work r
  omega

theorem parseSei_within : parseSei.Within 3 4 :=
  ((Frugal.then (m := 0) ffCodedNumber_frugal) fun _ => (Frugal.then (m := 0) ffCodedNumber_frugal) fun _ =>
    Within.bind (m2 := 0) (c2 := 0) (parseSeiPayload_frugal _ _).within.attempt fun _ => .pure _).mono (by omega) (by omega)

theorem parseSliceSegmentLayer_within (t : Nat) (pps : Nat → Option Pps) (sps : Nat → Option Sps) : (parseSliceSegmentLayer t pps sps).Within 1 4 :=
  (parseSliceSegmentHeader_frugal t pps sps).within

theorem parseNalUnitPayload_within (t : Nat) (st : ParserState) : (parseNalUnitPayload t st).Within 13 12 := by
  unfold parseNalUnitPayload
  have go : ∀ {α : Type} {p : Prog α} {c m : Nat} (f : Option α → NalUnitPayload × ParserState), p.Within c m → c ≤ 13 → m ≤ 12 →
      (p.attempt.bind fun o => Prog.ret (f o)).Within 13 12 := by
    intro α p c m f h hc hm
    exact (Within.bind (m2 := 0) (c2 := 0) h.attempt fun _ => .ret _).mono (by omega) (by omega)
  split
  · exact go (fun s => ({ slice_segment_layer := s }, st)) (parseSliceSegmentLayer_within _ _ _) (by omega) (by omega)
  split
  · exact go (vpsOut st) parseVps_within (by omega) (by omega)
  split
  · exact go (spsOut st) parseSps_within (by omega) (by omega)
  split
  · exact go (ppsOut st) parsePps_within (by omega) (by omega)
  split
  · exact go (fun a => ({ aud := a }, st)) parseAud_within (by omega) (by omega)
  split
  · exact go (fun a => ({ sei := a }, st)) parseSei_within (by omega) (by omega)
  · exact .ret _

theorem parseNalUnitParts_within (st : ParserState) : (parseNalUnitParts st).Within 14 12 := by
  refine ((Frugal.then (m := 8) parseNalUnitHeader_frugal) fun h => Within.bind (m2 := 0) (c2 := 0) (parseNalUnitPayload_within h.nal_unit_type st) fun _ => .pure _).mono ?_ ?_
    <;> omega

end H265
