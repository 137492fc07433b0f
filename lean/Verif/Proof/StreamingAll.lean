/-
The readers of parameter sets, access unit delimiters and SEI messages up to their extension data: on success they only depend on the bits they read.
-/
import Verif.Proof.Streaming
import Verif.Model.Nal
import Verif.Props.Rbsp

set_option autoImplicit false

namespace H265
open Spec Prog

/-- `streaming`, with more leaves -/
syntax "streaming_leaf" "[" term,* "]" : tactic
macro_rules
  | `(tactic| streaming_leaf []) => `(tactic| fail)
  | `(tactic| streaming_leaf [$h]) => `(tactic| (first
    | with_reducible exact $h | with_reducible exact $h _ | with_reducible exact $h _ _ | with_reducible exact $h _ _ _ | with_reducible exact $h _ _ _ _))
  | `(tactic| streaming_leaf [$h, $hs,*]) => `(tactic| (first | streaming_leaf [$h] | streaming_leaf [$hs,*]))
syntax "streaming_with" "[" term,* "]" : tactic
macro_rules
  | `(tactic| streaming_with []) => `(tactic| fail)
  | `(tactic| streaming_with [$h]) => `(tactic| streaming_with [$h, $h])
  | `(tactic| streaming_with [$h, $hs,*]) => `(tactic| (repeat' (first
    | with_reducible exact $h | with_reducible exact $h _ | with_reducible exact $h _ _ | with_reducible exact $h _ _ _ | with_reducible exact $h _ _ _ _
    | streaming_leaf [$hs,*]
    | exact Streaming.pure _ | exact Streaming.ret _ | exact Streaming.fail | exact Streaming.bad _ | exact Streaming.u _ | exact Streaming.u64 _ | exact Streaming.uev
    | exact Streaming.sev | exact Streaming.check _ | exact Streaming.ueRange _ _ | exact Streaming.at' _ _ | exact Streaming.int32 _ | assumption
    | with_reducible refine Streaming.bind ?_ fun _ => ?_ | with_reducible refine Streaming.bind' ?_ fun _ => ?_ | with_reducible refine Streaming.opt ?_
    | with_reducible refine Streaming.maybe ?_ | with_reducible refine Streaming.rep ?_ _ | with_reducible refine Streaming.repI (fun _ => ?_) _ _
    | with_reducible refine Streaming.ite (fun _ => ?_) (fun _ => ?_))))

/-! ### profile_tier_level -/

theorem wide_streaming (k : Nat) : (wide k).Streaming := by unfold wide; streaming
theorem parseConstraintsExt_streaming (idc : Nat) (f : List Nat) : (parseConstraintsExt idc f).Streaming := by
  unfold parseConstraintsExt; streaming_with [wide_streaming]
theorem parseConstraints_streaming (idc : Nat) (f : List Nat) : (parseConstraints idc f).Streaming := by
  unfold parseConstraints parseConstraintsMain10 parseConstraintsOther; streaming_with [wide_streaming, parseConstraintsExt_streaming]
theorem parseProfileInfo_streaming : parseProfileInfo.Streaming := by unfold parseProfileInfo; streaming_with [parseConstraints_streaming]
theorem parseProfileTierLevel_streaming (b : Bool) (n : Nat) : (parseProfileTierLevel b n).Streaming := by
  unfold parseProfileTierLevel parseSubLayerFlags parseSubLayerProfile; streaming_with [parseProfileInfo_streaming]

/-! ### HRD, VUI, VPS -/

theorem parseSubLayerHrdEntry_streaming (n : Nat) : (parseSubLayerHrdEntry n).Streaming := by unfold parseSubLayerHrdEntry; streaming
theorem parseHrdSubLayer_streaming (a b c : Nat) : (parseHrdSubLayer a b c).Streaming := by unfold parseHrdSubLayer; streaming_with [parseSubLayerHrdEntry_streaming]
theorem parseHrdParameters_streaming (a b : Nat) : (parseHrdParameters a b).Streaming := by unfold parseHrdParameters; streaming_with [parseHrdSubLayer_streaming]
theorem parseVuiParameters_streaming (a : Nat) : (parseVuiParameters a).Streaming := by unfold parseVuiParameters; streaming_with [parseHrdParameters_streaming]
theorem parseVpsHrd_streaming (a b : Nat) : (parseVpsHrd a b).Streaming := by unfold parseVpsHrd; streaming_with [parseHrdParameters_streaming]
theorem parseVpsBody_streaming : parseVpsBody.Streaming := by
  unfold parseVpsBody parseSubLayerOrdering; streaming_with [parseProfileTierLevel_streaming, parseVpsHrd_streaming]

/-! ### SPS -/

theorem parseScalingCoefs_streaming : ∀ n next, (parseScalingCoefs n next).Streaming
  | 0, _ => .ret _
  | n + 1, next => by
    unfold parseScalingCoefs
    streaming_with [parseScalingCoefs_streaming n]

theorem startCoef_streaming (a : Nat) (b : Int) : (startCoef a b).Streaming := by unfold startCoef; streaming
theorem parseScalingMatrix_streaming (a : Nat) : (parseScalingMatrix a).Streaming := by
  unfold parseScalingMatrix; streaming_with [startCoef_streaming, parseScalingCoefs_streaming]
theorem parseScalingListData_streaming : parseScalingListData.Streaming := by
  unfold parseScalingListData; streaming_with [parseScalingMatrix_streaming]

theorem parseStRefPicSets_streaming (a b : Nat) : ∀ n acc, (parseStRefPicSets a b n acc).Streaming
  | 0, _ => .ret _
  | n + 1, acc => .bind (parseStRefPicSet_streaming _ _ _ _) fun _ => parseStRefPicSets_streaming a b n _

theorem parseSpsSccExtension_streaming (a b c : Nat) : (parseSpsSccExtension a b c).Streaming := by unfold parseSpsSccExtension; streaming
theorem parseSps3dExtension_streaming : parseSps3dExtension.Streaming := by unfold parseSps3dExtension; streaming
theorem parseSpsRangeExtension_streaming : parseSpsRangeExtension.Streaming := by unfold parseSpsRangeExtension; streaming
theorem parseSpsMultilayerExtension_streaming : parseSpsMultilayerExtension.Streaming := by unfold parseSpsMultilayerExtension; streaming

theorem parseSpsBody_streaming : parseSpsBody.Streaming := by
  unfold parseSpsBody parseSpsSubLayerOrdering parseLtRefPicSps
  streaming_with [parseProfileTierLevel_streaming, parseScalingListData_streaming, parseStRefPicSets_streaming, parseVuiParameters_streaming,
    parseSpsSccExtension_streaming, parseSps3dExtension_streaming, parseSpsRangeExtension_streaming, parseSpsMultilayerExtension_streaming]

/-! ### PPS -/

theorem parsePpsHead_streaming : parsePpsHead.Streaming := by unfold parsePpsHead; streaming_with [parseScalingListData_streaming]
theorem parsePpsMultilayerExtension_streaming : parsePpsMultilayerExtension.Streaming := by
  unfold parsePpsMultilayerExtension parseRefLocOffset parseRefLayerOffsets parseRefRegionOffsets parseResamplePhase; streaming
theorem parsePpsSccExtension_streaming : parsePpsSccExtension.Streaming := by unfold parsePpsSccExtension; streaming_with [uVar_streaming]

/-! ### SEI -/

theorem u32x2_streaming : u32x2.Streaming := by unfold u32x2; streaming
theorem i32v_streaming : i32v.Streaming := by unfold i32v; streaming
theorem uAny_streaming (n : Nat) : (uAny n).Streaming := by unfold uAny; streaming
theorem parseSeiUserDataRegistered_streaming (n : Nat) : (parseSeiUserDataRegistered n).Streaming := by unfold parseSeiUserDataRegistered; streaming
theorem parseSeiUserDataUnregistered_streaming (n : Nat) : (parseSeiUserDataUnregistered n).Streaming := by
  unfold parseSeiUserDataUnregistered; streaming_with [u32x2_streaming]
theorem parseSeiAlphaChannelInfo_streaming : parseSeiAlphaChannelInfo.Streaming := by unfold parseSeiAlphaChannelInfo; streaming
theorem parseSeiMasteringDisplay_streaming : parseSeiMasteringDisplay.Streaming := by unfold parseSeiMasteringDisplay parseSeiPrimaries; streaming
theorem parseSeiContentLightLevel_streaming : parseSeiContentLightLevel.Streaming := by unfold parseSeiContentLightLevel; streaming
theorem parseSeiKneeFunction_streaming : parseSeiKneeFunction.Streaming := by unfold parseSeiKneeFunction parseSeiKneePoint; streaming
theorem parseSeiLut_streaming (n : Nat) : (parseSeiLut n).Streaming := by unfold parseSeiLut parseSeiLutEntry; streaming_with [uAny_streaming]
theorem parseSeiColourRemapping_streaming : parseSeiColourRemapping.Streaming := by unfold parseSeiColourRemapping; streaming_with [parseSeiLut_streaming]
theorem parseSeiContentColourVolume_streaming : parseSeiContentColourVolume.Streaming := by
  unfold parseSeiContentColourVolume parseSeiCcvPrimaries; streaming_with [i32v_streaming]
theorem parseSeiAlternativeTransfer_streaming : parseSeiAlternativeTransfer.Streaming := by unfold parseSeiAlternativeTransfer; streaming
theorem parseSeiAmbientViewing_streaming : parseSeiAmbientViewing.Streaming := by unfold parseSeiAmbientViewing; streaming
theorem parseSeiUnknown_streaming (n : Nat) : (parseSeiUnknown n).Streaming := by unfold parseSeiUnknown; streaming

theorem parseSeiPayload_streaming (t n : Nat) : (parseSeiPayload t n).Streaming := by
  unfold parseSeiPayload
  streaming_with [parseSeiUserDataRegistered_streaming, parseSeiUserDataUnregistered_streaming, parseSeiAlphaChannelInfo_streaming, parseSeiMasteringDisplay_streaming,
    parseSeiContentLightLevel_streaming, parseSeiKneeFunction_streaming, parseSeiColourRemapping_streaming, parseSeiContentColourVolume_streaming,
    parseSeiAlternativeTransfer_streaming, parseSeiAmbientViewing_streaming, parseSeiUnknown_streaming]

theorem ffLoop_streaming : ∀ fuel acc r v rest, (ffLoop fuel acc).denote r = .ok v rest →
    ∃ c, r = c ++ rest ∧ (∀ f m, c.length < f → (ffLoop f acc).denote (c ++ m) = .ok v m) ∧
      ∀ f a b, c = a ++ b → b ≠ [] → a.length < f → ∃ r', (ffLoop f acc).denote a = .fail r'
  | 0, _, _, _, _, h => by cases h
  | fuel + 1, acc, r, v, rest, h => by
    unfold ffLoop at h
    rw [← Prog.bind_def, denote_bind] at h
    cases h1 : (Prog.u 8).denote r with
    | fail x => rw [h1] at h; cases h
    | bad k => rw [h1] at h; cases h
    | ok b r1 =>
      rw [h1, ARes.ok_bind] at h
      obtain ⟨c1, e1, g1⟩ := Streaming.u 8 _ _ _ h1
      have hpos : 0 < c1.length := by
        apply List.length_pos_iff.2
        rintro rfl
        have := g1.whole []
        simp [Prog.u, denote] at this
      have hstep : ∀ f c, (ffLoop (f + 1) acc).denote (c1 ++ c) =
          (if acc > 2 ^ 32 - 1 - b then Prog.fail else if b = 255 then ffLoop f (acc + b) else Prog.ret (acc + b)).denote c := by
        intro f c
        rw [ffLoop, ← Prog.bind_def, denote_bind, g1.whole, ARes.ok_bind]
      have hpart : ∀ f a y, c1 = a ++ y → y ≠ [] → ∃ r', (ffLoop (f + 1) acc).denote a = .fail r' := by
        intro f a y hy hne
        obtain ⟨r', hr⟩ := g1.part a y hy hne
        exact ⟨r', by rw [ffLoop, ← Prog.bind_def, denote_bind, hr]; rfl⟩
      by_cases ho : acc > 2 ^ 32 - 1 - b
      · rw [if_pos ho] at h; cases h
      rw [if_neg ho] at h
      simp only [if_neg ho] at hstep
      by_cases hb : b = 255
      · rw [if_pos hb] at h
        simp only [if_pos hb] at hstep
        obtain ⟨c2, e2, g2, g3⟩ := ffLoop_streaming fuel _ _ _ _ h
        refine ⟨c1 ++ c2, by rw [e1, e2, List.append_assoc], ?_, ?_⟩
        · intro f m hf
          obtain ⟨f, rfl⟩ : ∃ g, f = g + 1 := ⟨f - 1, by omega⟩
          rw [List.append_assoc, hstep]
          exact g2 f m (by rw [List.length_append] at hf; omega)
        · intro f a d hab hd hf
          obtain ⟨f, rfl⟩ : ∃ g, f = g + 1 := ⟨f - 1, by omega⟩
          rcases List.append_eq_append_iff.1 hab.symm with ⟨y, hy, hyd⟩ | ⟨y, rfl, rfl⟩
          · by_cases hy0 : y = []
            · subst hy0
              rw [List.append_nil] at hy
              subst hy
              have := hstep f []
              rw [List.append_nil] at this
              rw [this]
              refine g3 f [] _ rfl (by rw [List.nil_append] at hyd; exact hyd ▸ hd) ?_
              simp only [List.length_nil]
              omega
            · exact hpart f a y hy hy0
          · rw [hstep]
            exact g3 f y d rfl hd (by rw [List.length_append] at hf; omega)
      · rw [if_neg hb] at h
        simp only [if_neg hb] at hstep
        cases h
        refine ⟨c1, e1, ?_, ?_⟩
        · intro f m hf
          obtain ⟨f, rfl⟩ : ∃ g, f = g + 1 := ⟨f - 1, by omega⟩
          rw [hstep]; rfl
        · intro f a d hab hd hf
          obtain ⟨f, rfl⟩ : ∃ g, f = g + 1 := ⟨f - 1, by omega⟩
          exact hpart f a d hab hd

theorem ffCodedNumber_streaming : ffCodedNumber.Streaming := by
  intro r v rest h
  obtain ⟨c, e, g1, g2⟩ := ffLoop_streaming _ _ _ _ _ (show (ffLoop (r.length + 1) 0).denote r = _ from h)
  exact ⟨c, e, fun m => g1 _ m (by rw [List.length_append]; omega), fun a b hab hb => g2 _ a b hab hb (by omega)⟩

/-! ### what may follow -/

namespace Prog

/-- on success, bits behind the input do not change the result (but may be consumed) -/
def Stable {α : Type} (p : Prog α) (r : List Bool) (v : α) : Prop := ∀ m, ∃ rest, p.denote (r ++ m) = .ok v rest

theorem Streaming.stable {α : Type} {p : Prog α} (hp : p.Streaming) {r : List Bool} {v : α} {rest : List Bool} (h : p.denote r = .ok v rest) : p.Stable r v := by
  intro m
  obtain ⟨c, rfl, g⟩ := hp _ _ _ h
  exact ⟨rest ++ m, by rw [List.append_assoc, g.whole]⟩

theorem Streaming.bind_stable {α β : Type} {p : Prog α} {f : α → Prog β} (hp : p.Streaming) {r : List Bool} {b : β} {rest : List Bool}
    (h : (p >>= f).denote r = .ok b rest) (hf : ∀ a r1, p.denote r = .ok a r1 → (f a).denote r1 = .ok b rest → (f a).Stable r1 b) : (p >>= f).Stable r b := by
  rw [denote_bind] at h
  cases h1 : p.denote r with
  | fail x => rw [h1] at h; cases h
  | bad k => rw [h1] at h; cases h
  | ok a r1 =>
    rw [h1, ARes.ok_bind] at h
    intro m
    obtain ⟨c, e, g⟩ := hp _ _ _ h1
    obtain ⟨r2, hr2⟩ := hf a r1 h1 h m
    exact ⟨r2, by rw [denote_bind, e, List.append_assoc, g.whole, ARes.ok_bind, hr2]⟩

/-- a sub-parser whose failure is recorded: it succeeded or failed -/
theorem attempt_cases {α β : Type} {p : Prog α} {f : Option α → β} {r rest : List Bool} {b : β} (h : (p.attempt.bind fun o => Prog.ret (f o)).denote r = .ok b rest) :
    (∃ a, p.denote r = .ok a rest ∧ b = f (some a)) ∨ (p.denote r = .fail rest ∧ b = f none) := by
  rw [← Prog.bind_def, denote_bind, denote_attempt] at h
  cases h1 : p.denote r with
  | fail x => rw [h1] at h; cases h; exact .inr ⟨rfl, rfl⟩
  | bad k => rw [h1] at h; cases h
  | ok a r1 => rw [h1] at h; cases h; exact .inl ⟨a, rfl, rfl⟩

theorem Stable.attempt {α β : Type} {p : Prog α} {f : Option α → β} {r : List Bool} {a : α} (h : p.Stable r a) :
    (p.attempt.bind fun o => Prog.ret (f o)).Stable r (f (some a)) := by
  intro m
  obtain ⟨r1, h1⟩ := h m
  exact ⟨r1, by rw [← Prog.bind_def, denote_bind, denote_attempt, h1]; rfl⟩

end Prog

/-- the trailing bits are read as far as they are as they should be, and that never fails -/
theorem rbspTrailingBits_ok (r : List Bool) : ∃ b r', rbspTrailingBits.denote r = .ok b r' := by
  by_cases h : ∃ k rest, k ≤ 7 ∧ rest.length % 8 = 0 ∧ r = true :: List.replicate k false ++ rest
  · obtain ⟨k, rest, h1, h2, h3⟩ := h
    exact ⟨_, _, (trailingBits_denote r).1 k rest h1 h2 h3⟩
  · obtain ⟨r', hr⟩ := (trailingBits_denote r).2 h
    exact ⟨_, _, hr⟩

theorem rbspTail_zero (r : List Bool) : ∃ r', (rbspTail 0).denote r = .ok 0 r' := by
  obtain ⟨b, r', h⟩ := rbspTrailingBits_ok r
  refine ⟨r', ?_⟩
  unfold rbspTail
  rw [← Prog.bind_def, denote_bind]
  show ARes.bind ((Prog.ret 0).denote r) _ = _
  rw [Prog.denote, ARes.ok_bind, ← Prog.bind_def, denote_bind, h]
  rfl

end H265
