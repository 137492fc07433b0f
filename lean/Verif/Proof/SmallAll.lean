/-
The readers of NAL units do not overflow if all code numbers of the Exp-Golomb codes are below 2^27 - 1.
-/
import Verif.Proof.Small
import Verif.Props.Rps
import Verif.Model.Nal
import Verif.Props.Rbsp

set_option autoImplicit false

namespace H265
open Spec Prog

/-- the code numbers of codes with at most 26 leading zero bits -/
abbrev Lim (c : Nat) : Prop := c < 2 ^ 27 - 1

theorem Quiet.sev : Prog.sev.Quiet Lim := (Small.sev (n := 2 ^ 27 - 1) (by decide)).quiet

theorem uVar_quiet (n : Nat) : (uVar n).Quiet Lim := by unfold uVar; quiet_with []

/-! ### short-term reference picture sets -/

/-- A set from which others can be derived: the distances are below the bound. -/
structure RpsNear (k : Nat) (s : StRefPicSet) : Prop where
  wf : RpsWF s
  entries : ∀ e ∈ s.s0 ++ s.s1, e.delta_poc_minus1 ≠ 2 ^ 31 - 1
  pocs : ∀ d ∈ deltaPocs (-1) 0 s.s0 ++ deltaPocs 1 0 s.s1, -(15 * 2 ^ 27 + 2 ^ 15 * (k : Int)) ≤ d ∧ d ≤ 15 * 2 ^ 27 + 2 ^ 15 * (k : Int)

theorem RpsNear.mono {k k' : Nat} {s : StRefPicSet} (h : RpsNear k s) (hk : k ≤ k') : RpsNear k' s :=
  ⟨h.wf, h.entries, fun d hd => by have := h.pocs d hd; omega⟩

theorem near_fits {k : Nat} (hk : k ≤ 64) {ref s : StRefPicSet} (hs : s.delta_rps_sign < 2) (ha : s.abs_delta_rps_minus1 ≤ 32767) (h : RpsNear k ref) : DeriveFits ref s where
  entries := h.entries
  pocs := fun d hd => by
    have := h.pocs d hd
    have := deltaRps_I32 hs ha
    unfold I32
    omega
  first := by
    intro x hx
    have hx := List.mem_of_mem_head? hx
    unfold derivedS0 at hx
    rw [List.mem_map] at hx
    obtain ⟨c, hc, rfl⟩ := hx
    have hc := (List.mem_filter.mp hc).1
    have := deltaRps_I32 hs ha
    have hb : -(15 * 2 ^ 27 + 2 ^ 15 * (k : Int)) ≤ c.1 ∧ c.1 ≤ 15 * 2 ^ 27 + 2 ^ 15 * (k : Int) := by
      unfold candS0 at hc
      simp only [List.mem_append, List.mem_reverse, List.mem_cons] at hc
      rcases hc with hc | hc | hc
      · exact h.pocs _ (List.mem_append_right _ (List.of_mem_zip hc).1)
      · subst hc; simp only; omega
      · exact h.pocs _ (List.mem_append_left _ (List.of_mem_zip hc).1)
    simp only
    omega

/-- the candidates of a derivation are near -/
theorem derived_near {k : Nat} {ref s : StRefPicSet} (hs : s.delta_rps_sign < 2) (ha : s.abs_delta_rps_minus1 ≤ 32767) (h : RpsNear k ref) :
    (∀ x ∈ derivedS0 ref s, -(15 * 2 ^ 27 + 2 ^ 15 * ((k + 1 : Nat) : Int)) ≤ x.1 ∧ x.1 < 0) ∧
    (∀ x ∈ derivedS1 ref s, 0 < x.1 ∧ x.1 ≤ 15 * 2 ^ 27 + 2 ^ 15 * ((k + 1 : Nat) : Int)) := by
  have hr := deltaRps_I32 hs ha
  constructor
  · intro x hx
    unfold derivedS0 at hx
    rw [List.mem_map] at hx
    obtain ⟨c, hc, rfl⟩ := hx
    rw [List.mem_filter] at hc
    have h1 : c.1 + deltaRps s < 0 := by simp at hc; omega
    have hc := hc.1
    unfold candS0 at hc
    simp only [List.mem_append, List.mem_reverse, List.mem_cons] at hc
    simp only
    rcases hc with hc | hc | hc
    · have := h.pocs _ (List.mem_append_right _ (List.of_mem_zip hc).1); omega
    · subst hc; simp only at h1 ⊢; omega
    · have := h.pocs _ (List.mem_append_left _ (List.of_mem_zip hc).1); omega
  · intro x hx
    unfold derivedS1 at hx
    rw [List.mem_map] at hx
    obtain ⟨c, hc, rfl⟩ := hx
    rw [List.mem_filter] at hc
    have h1 : c.1 + deltaRps s > 0 := by simp at hc; omega
    have hc := hc.1
    unfold candS1 at hc
    simp only [List.mem_append, List.mem_reverse, List.mem_cons] at hc
    simp only
    rcases hc with hc | hc | hc
    · have := h.pocs _ (List.mem_append_left _ (List.of_mem_zip hc).1); omega
    · subst hc; simp only at h1 ⊢; omega
    · have := h.pocs _ (List.mem_append_right _ (List.of_mem_zip hc).1); omega

theorem differences_ne (sgn : Int) (hs : sgn = 1 ∨ sgn = -1) : ∀ (l : List (Int × Nat)) (p : Int), -(2 ^ 31) < p ∧ p < 2 ^ 31 → 0 ≤ sgn * p →
    (∀ x ∈ l, 0 < sgn * x.1 ∧ -(2 ^ 31) < x.1 ∧ x.1 < 2 ^ 31) → ∀ e ∈ differences sgn p l, e.delta_poc_minus1 ≠ 2 ^ 31 - 1
  | [], _, _, _, _ => by intro e he; cases he
  | (d, f) :: l, p, hp, hp2, hl => by
    intro e he
    have hd := hl (d, f) List.mem_cons_self
    simp only at hd
    rw [differences, List.mem_cons] at he
    rcases he with rfl | he
    · simp only
      rcases hs with rfl | rfl <;> omega
    · exact differences_ne sgn hs l d hd.2 (Int.le_of_lt hd.1) (fun x hx => hl x (List.mem_cons_of_mem _ hx)) e he

theorem parseInterRps_small (idx num k : Nat) (prev : List StRefPicSet) (hk : k ≤ 64) (hp : ∀ s ∈ prev, RpsNear k s) :
    (parseInterRps idx num prev).Small Lim (RpsNear (k + 1)) := by
  unfold parseInterRps
  refine Quiet.bind (Quiet.opt Quiet.uev) fun di => Quiet.bind (Quiet.check _) fun _ => Small.bind (Small.u 1) fun sg hsg =>
    Small.bind (Small.ueRange 0 32767) fun ab hab => Small.bind (Small.at' prev _) fun ref href => Small.bind (Small.check _) fun _ hsz =>
    Small.bind (Small.rep (Q := fun _ => True) ?_ _) fun fl hfl => ?_
  · unfold parseRpsFlags; quiet_with []
  have hn := hp ref href
  have hw := hn.wf
  rw [hw.num_negative_pics, hw.num_positive_pics] at hsz hfl
  have hsg : sg < 2 := hsg
  have hfit := near_fits (s := ⟨1, di, sg, ab, fl, 0, 0, [], []⟩) hk hsg hab.2.2 hn
  have hd := (deriveValues_eq (s := ⟨1, di, sg, ab, fl, 0, 0, [], []⟩) hw hsz hfl.1 hsg hab.2.2).1 hfit
  simp only at hd
  rw [hd]
  generalize hs : (⟨1, di, sg, ab, fl, 0, 0, [], []⟩ : StRefPicSet) = s at hfit
  have hs1 : s.delta_rps_sign < 2 := by rw [← hs]; exact hsg
  have hs2 : s.abs_delta_rps_minus1 ≤ 32767 := by rw [← hs]; exact hab.2.2
  obtain ⟨n0, n1⟩ := derived_near hs1 hs2 hn
  have hdf : DerivedFrom ref { s with s0 := differences (-1) 0 (derivedS0 ref s), s1 := differences 1 0 (derivedS1 ref s) } :=
    ⟨⟨hfit.entries, hfit.pocs, hfit.first⟩, rfl, rfl⟩
  obtain ⟨p0, p1⟩ := derived_pocs hdf hs1 hs2
  have e0 : derivedS0 ref { s with s0 := differences (-1) 0 (derivedS0 ref s), s1 := differences 1 0 (derivedS1 ref s) } = derivedS0 ref s := rfl
  have e1 : derivedS1 ref { s with s0 := differences (-1) 0 (derivedS0 ref s), s1 := differences 1 0 (derivedS1 ref s) } = derivedS1 ref s := rfl
  rw [e0] at p0
  rw [e1] at p1
  show RpsNear (k + 1) _
  refine ⟨⟨rfl, rfl, ?_⟩, ?_, ?_⟩
  · intro e he
    rw [List.mem_append] at he
    exact he.elim (differences_lt _ _ _ e) (differences_lt _ _ _ e)
  · intro e he
    rw [List.mem_append] at he
    rcases he with he | he
    · refine differences_ne (-1) (Or.inr rfl) _ 0 (by decide) (by decide) (fun x hx => ?_) e he
      have := n0 x hx; omega
    · refine differences_ne 1 (Or.inl rfl) _ 0 (by decide) (by decide) (fun x hx => ?_) e he
      have := n1 x hx; omega
  · intro d hd
    simp only at hd p0 p1
    rw [p0, p1, List.mem_append, List.mem_map, List.mem_map] at hd
    rcases hd with ⟨x, hx, rfl⟩ | ⟨x, hx, rfl⟩
    · have := n0 x hx; omega
    · have := n1 x hx; omega

theorem deltaPocs_near (sgn : Int) (hs : sgn = 1 ∨ sgn = -1) : ∀ (l : List RpsEntry) (d : Int), (∀ e ∈ l, Lim e.delta_poc_minus1) →
    ∀ x ∈ deltaPocs sgn d l, d - 2 ^ 27 * (l.length : Int) ≤ x ∧ x ≤ d + 2 ^ 27 * (l.length : Int)
  | [], _, _ => by intro x hx; cases hx
  | e :: l, d, hl => by
    intro x hx
    have he : e.delta_poc_minus1 < 2 ^ 27 - 1 := hl e List.mem_cons_self
    have h32 : toInt32 e.delta_poc_minus1 = e.delta_poc_minus1 := by unfold toInt32; rw [if_pos (by omega)]
    rw [deltaPocs, h32, List.mem_cons] at hx
    rw [List.length_cons]
    rcases hx with rfl | hx
    · rcases hs with rfl | rfl <;> omega
    · have := deltaPocs_near sgn hs l _ (fun e he => hl e (List.mem_cons_of_mem _ he)) x hx
      rcases hs with rfl | rfl <;> omega

theorem parseExplicitRps_small : (parseExplicitRps 15).Small Lim (RpsNear 0) := by
  unfold parseExplicitRps
  have hentry : parseRpsEntry.Small Lim (fun e => Lim e.delta_poc_minus1) := by
    unfold parseRpsEntry
    exact Small.bind Small.uev fun v hv => Quiet.bind (Quiet.u 1) fun _ => hv
  refine Small.bind (Small.ueRange _ _) fun n hn => Small.bind (Small.ueRange _ _) fun m hm => Small.bind (Small.rep hentry _) fun s0 h0 =>
    Small.bind (Small.rep hentry _) fun s1 h1 => ?_
  show RpsNear 0 _
  have he : ∀ e ∈ s0 ++ s1, Lim e.delta_poc_minus1 := fun e he => (List.mem_append.mp he).elim (h0.2 e) (h1.2 e)
  refine ⟨⟨h0.1.symm, h1.1.symm, fun e h => ?_⟩, fun e h => ?_, fun d hd => ?_⟩
  · have : e.delta_poc_minus1 < 2 ^ 27 - 1 := he e h; omega
  · have : e.delta_poc_minus1 < 2 ^ 27 - 1 := he e h; omega
  · simp only [List.mem_append] at hd
    rcases hd with hd | hd
    · have := deltaPocs_near (-1) (Or.inr rfl) _ _ h0.2 d hd; omega
    · have := deltaPocs_near 1 (Or.inl rfl) _ _ h1.2 d hd; omega

theorem parseStRefPicSet_small (idx num k : Nat) (prev : List StRefPicSet) (hk : num ≤ 64 → k ≤ 64) (hp : ∀ s ∈ prev, RpsNear k s) :
    (parseStRefPicSet idx num prev 15).Small Lim (fun s => num ≤ 64 ∧ RpsNear (k + 1) s) := by
  unfold parseStRefPicSet
  refine Small.bind (Small.check _) fun _ hn => Quiet.bind (Quiet.opt (Quiet.u 1)) fun _ => Small.ite (fun _ => ?_) (fun _ => ?_)
  · exact (parseInterRps_small idx num k prev (hk hn) hp).mono fun _ h => ⟨hn, h⟩
  · exact parseExplicitRps_small.mono fun _ h => ⟨hn, h.mono (by omega)⟩

theorem parseStRefPicSets_small (num : Nat) : ∀ n acc, acc.length + n = num → (∀ s ∈ acc, RpsNear acc.length s) →
    (parseStRefPicSets num 15 n acc).Small Lim (fun l => ∀ s ∈ l, RpsNear num s)
  | 0, acc, hl, h => fun s hs => by rw [← hl]; exact h s hs
  | n + 1, acc, hl, h => by
    unfold parseStRefPicSets
    refine Small.bind (parseStRefPicSet_small acc.length num acc.length acc (by omega) h) fun s hs => ?_
    refine parseStRefPicSets_small num n (acc ++ [s]) (by rw [List.length_append, List.length_singleton]; omega) fun x hx => ?_
    rw [List.length_append, List.length_singleton]
    rw [List.mem_append, List.mem_singleton] at hx
    exact hx.elim (fun hx => (h x hx).mono (by omega)) (fun hx => hx ▸ hs.2)

/-! ### slice header -/

theorem parsePredWeight_quiet (a b : Nat) : (parsePredWeight a b).Quiet Lim := by
  unfold parsePredWeight parseLumaWeight parseChromaWeight; quiet_with [Quiet.sev]

theorem parsePredWeightAt_quiet (c : Nat) (l m : List Nat) (i : Nat) : (parsePredWeightAt c l m i).Quiet Lim := by
  unfold parsePredWeightAt; quiet_with [parsePredWeight_quiet]

theorem parsePredWeightTable_quiet (c n : Nat) : (parsePredWeightTable c n).Quiet Lim := by
  unfold parsePredWeightTable; quiet_with [parsePredWeightAt_quiet, Quiet.sev]

theorem parseLtRefPicHead_quiet (a b c i : Nat) : (parseLtRefPicHead a b c i).Quiet Lim := by unfold parseLtRefPicHead; quiet_with []

theorem ltLoop_quiet (numSps numPics numLtSps pocLen : Nat) : ∀ fuel i acc, (ltLoop numSps numPics numLtSps pocLen fuel i acc).Quiet Lim
  | 0, _, _ => by simp [ltLoop, Small]
  | fuel + 1, i, acc => Small.ite (fun _ => Quiet.bind' (parseLtRefPicHead_quiet _ _ _ _) fun _ => Quiet.bind' (Quiet.at' _ _) fun _ => Quiet.bind' (Quiet.opt Quiet.uev) fun _ =>
      ltLoop_quiet numSps numPics numLtSps pocLen fuel _ _) (fun _ => Quiet.ret _)

theorem parseLtRefPics_quiet (numSps numPics numLtSps pocLen : Nat) : (parseLtRefPics numSps numPics numLtSps pocLen).Quiet Lim :=
  fun _ => ltLoop_quiet _ _ _ _ _ _ _

theorem parseSliceHead_quiet (t : Nat) : (parseSliceHead t).Quiet Lim := by unfold parseSliceHead; quiet_with []

theorem ppsActFlag_quiet (p : PpsBody) : (ppsActFlag p).Quiet Lim := by
  unfold ppsActFlag
  refine Small.ite (fun _ => ?_) (fun _ => Quiet.ret _)
  split
  · exact Quiet.ret _
  · simp [Small]

theorem uAddress_quiet (n : Nat) : (uAddress n).Quiet Lim := by
  unfold uAddress
  exact Small.ite (fun _ => by simp [Small]) (fun _ => uVar_quiet _)

/-- the sets of a stored SPS -/
def SpsNear (s : SpsBody) : Prop := ∀ x ∈ s.st_ref_pic_set, RpsNear 64 x

theorem parseSliceBody_quiet (t : Nat) (p : PpsBody) (s : SpsBody) (first : Nat) (hs : SpsNear s) : (parseSliceBody t p s first).Quiet Lim := by
  unfold parseSliceBody
  have h2 : ∀ i, (parseStRefPicSet i s.num_short_term_ref_pic_sets s.st_ref_pic_set 15).Quiet Lim :=
    fun i => (parseStRefPicSet_small i _ 64 _ (fun _ => Nat.le_refl _) hs).quiet
  quiet_with [uAddress_quiet, h2, parseLtRefPics_quiet, parsePredWeightTable_quiet, ppsActFlag_quiet, Quiet.sev]

theorem parseSliceSegmentHeader_quiet (t : Nat) (pps : Nat → Option Pps) (sps : Nat → Option Sps) (hs : ∀ i x, sps i = some x → SpsNear x.body) :
    (parseSliceSegmentHeader t pps sps).Quiet Lim := by
  unfold parseSliceSegmentHeader
  refine Quiet.bind (parseSliceHead_quiet t) fun head => ?_
  split
  · exact Quiet.fail
  · split
    · exact Quiet.fail
    · rename_i h
      exact Quiet.bind (parseSliceBody_quiet _ _ _ _ (hs _ _ h)) fun _ => Quiet.pure _

/-! ### profile_tier_level -/

theorem wide_quiet (k : Nat) : (wide k).Quiet Lim := by unfold wide; quiet_with []
theorem parseConstraintsExt_quiet (idc : Nat) (f : List Nat) : (parseConstraintsExt idc f).Quiet Lim := by
  unfold parseConstraintsExt; quiet_with [wide_quiet]
theorem parseConstraints_quiet (idc : Nat) (f : List Nat) : (parseConstraints idc f).Quiet Lim := by
  unfold parseConstraints parseConstraintsMain10 parseConstraintsOther; quiet_with [wide_quiet, parseConstraintsExt_quiet]
theorem parseProfileInfo_quiet : parseProfileInfo.Quiet Lim := by unfold parseProfileInfo; quiet_with [parseConstraints_quiet]
theorem parseProfileTierLevel_quiet (b : Bool) (n : Nat) : (parseProfileTierLevel b n).Quiet Lim := by
  unfold parseProfileTierLevel parseSubLayerFlags parseSubLayerProfile; quiet_with [parseProfileInfo_quiet]

/-! ### HRD, VUI, VPS -/

theorem parseSubLayerHrdEntry_quiet (n : Nat) : (parseSubLayerHrdEntry n).Quiet Lim := by unfold parseSubLayerHrdEntry; quiet_with []
theorem parseHrdSubLayer_quiet (a b c : Nat) : (parseHrdSubLayer a b c).Quiet Lim := by unfold parseHrdSubLayer; quiet_with [parseSubLayerHrdEntry_quiet]
theorem parseHrdParameters_quiet (a b : Nat) : (parseHrdParameters a b).Quiet Lim := by unfold parseHrdParameters; quiet_with [parseHrdSubLayer_quiet]
theorem parseVuiParameters_quiet (a : Nat) : (parseVuiParameters a).Quiet Lim := by unfold parseVuiParameters; quiet_with [parseHrdParameters_quiet]
theorem parseVpsHrd_quiet (a b : Nat) : (parseVpsHrd a b).Quiet Lim := by unfold parseVpsHrd; quiet_with [parseHrdParameters_quiet]
theorem parseVpsBody_quiet : parseVpsBody.Quiet Lim := by
  unfold parseVpsBody parseSubLayerOrdering; quiet_with [parseProfileTierLevel_quiet, parseVpsHrd_quiet]

/-! ### SPS -/


theorem int32_small {x : Int} (h : -(2 ^ 31) ≤ x ∧ x ≤ 2 ^ 31 - 1) : (Prog.int32 x).Small Lim (fun y => y = x) := by
  unfold Prog.int32
  rw [if_pos h]
  exact rfl
theorem parseScalingCoefs_quiet : ∀ n next, -(2 ^ 28) ≤ next ∧ next ≤ 2 ^ 28 → (parseScalingCoefs n next).Quiet Lim
  | 0, _, _ => Quiet.ret _
  | n + 1, next, h => by
    unfold parseScalingCoefs
    refine Small.bind (Small.sev (n := 2 ^ 27 - 1) (by decide)) fun d hd => Small.bind (int32_small (by omega)) fun x hx =>
      Small.bind (int32_small (by omega)) fun y hy => Quiet.bind (parseScalingCoefs_quiet n _ (by omega)) fun _ => Quiet.pure _
theorem startCoef_small (a : Nat) (b : Int) (hb : -(2 ^ 27) < b ∧ b < 2 ^ 27) : (startCoef a b).Small Lim (fun x => -(2 ^ 28) ≤ x ∧ x ≤ 2 ^ 28) := by
  unfold startCoef
  exact Small.ite (fun _ => (int32_small (by omega)).mono fun x hx => by omega) (fun _ => by show _ ∧ _; omega)
theorem parseScalingMatrix_quiet (a : Nat) : (parseScalingMatrix a).Quiet Lim := by
  unfold parseScalingMatrix
  refine Quiet.bind (Quiet.u 1) fun _ => Quiet.bind (Quiet.opt Quiet.uev) fun _ => Small.bind (Q := fun b => -(2 ^ 27) < b ∧ b < 2 ^ 27) ?_ fun b hb =>
    Small.bind (startCoef_small a b hb) fun x hx => Quiet.bind (parseScalingCoefs_quiet _ x hx) fun _ => Quiet.pure _
  unfold Prog.opt
  exact Small.ite (fun _ => (Small.sev (n := 2 ^ 27 - 1) (by decide)).mono fun x hx => by omega) (fun _ => by show _ ∧ _; omega)
theorem parseScalingListData_quiet : parseScalingListData.Quiet Lim := by
  unfold parseScalingListData; quiet_with [parseScalingMatrix_quiet]


theorem parseSpsSccExtension_quiet (a b c : Nat) : (parseSpsSccExtension a b c).Quiet Lim := by unfold parseSpsSccExtension; quiet_with []
theorem parseSps3dExtension_quiet : parseSps3dExtension.Quiet Lim := by unfold parseSps3dExtension; quiet_with []
theorem parseSpsRangeExtension_quiet : parseSpsRangeExtension.Quiet Lim := by unfold parseSpsRangeExtension; quiet_with []
theorem parseSpsMultilayerExtension_quiet : parseSpsMultilayerExtension.Quiet Lim := by unfold parseSpsMultilayerExtension; quiet_with []


theorem parseStRefPicSets_near (num : Nat) : (parseStRefPicSets num 15 num []).Small Lim (fun l => ∀ s ∈ l, RpsNear 64 s) := by
  by_cases h : num ≤ 64
  · exact (parseStRefPicSets_small num num [] (Nat.zero_add _) (by intro s hs; cases hs)).mono fun l hl s hs => (hl s hs).mono h
  · cases num with
    | zero => omega
    | succ n =>
      unfold parseStRefPicSets
      exact Small.bind (parseStRefPicSet_small 0 _ 0 [] (by omega) (by intro s hs; cases hs)) fun s hs => absurd hs.1 h

theorem parseSpsBody_small : parseSpsBody.Small Lim SpsNear := by
  unfold parseSpsBody parseSpsSubLayerOrdering parseLtRefPicSps
  repeat' (first
    | with_reducible refine Small.bind (parseStRefPicSets_near _) fun _ _ => ?_
    | with_reducible refine Quiet.bind (R := SpsNear) ?_ fun _ => ?_
    | quiet_leaf [parseProfileTierLevel_quiet, parseScalingListData_quiet, parseVuiParameters_quiet,
        parseSpsSccExtension_quiet, parseSps3dExtension_quiet, parseSpsRangeExtension_quiet, parseSpsMultilayerExtension_quiet]
    | exact Quiet.pure _ | exact Quiet.ret _ | exact Quiet.fail | exact Quiet.u _ | exact Quiet.u64 _ | exact Quiet.uev
    | exact Quiet.check _ | exact Quiet.ueRange _ _ | assumption
    | with_reducible refine Quiet.bind ?_ fun _ => ?_ | with_reducible refine Quiet.opt ?_
    | with_reducible refine Quiet.maybe ?_ | with_reducible refine Quiet.rep ?_ _)

/-! ### PPS -/

theorem parsePpsHead_quiet : parsePpsHead.Quiet Lim := by unfold parsePpsHead; quiet_with [parseScalingListData_quiet, Quiet.sev]
theorem parsePpsMultilayerExtension_quiet : parsePpsMultilayerExtension.Quiet Lim := by
  unfold parsePpsMultilayerExtension parseRefLocOffset parseRefLayerOffsets parseRefRegionOffsets parseResamplePhase; quiet_with [Quiet.sev]
theorem parsePpsSccExtension_quiet : parsePpsSccExtension.Quiet Lim := by unfold parsePpsSccExtension; quiet_with [uVar_quiet, Quiet.sev]

/-! ### SEI -/

theorem u32x2_quiet : u32x2.Quiet Lim := by unfold u32x2; quiet_with []
theorem i32v_quiet : i32v.Quiet Lim := by unfold i32v; quiet_with []
theorem uAny_quiet (n : Nat) : (uAny n).Quiet Lim := by unfold uAny; quiet_with []
theorem parseSeiUserDataRegistered_quiet (n : Nat) : (parseSeiUserDataRegistered n).Quiet Lim := by unfold parseSeiUserDataRegistered; quiet_with []
theorem parseSeiUserDataUnregistered_quiet (n : Nat) : (parseSeiUserDataUnregistered n).Quiet Lim := by
  unfold parseSeiUserDataUnregistered; quiet_with [u32x2_quiet]
theorem parseSeiAlphaChannelInfo_quiet : parseSeiAlphaChannelInfo.Quiet Lim := by unfold parseSeiAlphaChannelInfo; quiet_with []
theorem parseSeiMasteringDisplay_quiet : parseSeiMasteringDisplay.Quiet Lim := by unfold parseSeiMasteringDisplay parseSeiPrimaries; quiet_with []
theorem parseSeiContentLightLevel_quiet : parseSeiContentLightLevel.Quiet Lim := by unfold parseSeiContentLightLevel; quiet_with []
theorem parseSeiKneeFunction_quiet : parseSeiKneeFunction.Quiet Lim := by unfold parseSeiKneeFunction parseSeiKneePoint; quiet_with []
theorem parseSeiLut_quiet (n : Nat) : (parseSeiLut n).Quiet Lim := by unfold parseSeiLut parseSeiLutEntry; quiet_with [uAny_quiet]
theorem parseSeiColourRemapping_quiet : parseSeiColourRemapping.Quiet Lim := by unfold parseSeiColourRemapping; quiet_with [Quiet.sev, parseSeiLut_quiet]
theorem parseSeiContentColourVolume_quiet : parseSeiContentColourVolume.Quiet Lim := by
  unfold parseSeiContentColourVolume parseSeiCcvPrimaries; quiet_with [i32v_quiet]
theorem parseSeiAlternativeTransfer_quiet : parseSeiAlternativeTransfer.Quiet Lim := by unfold parseSeiAlternativeTransfer; quiet_with []
theorem parseSeiAmbientViewing_quiet : parseSeiAmbientViewing.Quiet Lim := by unfold parseSeiAmbientViewing; quiet_with []
theorem parseSeiUnknown_quiet (n : Nat) : (parseSeiUnknown n).Quiet Lim := by unfold parseSeiUnknown; quiet_with []

theorem parseSeiPayload_quiet (t n : Nat) : (parseSeiPayload t n).Quiet Lim := by
  unfold parseSeiPayload
  quiet_with [parseSeiUserDataRegistered_quiet, parseSeiUserDataUnregistered_quiet, parseSeiAlphaChannelInfo_quiet, parseSeiMasteringDisplay_quiet,
    parseSeiContentLightLevel_quiet, parseSeiKneeFunction_quiet, parseSeiColourRemapping_quiet, parseSeiContentColourVolume_quiet,
    parseSeiAlternativeTransfer_quiet, parseSeiAmbientViewing_quiet, parseSeiUnknown_quiet]

theorem ffLoop_quiet : ∀ fuel acc, (ffLoop fuel acc).Quiet Lim
  | 0, _ => by simp [ffLoop, Small]
  | fuel + 1, acc => Quiet.bind' (Quiet.u 8) fun _ => Small.ite (fun _ => Quiet.fail) fun _ => Small.ite (fun _ => ffLoop_quiet fuel _) fun _ => Quiet.ret _

theorem ffCodedNumber_quiet : ffCodedNumber.Quiet Lim := fun _ => ffLoop_quiet _ _

theorem parseNalUnitHeader_quiet : parseNalUnitHeader.Quiet Lim := by unfold parseNalUnitHeader; quiet_with []

/-! ### the end of the parameter sets -/

theorem moreRbspData_quiet : moreRbspData.Quiet Lim := by
  intro n
  refine Small.ite (fun _ => Quiet.ret _) fun _ => Small.ite (fun _ => Quiet.ret _) fun _ v => ?_
  cases v <;> exact Quiet.ret _

theorem extLoop_quiet : ∀ fuel x, (extLoop fuel x).Quiet Lim
  | 0, _ => by simp [extLoop, Small]
  | fuel + 1, x => Quiet.bind' moreRbspData_quiet fun _ => Small.ite (fun _ => ⟨fun v _ => extLoop_quiet fuel v, Quiet.fail⟩) fun _ => Quiet.ret _

theorem trailLoop_quiet : ∀ fuel, (trailLoop fuel).Quiet Lim
  | 0 => by simp [trailLoop, Small]
  | fuel + 1 => fun _ => Small.ite (fun _ => Quiet.ret _) fun _ => ⟨fun _ _ => Small.ite (fun _ => Quiet.ret _) fun _ => trailLoop_quiet fuel, Quiet.ret _⟩

theorem rbspTrailingBits_quiet : rbspTrailingBits.Quiet Lim := ⟨fun _ _ => Small.ite (fun _ => Quiet.ret _) fun _ => trailLoop_quiet 8, Quiet.ret _⟩

theorem rbspTail_quiet (ext : Nat) : (rbspTail ext).Quiet Lim :=
  Quiet.bind' (Quiet.opt fun _ => extLoop_quiet _ _) fun _ => Quiet.bind' rbspTrailingBits_quiet fun _ => Quiet.ret _

theorem parseVps_quiet : parseVps.Quiet Lim := Quiet.bind parseVpsBody_quiet fun _ => Quiet.bind (rbspTail_quiet _) fun _ => Quiet.pure _

theorem parseSps_small : parseSps.Small Lim (fun s => SpsNear s.body) := Small.bind parseSpsBody_small fun _ h => Quiet.bind (rbspTail_quiet _) fun _ => h

theorem parsePpsMultilayerUnchecked_quiet (flag : Nat) : (parsePpsMultilayerUnchecked flag).Quiet Lim := by
  unfold parsePpsMultilayerUnchecked
  split
  · exact parsePpsMultilayerExtension_quiet.attempt.quiet
  · exact Quiet.ret _

theorem parsePpsBody_quiet : parsePpsBody.Quiet Lim :=
  Quiet.bind parsePpsHead_quiet fun _ => Quiet.bind (parsePpsMultilayerUnchecked_quiet _) fun _ =>
    Quiet.bind (Quiet.check _) fun _ => Quiet.bind (Quiet.maybe parsePpsSccExtension_quiet) fun _ => Quiet.pure _

theorem parsePps_quiet : parsePps.Quiet Lim := Quiet.bind parsePpsBody_quiet fun _ => Quiet.bind (rbspTail_quiet _) fun _ => Quiet.pure _

theorem parseAud_quiet : parseAud.Quiet Lim := Quiet.bind (Quiet.u 3) fun _ => Quiet.bind rbspTrailingBits_quiet fun _ => Quiet.pure _

theorem parseSei_quiet : parseSei.Quiet Lim :=
  Quiet.bind ffCodedNumber_quiet fun _ => Quiet.bind ffCodedNumber_quiet fun _ => Quiet.bind (parseSeiPayload_quiet _ _).attempt.quiet fun _ => Quiet.pure _

/-- the stored SPSs -/
def StateNear (st : ParserState) : Prop := ∀ i x, st.sps i = some x → SpsNear x.body

theorem StateNear.empty : StateNear .empty := fun i x h => by cases h

theorem parseNalUnitPayload_small (t : Nat) (st : ParserState) (hs : StateNear st) : (parseNalUnitPayload t st).Small Lim (fun p => StateNear p.2) := by
  unfold parseNalUnitPayload
  refine Small.ite (fun _ => ?_) fun _ => Small.ite (fun _ => ?_) fun _ => Small.ite (fun _ => ?_) fun _ => Small.ite (fun _ => ?_) fun _ =>
    Small.ite (fun _ => ?_) fun _ => Small.ite (fun _ => ?_) fun _ => hs
  · exact Quiet.bind' (parseSliceSegmentHeader_quiet _ _ _ hs).attempt.quiet fun _ => hs
  · refine Quiet.bind' parseVps_quiet.attempt.quiet fun v => ?_
    cases v <;> exact hs
  · refine Small.bind' parseSps_small.attempt fun v hv => ?_
    cases v with
    | none => exact hs
    | some x =>
      show StateNear (spsOut st (some x)).2
      intro i y h
      unfold spsOut mapSet at h
      simp only at h
      split at h
      · cases h; exact hv _ rfl
      · exact hs i y h
  · refine Quiet.bind' parsePps_quiet.attempt.quiet fun v => ?_
    cases v <;> exact hs
  · exact Quiet.bind' parseAud_quiet.attempt.quiet fun _ => hs
  · exact Quiet.bind' parseSei_quiet.attempt.quiet fun _ => hs

theorem parseNalUnitParts_small (st : ParserState) (hs : StateNear st) : (parseNalUnitParts st).Small Lim (fun x => StateNear x.2.2) := by
  unfold parseNalUnitParts
  exact Quiet.bind parseNalUnitHeader_quiet fun h => Small.bind (parseNalUnitPayload_small _ st hs) fun p hp => hp

end H265
