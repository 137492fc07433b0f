import Verif.Model.Headers
import Verif.Proof.Tactic

namespace H265
open Spec
codec_opaque

variable {H : Cond} {A : Bad → Prop}

theorem parseNalUnitHeader_codec [CondOk H] : Codec H A parseNalUnitHeader Spec.nalUnitHeader ValidNalUnitHeader where
  sound := by
    unfold parseNalUnitHeader; snd_all
    refine Snd.pure ⟨?_, ?_⟩
    · simp [Spec.nalUnitHeader, Spec.seq]
    · constructor <;> assumption
  complete := by
    rintro ⟨⟩ ⟨⟩
    unfold parseNalUnitHeader
    simp only [Spec.nalUnitHeader, Spec.seq, List.flatten_cons, List.flatten_nil]
    cmp_all
    exact Cmp.pure

theorem wide_codec [CondOk H] {k : Nat} (h0 : 0 < k) (h1 : k ≤ 32) :
    Codec H A (wide k) (Spec.u (k + 32)) (fun v => v < 2 ^ (k + 32)) where
  sound := by
    unfold wide
    refine Codec.snd_bind (u_codec h0 h1) (fun hi hhi => ?_)
    refine Codec.snd_bind (u_codec (by decide) (by decide)) (fun lo hlo => ?_)
    refine Snd.pure ⟨?_, ?_⟩
    · rw [BB.shl_or _ _ _ hlo, u_append, List.append_nil]
      congr 1
      · congr 1; omega
      · rw [← u_mod 32 (hi * 2 ^ 32 + lo) 32 (Nat.le_refl _), Nat.add_comm, Nat.add_mul_mod_self_right, Nat.mod_eq_of_lt hlo]
    · rw [BB.shl_or _ _ _ hlo, Nat.pow_add]
      have : (hi + 1) * 2 ^ 32 ≤ 2 ^ k * 2 ^ 32 := Nat.mul_le_mul_right _ hhi
      omega
  complete := by
    intro v hv
    unfold wide
    rw [u_append]
    have hlo : v % 2 ^ 32 < 2 ^ 32 := Nat.mod_lt _ (by decide)
    have h2 : v / 2 ^ 32 < 2 ^ k := by
      rw [Nat.div_lt_iff_lt_mul (by decide), ← Nat.pow_add]; exact hv
    have c1 := (u_codec (H := H) (A := A) h0 h1).complete (v / 2 ^ 32) h2
    have c2 := (u_codec (H := H) (A := A) (n := 32) (by decide) (by decide)).complete (v % 2 ^ 32) hlo
    rw [u_mod 32 _ 32 (Nat.le_refl _)] at c2
    have hv' : (v / 2 ^ 32) <<< 32 ||| (v % 2 ^ 32) = v := by
      rw [BB.shl_or _ _ _ hlo]; omega
    have := Cmp.bind (f := fun hi => Prog.u 32 >>= fun lo => Pure.pure ((hi <<< 32) ||| lo)) c1
      (Cmp.bind (f := fun lo => Pure.pure ((v / 2 ^ 32) <<< 32 ||| lo)) c2 Cmp.pure)
    rw [hv', List.append_nil] at this
    exact this

macro_rules | `(tactic| codec) => `(tactic| exact parseNalUnitHeader_codec)
macro_rules | `(tactic| codec) => `(tactic| exact wide_codec (by decide) (by decide))

theorem any5 (idc : Nat) (flags : List Nat) :
    compatAny idc flags [5, 9, 10, 11] = (isProfile idc flags 5 ∨ isProfile idc flags 9 ∨ isProfile idc flags 10 ∨ isProfile idc flags 11) := by
  simp [compatAny, compat, isProfile]

theorem any4 (idc : Nat) (flags : List Nat) :
    compatAny idc flags [4, 5, 6, 7, 8, 9, 10, 11] = (isProfile idc flags 4 ∨ isProfile idc flags 5 ∨ isProfile idc flags 6 ∨ isProfile idc flags 7 ∨
     isProfile idc flags 8 ∨ isProfile idc flags 9 ∨ isProfile idc flags 10 ∨ isProfile idc flags 11) := by
  simp [compatAny, compat, isProfile]

theorem any2 (idc : Nat) (flags : List Nat) : compatAny idc flags [2] = isProfile idc flags 2 := by
  simp [compatAny, compat, isProfile]

theorem any1 (idc : Nat) (flags : List Nat) :
    compatAny idc flags [1, 2, 3, 4, 5, 9, 11] = (isProfile idc flags 1 ∨ isProfile idc flags 2 ∨ isProfile idc flags 3 ∨ isProfile idc flags 4 ∨
     isProfile idc flags 5 ∨ isProfile idc flags 9 ∨ isProfile idc flags 11) := by
  simp [compatAny, compat, isProfile]

attribute [local irreducible] isProfile

theorem opt_congr {α : Type} {c c' : Prop} [Decidable c] [Decidable c'] (h : c = c') (p : Prog α) (d : α) :
    Prog.opt c p d = Prog.opt c' p d := by subst h; congr

theorem parseConstraints_codec [CondOk H] {idc : Nat} {flags : List Nat} :
    Codec H A (parseConstraints idc flags) (Spec.profileConstraints idc flags) (ValidConstraints idc flags) where
  sound := by
    unfold parseConstraints
    refine Snd.ite (fun h => ?_) (fun h => Snd.ite (fun h' => ?_) (fun h' => ?_))
    · unfold parseConstraintsExt
      simp only [← any4] at h
      simp only [opt_congr (any5 idc flags).symm, opt_congr (congrArg Not (any5 idc flags).symm)]
      snd_all
      refine Snd.pure ⟨?_, ?_⟩
      · simp [Spec.profileConstraints, Spec.seq, h]
      · constructor
        · intro _; refine ⟨?_, ?_, ?_, ?_, ?_, ?_, ?_, ?_, ?_, ?_, ?_, ?_, rfl, rfl, rfl⟩ <;> assumption
        · intro hn; exact absurd h hn
        · intro hn; exact absurd h hn
    · unfold parseConstraintsMain10
      rw [← any4] at h
      rw [← any2] at h'
      snd_all
      refine Snd.pure ⟨?_, ?_⟩
      · simp [Spec.profileConstraints, Spec.seq, h, h']
      · constructor
        · intro hn; exact absurd hn h
        · intro _ _; exact ⟨_, _, _, by assumption, by assumption, by assumption, rfl⟩
        · intro _ hn; exact absurd h' hn
    · unfold parseConstraintsOther
      rw [← any4] at h
      rw [← any2] at h'
      snd_all
      refine Snd.pure ⟨?_, ?_⟩
      · simp [Spec.profileConstraints, Spec.seq, h, h']
      · constructor
        · intro hn; exact absurd hn h
        · intro _ hn; exact absurd hn h'
        · intro _ _; exact ⟨_, by assumption, rfl⟩
  complete := by
    intro c hv
    unfold parseConstraints Spec.profileConstraints
    by_cases h : compatAny idc flags [4, 5, 6, 7, 8, 9, 10, 11]
    · rw [if_pos h]
      rw [any4] at h
      rw [if_pos h]
      rw [← any4] at h
      obtain ⟨c1, c2, c3, c4, c5, c6, c7, c8, c9, c10, c11, c12, c13, c14, c15⟩ := hv.ext h
      unfold parseConstraintsExt
      simp only [opt_congr (any5 idc flags).symm, opt_congr (congrArg Not (any5 idc flags).symm), Spec.seq, List.flatten_cons, List.flatten_nil]
      cmp_all
      obtain ⟨⟩ := c
      simp only at c13 c14 c15
      subst c13 c14 c15
      exact Cmp.pure
    · rw [if_neg h]
      have h1 := h
      rw [any4] at h1
      rw [if_neg h1]
      by_cases h' : compatAny idc flags [2]
      · rw [if_pos h']
        obtain ⟨r, o, p, h2, h3, h4, rfl⟩ := hv.main10 h h'
        rw [any2] at h'
        rw [if_pos h']
        unfold parseConstraintsMain10
        simp only [Spec.seq, List.flatten_cons, List.flatten_nil]
        cmp_all
        exact Cmp.pure
      · rw [if_neg h']
        obtain ⟨p, h4, rfl⟩ := hv.other h h'
        rw [any2] at h'
        rw [if_neg h']
        unfold parseConstraintsOther
        simp only [Spec.seq, List.flatten_cons, List.flatten_nil]
        cmp_all
        exact Cmp.pure

macro_rules | `(tactic| codec) => `(tactic| exact parseConstraints_codec)

/-! ### profile types -/

/-- constraint flags from booleans -/
def flagsOf (a b c d e f g h i j : Bool) : ProfileConstraints :=
  ⟨a.toNat, b.toNat, c.toNat, d.toNat, e.toNat, f.toNat, g.toNat, 0, h.toNat, i.toNat, j.toNat, 0, 0, 0, 0⟩

theorem frext_table : ∀ a b c d e f g h i : Bool, profileTypeFrext (flagsOf a b c d e f g h i false) =
    lookupProfile rowMatches rangeExtensionsTable .FREXT (flagsOf a b c d e f g h i false) := by decide +kernel
theorem scalable_table : ∀ a b c d e f g h i : Bool, profileTypeScalable (flagsOf a b c d e f g h i false) =
    lookupProfile rowMatches scalableTable .SCALABLE (flagsOf a b c d e f g h i false) := by decide +kernel
theorem throughput_table : ∀ a b c d e f g h i j : Bool, profileTypeHighThroughput (flagsOf a b c d e f g h i j) =
    lookupProfile rowMatches14 highThroughputTable .HIGH_THROUGHPUT (flagsOf a b c d e f g h i j) := by decide +kernel
theorem screen_table : ∀ a b c d e f g h i j : Bool, profileTypeScreenExtended (flagsOf a b c d e f g h i j) =
    lookupProfile rowMatches14 screenExtendedTable .SCREEN_EXTENDED (flagsOf a b c d e f g h i j) := by decide +kernel
theorem screenht_table : ∀ a b c d e f g h i j : Bool, profileTypeScreenHighThroughput (flagsOf a b c d e f g h i j) =
    lookupProfile rowMatches14 screenHighThroughputTable .SCREEN_EXTENDED_HIGH_THROUGHPUT (flagsOf a b c d e f g h i j) := by
  decide +kernel

theorem toBool {v : Nat} (h : v < 2 ^ 1) : ∃ b : Bool, v = b.toNat := by
  rcases (show v = 0 ∨ v = 1 by omega) with rfl | rfl
  · exact ⟨false, rfl⟩
  · exact ⟨true, rfl⟩

theorem compat_self {idc : Nat} {flags : List Nat} {l : List Nat} (h : idc ∈ l) : compatAny idc flags l :=
  ⟨idc, h, Or.inl rfl⟩

theorem getProfileType_eq {space idc : Nat} {flags : List Nat} {c : ProfileConstraints} (hv : ValidConstraints idc flags c) :
    getProfileType space idc c = Spec.profileType space idc c := by
  have key : idc ∈ [4, 5, 6, 7, 8, 9, 10, 11] → ∃ a b cc d e f g h i j r33 r34, c =
      (⟨Bool.toNat a, Bool.toNat b, Bool.toNat cc, Bool.toNat d, Bool.toNat e, Bool.toNat f, Bool.toNat g, 0, Bool.toNat h,
        Bool.toNat i, Bool.toNat j, r33, r34, 0, 0⟩ : ProfileConstraints) := by
    intro hm
    obtain ⟨c1, c2, c3, c4, c5, c6, c7, c8, c9, c10, c11, c12, c13, c14, c15⟩ := hv.ext (compat_self hm)
    have c10' : c.max_14bit_constraint_flag < 2 ^ 1 := by
      by_cases h : compatAny idc flags [5, 9, 10, 11]
      · exact c10.present h
      · rw [c10.absent h]; decide
    obtain ⟨⟩ := c
    simp only at *
    obtain ⟨b1, rfl⟩ := toBool c1
    obtain ⟨b2, rfl⟩ := toBool c2
    obtain ⟨b3, rfl⟩ := toBool c3
    obtain ⟨b4, rfl⟩ := toBool c4
    obtain ⟨b5, rfl⟩ := toBool c5
    obtain ⟨b6, rfl⟩ := toBool c6
    obtain ⟨b7, rfl⟩ := toBool c7
    obtain ⟨b8, rfl⟩ := toBool c8
    obtain ⟨b9, rfl⟩ := toBool c9
    obtain ⟨b10, rfl⟩ := toBool c10'
    subst c13 c14 c15
    exact ⟨_, _, _, _, _, _, _, _, _, _, _, _, rfl⟩
  unfold getProfileType Spec.profileType
  by_cases hs : space ≠ 0
  · rw [if_pos hs, if_pos hs]
  rw [if_neg hs, if_neg hs]
  by_cases h4 : idc = 4
  · subst h4
    obtain ⟨a, b, cc, d, e, f, g, h, i, j, r33, r34, rfl⟩ := key (by decide)
    exact frext_table a b cc d e f g h i
  by_cases h5 : idc = 5
  · subst h5
    obtain ⟨a, b, cc, d, e, f, g, h, i, j, r33, r34, rfl⟩ := key (by decide)
    exact throughput_table a b cc d e f g h i j
  by_cases h7 : idc = 7
  · subst h7
    obtain ⟨a, b, cc, d, e, f, g, h, i, j, r33, r34, rfl⟩ := key (by decide)
    exact scalable_table a b cc d e f g h i
  by_cases h9 : idc = 9
  · subst h9
    obtain ⟨a, b, cc, d, e, f, g, h, i, j, r33, r34, rfl⟩ := key (by decide)
    exact screen_table a b cc d e f g h i j
  by_cases h11 : idc = 11
  · subst h11
    obtain ⟨a, b, cc, d, e, f, g, h, i, j, r33, r34, rfl⟩ := key (by decide)
    exact screenht_table a b cc d e f g h i j
  rcases idc with _|_|_|_|_|_|_|_|_|_|_|_|_|_|n <;> first | rfl | contradiction | skip
  repeat rw [if_neg (by omega)]

theorem parseProfileInfo_codec [CondOk H] : Codec H A parseProfileInfo Spec.profileInfo ValidProfileInfo where
  sound := by
    unfold parseProfileInfo
    simp only [opt_congr (any1 _ _).symm, opt_congr (congrArg Not (any1 _ _).symm)]
    snd_all
    refine Snd.pure ⟨?_, ?_⟩
    · simp [Spec.profileInfo, Spec.seq]
    · constructor <;> first | assumption | exact getProfileType_eq (by assumption)
  complete := by
    rintro ⟨⟩ hv
    obtain ⟨⟩ := hv
    rename_i hpt _ _
    simp only at *
    subst hpt
    unfold parseProfileInfo
    simp only [opt_congr (any1 _ _).symm, opt_congr (congrArg Not (any1 _ _).symm), Spec.profileInfo, Spec.seq, List.flatten_cons, List.flatten_nil]
    cmp_all
    rw [getProfileType_eq (by assumption)]
    exact Cmp.pure

macro_rules | `(tactic| codec) => `(tactic| exact parseProfileInfo_codec)

theorem parseSubLayerFlags_codec [CondOk H] : Codec H A parseSubLayerFlags (fun f => Spec.u 1 f.1 ++ Spec.u 1 f.2)
    (fun f => f.1 < 2 ^ 1 ∧ f.2 < 2 ^ 1) := by
  refine pair_codec (a' := Prod.fst) (b' := Prod.snd) (u_codec (by decide) (by decide)) (u_codec (by decide) (by decide)) ?_ ?_ ?_
  all_goals intros; rfl

theorem parseSubLayerProfile_codec [CondOk H] : Codec H A parseSubLayerProfile Spec.subLayerProfile
    (fun x => ValidProfileInfo x.1 ∧ x.2 < 2 ^ 8) := by
  have : Spec.subLayerProfile = fun x => Spec.profileInfo x.1 ++ Spec.u 8 x.2 := by
    funext x; simp [Spec.subLayerProfile, Spec.seq]
  rw [this]
  refine pair_codec (a' := Prod.fst) (b' := Prod.snd) parseProfileInfo_codec (u_codec (by decide) (by decide)) ?_ ?_ ?_
  all_goals intros; rfl

macro_rules | `(tactic| codec) => `(tactic| exact parseSubLayerFlags_codec)
macro_rules | `(tactic| codec) => `(tactic| exact parseSubLayerProfile_codec)

theorem parseSubLayers_codec [CondOk H] {n : Nat} {fl : List (Nat × Nat)} (h : fl.length = n) :
    Codec H A (Prog.repI 0 n fun i => do
      let f ← Prog.at' fl i
      Prog.maybe (f.1 ≠ 0) parseSubLayerProfile) (Spec.list (Spec.optional Spec.subLayerProfile))
      (EachI n fun i => Maybe ((fl.getD i (0, 0)).1 ≠ 0) (fun x => ValidProfileInfo x.1 ∧ x.2 < 2 ^ 8)) := by
  apply repI0_codec'
  intro i hi
  rw [at_bind (by omega) (0, 0)]
  codec

macro_rules | `(tactic| codec) => `(tactic| exact parseSubLayers_codec (by first | assumption | exact Each.length (by assumption)))

theorem parseProfileTierLevel_codec [CondOk H] {present : Bool} {maxSub : Nat} :
    Codec H A (parseProfileTierLevel present maxSub) Spec.profileTierLevel (ValidProfileTierLevel present maxSub) where
  sound := by
    unfold parseProfileTierLevel; snd_all
    refine Snd.pure ⟨?_, ?_⟩
    · simp [Spec.profileTierLevel, Spec.seq]
    · constructor <;> assumption
  complete := by
    rintro ⟨⟩ ⟨⟩
    unfold parseProfileTierLevel
    simp only [Spec.profileTierLevel, Spec.seq, List.flatten_cons, List.flatten_nil]
    cmp_all
    exact Cmp.pure

macro_rules | `(tactic| codec) => `(tactic| exact parseProfileTierLevel_codec)

end H265
