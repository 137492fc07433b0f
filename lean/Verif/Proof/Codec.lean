/-
Proof rules for parser programs.

`Snd H A p Q`  — whenever `p` succeeds, it returned `a` after reading some word `w` with `Q a w`
                 (the equation "input = w ++ rest" is conditional on the run condition `H`, but `w` is
                 never longer than the input consumed);
                 it never reaches an undefined outcome outside `A`.
`Cmp p a w`    — on any input starting with `w`, `p` succeeds with `a`, leaving the rest.
`Codec`        — both, for a serialiser `W` and a validity predicate `V`.
-/
import Verif.Proof.Denote

namespace H265
open Spec

/-- A condition on the run of a program on some bits. -/
abbrev Cond := (α : Type) → Prog α → List Bool → Prop

/-- Conditions inherited by the parts of a run. -/
class CondOk (H : Cond) : Prop where
  bind : ∀ {α β : Type} {p : Prog α} {f : α → Prog β} {r : List Bool}, H β (p >>= f) r →
    H α p r ∧ ∀ a r', p.denote r = .ok a r' → H β (f a) r'
  attempt : ∀ {α : Type} {p : Prog α} {r : List Bool}, H (Option α) p.attempt r → H α p r

/-- no condition -/
def Cond.any : Cond := fun _ _ _ => True

/-- no aliased signed code word is read -/
def Cond.canon : Cond := fun _ p r => p.NoAlias r

instance : CondOk Cond.any := ⟨fun _ => ⟨trivial, fun _ _ _ => trivial⟩, fun _ => trivial⟩
instance : CondOk Cond.canon := ⟨fun h => Prog.NoAlias.of_bind h, fun h => Prog.NoAlias.of_attempt h⟩

def Snd {α : Type} (H : Cond) (A : Bad → Prop) (p : Prog α) (Q : α → List Bool → Prop) : Prop :=
  ∀ r, match p.denote r with
    | .ok a r' => ∃ w, (H α p r → r = w ++ r') ∧ w.length + r'.length ≤ r.length ∧ Q a w
    | .fail _ => True
    | .bad k => A k

def Cmp {α : Type} (p : Prog α) (a : α) (w : List Bool) : Prop :=
  ∀ r, p.denote (w ++ r) = .ok a r

structure Codec {α : Type} (H : Cond) (A : Bad → Prop) (p : Prog α)
    (W : α → List Bool) (V : α → Prop) : Prop where
  sound : Snd H A p (fun a w => w = W a ∧ V a)
  complete : ∀ a, V a → Cmp p a (W a)

variable {H : Cond} {A : Bad → Prop} {α β : Type}

theorem Snd.conseq {p : Prog α} {Q Q' : α → List Bool → Prop} (h : Snd H A p Q)
    (hq : ∀ a w, Q a w → Q' a w) : Snd H A p Q' := by
  intro r
  have := h r
  revert this
  cases p.denote r with
  | ok a r' => rintro ⟨w, hw, hl, hQ⟩; exact ⟨w, hw, hl, hq _ _ hQ⟩
  | fail r' => exact fun h => h
  | bad k => exact fun h => h

theorem Snd.bind [CondOk H] {p : Prog α} {f : α → Prog β} {Q1 : α → List Bool → Prop}
    {Q : β → List Bool → Prop} (hp : Snd H A p Q1)
    (hf : ∀ a w, Q1 a w → Snd H A (f a) (fun b w' => Q b (w ++ w'))) : Snd H A (p >>= f) Q := by
  intro r
  have hH := CondOk.bind (H := H) (p := p) (f := f) (r := r)
  rw [Prog.denote_bind]
  have h1 := hp r
  revert h1 hH
  cases p.denote r with
  | fail r' => intros; trivial
  | bad k => exact fun _ h => h
  | ok a r1 =>
    rintro hH ⟨w, hw, hl, hQ⟩
    simp only [ARes.ok_bind]
    have h2 := hf a w hQ r1
    revert h2
    cases (f a).denote r1 with
    | fail r' => intros; trivial
    | bad k => exact fun h => h
    | ok b r2 =>
      rintro ⟨w', hw', hl', hQ'⟩
      refine ⟨w ++ w', fun h => ?_, by rw [List.length_append]; omega, hQ'⟩
      obtain ⟨ha, hb⟩ := hH h
      rw [hw ha, hw' (hb a r1 rfl), List.append_assoc]

theorem Snd.pure {a : α} {Q : α → List Bool → Prop} (h : Q a []) : Snd H A (Pure.pure a) Q := by
  intro r; exact ⟨[], fun _ => rfl, by simp, h⟩

theorem Snd.ret {a : α} {Q : α → List Bool → Prop} (h : Q a []) : Snd H A (Prog.ret a) Q := by
  intro r; exact ⟨[], fun _ => rfl, by simp, h⟩

theorem Snd.fail {Q : α → List Bool → Prop} : Snd H A (Prog.fail) Q := by
  intro r; trivial

theorem Snd.bad {k : Bad} {Q : α → List Bool → Prop} (h : A k) : Snd H A (Prog.bad k) Q := by
  intro r; exact h

theorem Snd.check_bind {c : Prop} [Decidable c] {f : Unit → Prog β} {Q : β → List Bool → Prop}
    (h : c → Snd H A (f ()) Q) : Snd H A (Prog.check c >>= f) Q := by
  unfold Prog.check
  by_cases hc : c
  · rw [if_pos hc]; exact h hc
  · rw [if_neg hc]; exact Snd.fail

theorem Snd.ite {c : Prop} [Decidable c] {p q : Prog α} {Q : α → List Bool → Prop}
    (h1 : c → Snd H A p Q) (h2 : ¬ c → Snd H A q Q) : Snd H A (if c then p else q) Q := by
  by_cases hc : c
  · rw [if_pos hc]; exact h1 hc
  · rw [if_neg hc]; exact h2 hc

/-- a sub-parser whose failure is tolerated -/
theorem Snd.attempt [CondOk H] {p : Prog α} {Q : α → List Bool → Prop} (h : Snd H A p Q) :
    Snd H A p.attempt (fun o w => ∀ a, o = some a → Q a w) := by
  intro r
  have hH := CondOk.attempt (H := H) (p := p) (r := r)
  have hs := Prog.denote_suffix p r
  have := h r
  rw [Prog.denote_attempt]
  revert this hs
  cases p.denote r with
  | ok a r' => rintro _ ⟨w, hw, hl, hQ⟩; exact ⟨w, fun h => hw (hH h), hl, by rintro _ ⟨⟩; exact hQ⟩
  | fail r' => rintro ⟨w, hw⟩ _; exact ⟨w, fun _ => hw.symm, by rw [← hw, List.length_append]; omega, by rintro _ ⟨⟩⟩
  | bad k => exact fun _ h => h

theorem Cmp.attempt {p : Prog α} {a : α} {w : List Bool} (h : Cmp p a w) : Cmp p.attempt (some a) w := by
  intro r; rw [Prog.denote_attempt, h r]

theorem Cmp.bind {p : Prog α} {f : α → Prog β} {a : α} {b : β} {w w' : List Bool}
    (hp : Cmp p a w) (hf : Cmp (f a) b w') : Cmp (p >>= f) b (w ++ w') := by
  intro r
  rw [Prog.denote_bind, List.append_assoc, hp, ARes.ok_bind, hf]

theorem Cmp.pure {a : α} : Cmp (Pure.pure a) a [] := fun _ => rfl

theorem Cmp.check_bind {c : Prop} [Decidable c] {f : Unit → Prog β} {b : β} {w : List Bool}
    (hc : c) (hf : Cmp (f ()) b w) : Cmp (Prog.check c >>= f) b w := by
  unfold Prog.check; rw [if_pos hc]; exact hf

theorem Cmp.bindNil {p : Prog α} {f : α → Prog β} {a : α} {b : β} {w : List Bool}
    (hp : Cmp p a []) (hf : Cmp (f a) b w) : Cmp (p >>= f) b w := by
  have := Cmp.bind hp hf; simpa using this

theorem Cmp.ite_pos {c : Prop} [Decidable c] {p q : Prog α} {a : α} {w : List Bool} (hc : c)
    (h : Cmp p a w) : Cmp (if c then p else q) a w := by rw [if_pos hc]; exact h

theorem Cmp.ite_neg {c : Prop} [Decidable c] {p q : Prog α} {a : α} {w : List Bool} (hc : ¬ c)
    (h : Cmp q a w) : Cmp (if c then p else q) a w := by rw [if_neg hc]; exact h

/-! ### codecs of the primitives -/

theorem u_codec {n : Nat} (h0 : 0 < n) (h32 : n ≤ 32) :
    Codec H A (Prog.u n) (Spec.u n) (fun v => v < 2 ^ n) where
  sound := by
    intro r
    rw [Prog.denote_u h0]
    by_cases hc : n ≤ 32 ∧ n ≤ r.length
    · rw [if_pos hc]
      have hl : (r.take n).length = n := by rw [List.length_take, Nat.min_eq_left hc.2]
      refine ⟨r.take n, fun _ => (List.take_append_drop n r).symm, by rw [List.length_take, List.length_drop]; omega, ?_, ?_⟩
      · have := u_val (r.take n); rw [hl] at this; exact this.symm
      · have := val_lt (r.take n); rw [hl] at this; exact this
    · rw [if_neg hc]; trivial
  complete := by
    intro v hv r
    rw [Prog.denote_u h0, if_pos ⟨h32, by simp⟩, List.take_append_of_le_length (by simp),
      List.take_of_length_le (by simp), val_u_of_lt hv, List.drop_append_of_le_length (by simp),
      List.drop_of_length_le (by simp), List.nil_append]

theorem u64_codec {n : Nat} (h0 : 0 < n) (h32 : n ≤ 64) :
    Codec H A (Prog.u64 n) (Spec.u n) (fun v => v < 2 ^ n) where
  sound := by
    intro r
    rw [Prog.denote_u64 h0]
    by_cases hc : n ≤ 64 ∧ n ≤ r.length
    · rw [if_pos hc]
      have hl : (r.take n).length = n := by rw [List.length_take, Nat.min_eq_left hc.2]
      refine ⟨r.take n, fun _ => (List.take_append_drop n r).symm, by rw [List.length_take, List.length_drop]; omega, ?_, ?_⟩
      · have := u_val (r.take n); rw [hl] at this; exact this.symm
      · have := val_lt (r.take n); rw [hl] at this; exact this
    · rw [if_neg hc]; trivial
  complete := by
    intro v hv r
    rw [Prog.denote_u64 h0, if_pos ⟨h32, by simp⟩, List.take_append_of_le_length (by simp),
      List.take_of_length_le (by simp), val_u_of_lt hv, List.drop_append_of_le_length (by simp),
      List.drop_of_length_le (by simp), List.nil_append]

/-- a read of more than 32 bits into a `uint32_t` always fails -/
theorem Snd.u_big {n : Nat} (h : 32 < n) {Q : Nat → List Bool → Prop} : Snd H A (Prog.u n) Q := by
  intro r
  rw [Prog.denote_u (by omega), if_neg (by omega)]; trivial

theorem uev_codec : Codec H A Prog.uev Spec.ue (fun v => v < 2 ^ 32 - 1) where
  sound := by
    intro r
    rw [Prog.denote_uev]
    cases hs : ueSplit r with
    | none => trivial
    | some vr =>
      obtain ⟨v, r'⟩ := vr
      have := ueSplit_some hs
      have hlen := congrArg List.length this.1
      rw [List.length_append] at hlen
      exact ⟨_, fun _ => this.1, by omega, rfl, this.2⟩
  complete := by
    intro v hv r
    rw [Prog.denote_uev, ueSplit_ue hv]

theorem ueRange_codec [CondOk H] {lo hi : Nat} (hh : hi < 2 ^ 32 - 1) :
    Codec H A (Prog.ueRange lo hi) Spec.ue (fun v => lo ≤ v ∧ v ≤ hi) where
  sound := by
    refine Snd.bind uev_codec.sound ?_
    rintro v w ⟨rfl, hv⟩
    refine Snd.ite (fun h => Snd.ret ⟨by simp, h⟩) (fun _ => Snd.fail)
  complete := by
    rintro v ⟨h1, h2⟩
    have := Cmp.bind ((uev_codec (H := H) (A := A)).complete v (by omega))
      (f := fun v => if lo ≤ v ∧ v ≤ hi then Prog.ret v else Prog.fail) (b := v) (w' := [])
      (by simp only [h1, h2, and_self, if_true]; exact fun r => rfl)
    rw [List.append_nil] at this
    exact this

/-- A code number is mapped to the value of Table 9-3 unless it is odd and at least `2^31 - 1`. -/
theorem seOfUe_seCodeNum {v : Int} (h1 : -(2 ^ 31) < v) (h2 : v < 2 ^ 30) :
    seOfUe (seCodeNum v) = some v := by
  unfold seCodeNum seOfUe
  by_cases hp : 0 < v
  · rw [if_pos hp, if_neg (by omega)]
    have hlt : 2 * v.toNat - 1 < 2 ^ 31 := by omega
    simp only [hlt, if_true]
    rw [if_neg (by omega), Int.tdiv_eq_ediv_of_nonneg (by omega)]
    congr 1; omega
  · rw [if_neg hp, if_pos (by omega)]
    congr 1
    simp only [Int.ofNat_eq_natCast]
    omega

theorem seOfUe_some {k : Nat} {v : Int} (hk : k < 2 ^ 32 - 1) (h : seOfUe k = some v) :
    (-(2 ^ 31) < v ∧ v < 2 ^ 30) ∧ ((k % 2 = 1 → k < 2 ^ 31) → k = seCodeNum v) := by
  unfold seOfUe at h
  unfold seCodeNum
  split at h
  · simp only [Int.ofNat_eq_natCast, Option.some.injEq] at h
    subst h
    refine ⟨by omega, fun _ => ?_⟩
    rw [if_neg (by omega)]; omega
  · simp only at h
    split at h
    · split at h
      · cases h
      · rw [Int.tdiv_eq_ediv_of_nonneg (by omega)] at h
        simp only [Option.some.injEq] at h
        subst h
        refine ⟨by omega, fun _ => ?_⟩
        rw [if_pos (by omega)]; omega
    · rw [if_neg (by omega)] at h
      simp only [Option.some.injEq] at h
      have hneg : ((k : Int) - 2 ^ 32 + 1) = -((2 ^ 32 - 1 - k : Nat) : Int) := by omega
      rw [hneg, Int.neg_tdiv, Int.tdiv_eq_ediv_of_nonneg (by omega)] at h
      refine ⟨by omega, fun hh => ?_⟩
      omega

theorem seOfUe_none {k : Nat} (hk : k < 2 ^ 32 - 1) : seOfUe k = none ↔ k = 2 ^ 31 - 1 := by
  unfold seOfUe
  by_cases h0 : k % 2 = 0
  · rw [if_pos h0]
    simp only [reduceCtorEq, false_iff]; omega
  · rw [if_neg h0]
    simp only
    by_cases h1 : k < 2 ^ 31
    · rw [if_pos h1]
      by_cases h2 : k = 2 ^ 31 - 1
      · rw [if_pos (by omega)]; simp [h2]
      · rw [if_neg (by omega)]; simp [h2]
    · rw [if_neg h1, if_neg (by omega)]
      simp only [reduceCtorEq, false_iff]; omega

/-- an aliased code word is never shorter than the code word of the value it yields -/
theorem se_length_le {k : Nat} {v : Int} (hk : k < 2 ^ 32 - 1) (h : seOfUe k = some v) : (Spec.se v).length ≤ (Spec.ue k).length := by
  have hle : seCodeNum v ≤ k := by
    by_cases hc : k % 2 = 1 → k < 2 ^ 31
    · exact Nat.le_of_eq ((seOfUe_some hk h).2 hc).symm
    · unfold seOfUe at h
      rw [if_neg (by omega)] at h
      simp only at h
      rw [if_neg (by omega), if_neg (by omega)] at h
      simp only [Option.some.injEq] at h
      have hneg : ((k : Int) - 2 ^ 32 + 1) = -((2 ^ 32 - 1 - k : Nat) : Int) := by omega
      rw [hneg, Int.neg_tdiv, Int.tdiv_eq_ediv_of_nonneg (by omega)] at h
      unfold seCodeNum
      rw [if_neg (by omega)]
      omega
  unfold Spec.se
  rw [ue_length, ue_length]
  have : (seCodeNum v + 1).log2 ≤ (k + 1).log2 := by
    rw [Nat.le_log2 (by omega)]
    exact Nat.le_trans (Nat.log2_self_le (by omega)) (by omega)
  omega

theorem denote_sev (r : List Bool) :
    Prog.sev.denote r = match ueSplit r with
      | some (k, r') => (match seOfUe k with | some v => .ok v r' | none => .bad .signedOverflow)
      | none => .fail r := by
  unfold Prog.sev Prog.denote
  cases ueSplit r with
  | none => rfl
  | some kr =>
    obtain ⟨k, r'⟩ := kr
    simp only
    cases seOfUe k <;> rfl

theorem sev_codec (hA : A .signedOverflow)
    (hH : ∀ r k r', H Int Prog.sev r → ueSplit r = some (k, r') → k % 2 = 1 → k < 2 ^ 31) :
    Codec H A Prog.sev Spec.se (fun v => -(2 ^ 31) < v ∧ v < 2 ^ 30) where
  sound := by
    intro r
    rw [denote_sev]
    cases hs : ueSplit r with
    | none => trivial
    | some vr =>
      obtain ⟨k, r'⟩ := vr
      have hk := ueSplit_some hs
      simp only
      cases hv : seOfUe k with
      | none => exact hA
      | some v =>
        have := seOfUe_some hk.2 hv
        refine ⟨Spec.se v, fun h => ?_, ?_, rfl, this.1⟩
        · rw [Spec.se, ← this.2 (hH r k r' h hs)]
          exact hk.1
        · have hle := se_length_le hk.2 hv
          have hlen := congrArg List.length hk.1
          rw [List.length_append] at hlen
          omega
  complete := by
    intro v hv r
    have hlt : seCodeNum v < 2 ^ 32 - 1 := by unfold seCodeNum; split <;> omega
    rw [denote_sev, Spec.se, ueSplit_ue hlt]
    simp only
    rw [seOfUe_seCodeNum hv.1 hv.2]

theorem opt_codec {c : Prop} [Decidable c] {p : Prog α} {d : α} {W : α → List Bool} {V : α → Prop}
    (h : c → Codec H A p W V) :
    Codec H A (Prog.opt c p d) (fun a => Spec.cond c (W a)) (fun a => Opt c (V a) (a = d)) where
  sound := by
    unfold Prog.opt
    by_cases hc : c
    · rw [if_pos hc]
      refine Snd.conseq (h hc).sound ?_
      rintro a w ⟨rfl, hv⟩
      exact ⟨by simp [Spec.cond, hc], fun _ => hv, fun hn => absurd hc hn⟩
    · rw [if_neg hc]
      exact Snd.ret ⟨by simp [Spec.cond, hc], fun h => absurd h hc, fun _ => rfl⟩
  complete := by
    intro a ha
    unfold Prog.opt Spec.cond
    by_cases hc : c
    · simp only [if_pos hc]; exact (h hc).complete a (ha.present hc)
    · simp only [if_neg hc]; rw [ha.absent hc]; exact fun r => rfl

theorem rep_codec [CondOk H] {p : Prog α} {W : α → List Bool} {V : α → Prop} {n : Nat}
    (h : Codec H A p W V) :
    Codec H A (Prog.rep n p) (Spec.list W) (Spec.Each n V) where
  sound := by
    induction n with
    | zero => exact Snd.ret ⟨rfl, rfl, by simp⟩
    | succ n ih =>
      refine Snd.bind h.sound ?_
      rintro a w ⟨rfl, ha⟩
      refine Snd.bind ih ?_
      rintro l w ⟨rfl, hl, hV⟩
      refine Snd.pure ⟨by simp [Spec.list], by simp [hl], ?_⟩
      intro x hx
      cases hx with
      | head => exact ha
      | tail _ hx => exact hV x hx
  complete := by
    intro l
    induction l generalizing n with
    | nil => rintro ⟨hl, _⟩; simp at hl; subst hl; exact fun r => rfl
    | cons a l ih =>
      rintro ⟨hl, hV⟩
      cases n with
      | zero => simp at hl
      | succ n =>
        have hl' : l.length = n := by simpa using hl
        have : Spec.list W (a :: l) = W a ++ (Spec.list W l ++ []) := by simp [Spec.list]
        rw [this]
        refine Cmp.bind (h.complete a (hV a (by simp))) (Cmp.bind (ih ⟨hl', fun x hx => hV x (by simp [hx])⟩) ?_)
        exact Cmp.pure

theorem repI_codec [CondOk H] {p : Nat → Prog α} {W : Nat → α → List Bool} {V : Nat → α → Prop} {n : Nat}
    {s : Nat} (h : ∀ i, s ≤ i → i < s + n → Codec H A (p i) (W i) (V i)) :
    Codec H A (Prog.repI s n p) (Spec.listI W s)
      (fun l => l.length = n ∧ ∀ i a, l[i]? = some a → V (s + i) a) where
  sound := by
    induction n generalizing s with
    | zero => exact Snd.ret ⟨rfl, rfl, by simp⟩
    | succ n ih =>
      refine Snd.bind (h s (by omega) (by omega)).sound ?_
      rintro a w ⟨rfl, ha⟩
      refine Snd.bind (ih (s := s + 1) (fun i h1 h2 => h i (by omega) (by omega))) ?_
      rintro l w ⟨rfl, hl, hV⟩
      refine Snd.pure ⟨by simp [Spec.listI], by simp [hl], ?_⟩
      intro i x hx
      cases i with
      | zero => simp at hx; subst hx; exact ha
      | succ i =>
        have := hV i x (by simpa using hx)
        rw [show s + (i + 1) = s + 1 + i by omega]; exact this
  complete := by
    intro l
    induction l generalizing n s with
    | nil => rintro ⟨hl, _⟩; simp at hl; subst hl; exact fun r => rfl
    | cons a l ih =>
      rintro ⟨hl, hV⟩
      cases n with
      | zero => simp at hl
      | succ n =>
        have hl' : l.length = n := by simpa using hl
        have : Spec.listI W s (a :: l) = W s a ++ (Spec.listI W (s + 1) l ++ []) := by simp [Spec.listI]
        rw [this]
        refine Cmp.bind ((h s (by omega) (by omega)).complete a (hV 0 a (by simp))) (Cmp.bind (ih (n := n) (s := s + 1) (fun i h1 h2 => h i (by omega) (by omega)) ⟨hl', ?_⟩) ?_)
        · intro i x hx
          have := hV (i + 1) x (by simpa using hx)
          rw [show s + 1 + i = s + (i + 1) by omega]; exact this
        · exact Cmp.pure

theorem repI0_codec [CondOk H] {p : Nat → Prog α} {W : Nat → α → List Bool} {V : Nat → α → Prop} {n : Nat}
    (h : ∀ i, i < n → Codec H A (p i) (W i) (V i)) :
    Codec H A (Prog.repI 0 n p) (Spec.listI W 0) (Spec.EachI n V) where
  sound := Snd.conseq (repI_codec (s := 0) (fun i _ h2 => h i (by omega))).sound (by
    rintro a w ⟨hw, hl, hV⟩
    refine ⟨hw, hl, fun i x hx => ?_⟩
    have := hV i x hx; rwa [Nat.zero_add] at this)
  complete := by
    rintro l ⟨hl, hV⟩
    refine (repI_codec (H := H) (A := A) (s := 0) (fun i _ h2 => h i (by omega))).complete l ⟨hl, fun i x hx => ?_⟩
    rw [Nat.zero_add]; exact hV i x hx

theorem listI_const (W : α → List Bool) (s : Nat) (l : List α) : Spec.listI (fun _ => W) s l = Spec.list W l := by
  induction l generalizing s with
  | nil => rfl
  | cons a l ih => simp only [Spec.listI, ih]; rfl

/-- loops whose syntax does not depend on the index -/
theorem repI0_codec' [CondOk H] {p : Nat → Prog α} {W : α → List Bool} {V : Nat → α → Prop} {n : Nat}
    (h : ∀ i, i < n → Codec H A (p i) W (V i)) :
    Codec H A (Prog.repI 0 n p) (Spec.list W) (Spec.EachI n V) := by
  have := repI0_codec (W := fun _ => W) h
  have he : Spec.listI (fun _ => W) 0 = Spec.list W := funext (listI_const W 0)
  rwa [he] at this

theorem maybe_codec [CondOk H] {c : Prop} [Decidable c] {p : Prog α} {W : α → List Bool} {V : α → Prop}
    (h : c → Codec H A p W V) : Codec H A (Prog.maybe c p) (Spec.optional W) (Spec.Maybe c V) where
  sound := by
    unfold Prog.maybe
    by_cases hc : c
    · rw [if_pos hc]
      refine Snd.bind (h hc).sound ?_
      rintro a w ⟨rfl, hv⟩
      exact Snd.ret ⟨by simp [Spec.optional], by simp [hc], by rintro x ⟨⟩; exact hv⟩
    · rw [if_neg hc]
      exact Snd.ret ⟨rfl, by simp [hc], by rintro x ⟨⟩⟩
  complete := by
    rintro o ⟨hp, hv⟩
    unfold Prog.maybe
    cases o with
    | none =>
      rw [if_neg (fun hc => by simpa using hp.mpr hc)]
      exact fun r => rfl
    | some a =>
      have hc : c := hp.mp rfl
      rw [if_pos hc]
      have := Cmp.bind ((h hc).complete a (hv a rfl)) (f := fun a => Prog.ret (some a)) (b := some a) (w' := []) (fun r => rfl)
      rw [List.append_nil] at this
      exact this

/-- reading an element that is known to be there -/
theorem at_bind {l : List α} {i : Nat} (h : i < l.length) (d : α) (f : α → Prog β) :
    (Prog.at' l i >>= f) = f (l.getD i d) := by
  unfold Prog.at'
  rw [List.getElem?_eq_getElem h, List.getD_eq_getElem?_getD, List.getElem?_eq_getElem h]
  rfl

theorem pair_codec [CondOk H] {γ : Type} {p : Prog α} {q : Prog β} {f : α → β → γ} {W1 : α → List Bool} {W2 : β → List Bool}
    {V1 : α → Prop} {V2 : β → Prop} {a' : γ → α} {b' : γ → β} (hp : Codec H A p W1 V1) (hq : Codec H A q W2 V2)
    (h1 : ∀ a b, a' (f a b) = a) (h2 : ∀ a b, b' (f a b) = b) (h3 : ∀ c, f (a' c) (b' c) = c) :
    Codec H A (p >>= fun a => q >>= fun b => Pure.pure (f a b)) (fun c => W1 (a' c) ++ W2 (b' c))
      (fun c => V1 (a' c) ∧ V2 (b' c)) where
  sound := by
    refine Snd.bind hp.sound ?_
    rintro a w ⟨rfl, ha⟩
    refine Snd.bind hq.sound ?_
    rintro b w ⟨rfl, hb⟩
    refine Snd.pure ⟨by simp [h1, h2], ?_, ?_⟩
    · rwa [h1]
    · rwa [h2]
  complete := by
    rintro c ⟨ha, hb⟩
    have := Cmp.bind (f := fun a => q >>= fun b => Pure.pure (f a b)) (hp.complete _ ha) (Cmp.bind (f := fun b => Pure.pure (f (a' c) b)) (hq.complete _ hb) Cmp.pure)
    rw [h3, List.append_nil] at this
    exact this

/-- Change of the way validity and serialisation are written. -/
theorem Codec.congr {p : Prog α} {W W' : α → List Bool} {V V' : α → Prop} (h : Codec H A p W V)
    (hV : ∀ a, V a ↔ V' a) (hW : ∀ a, V a → W a = W' a) : Codec H A p W' V' where
  sound := Snd.conseq h.sound (by rintro a w ⟨rfl, hv⟩; exact ⟨hW a hv, (hV a).mp hv⟩)
  complete := fun a ha => by
    rw [← hW a ((hV a).mpr ha)]; exact h.complete a ((hV a).mpr ha)

/-! ### transfer to the reader model -/

/-- What a sound parser guarantees when run on any reader in a valid position. -/
theorem Codec.run_ok {p : Prog α} {W : α → List Bool} {V : α → Prop} (h : Codec H A p W V)
    {bb bb' : BB} (hwf : bb.WF) {a : α} (hr : p.run bb = .ok a bb') :
    bb'.WF ∧ bb'.bytes = bb.bytes ∧ (H α p bb.rem → bb.rem = W a ++ bb'.rem) ∧ V a := by
  have hag := Prog.run_agrees p bb hwf
  have hs := h.sound bb.rem
  rw [hr] at hag
  revert hag hs
  cases p.denote bb.rem with
  | ok a' r =>
    rintro ⟨rfl, h1, h2, rfl⟩ ⟨w, hw, _, rfl, hv⟩
    exact ⟨h1, h2, hw, hv⟩
  | fail r => intro h; exact h.elim
  | bad k => intro h; exact h.elim

/-- Unconditionally: the serialisation of the result is at most as long as the input consumed. -/
theorem Codec.denote_size {p : Prog α} {W : α → List Bool} {V : α → Prop} (h : Codec H A p W V)
    {r r' : List Bool} {a : α} (hr : p.denote r = .ok a r') : (W a).length + r'.length ≤ r.length ∧ V a := by
  have hs := h.sound r
  rw [hr] at hs
  obtain ⟨w, _, hl, rfl, hv⟩ := hs
  exact ⟨hl, hv⟩

theorem Codec.run_bad {p : Prog α} {W : α → List Bool} {V : α → Prop} (h : Codec H A p W V)
    {bb : BB} (hwf : bb.WF) {k : Bad} (hr : p.run bb = .bad k) : A k := by
  have hag := Prog.run_agrees p bb hwf
  have hs := h.sound bb.rem
  rw [hr] at hag
  revert hag hs
  cases p.denote bb.rem with
  | ok a' r => intro h; exact h.elim
  | fail r => intro h; exact h.elim
  | bad k => rintro rfl h; exact h

theorem Codec.run_complete {p : Prog α} {W : α → List Bool} {V : α → Prop} (h : Codec H A p W V)
    {bb : BB} (hwf : bb.WF) {a : α} (hv : V a) {rest : List Bool} (hr : bb.rem = W a ++ rest) :
    ∃ bb', p.run bb = .ok a bb' ∧ bb'.WF ∧ bb'.bytes = bb.bytes ∧ bb'.rem = rest := by
  have hag := Prog.run_agrees p bb hwf
  rw [hr, h.complete a hv] at hag
  revert hag
  cases p.run bb with
  | ok a' bb' => rintro ⟨rfl, h1, h2, h3⟩; exact ⟨bb', rfl, h1, h2, h3⟩
  | fail r => intro h; exact h.elim
  | bad k => intro h; exact h.elim

end H265
