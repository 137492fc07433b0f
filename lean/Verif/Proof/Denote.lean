/-
Meaning of parser programs as functions of the remaining bits, and the adequacy theorem: a
program run on the statement-level reader does exactly that.
-/
import Verif.Model.Prog
import Verif.Proof.Golomb

namespace H265
open Spec

/-- Result of a parser on a bit string. -/
inductive ARes (α : Type) where
  | ok (a : α) (rest : List Bool)
  | fail (rest : List Bool)
  | bad (k : Bad)
  deriving DecidableEq, Repr

namespace ARes
def bind {α β : Type} : ARes α → (α → List Bool → ARes β) → ARes β
  | ok a r, f => f a r
  | fail r, _ => fail r
  | bad k, _ => bad k
@[simp] theorem ok_bind {α β : Type} (a : α) (r : List Bool) (f : α → List Bool → ARes β) :
    (ok a r).bind f = f a r := rfl
@[simp] theorem fail_bind {α β : Type} (r : List Bool) (f : α → List Bool → ARes β) :
    (fail r : ARes α).bind f = fail r := rfl
@[simp] theorem bad_bind {α β : Type} (k : Bad) (f : α → List Bool → ARes β) :
    (bad k : ARes α).bind f = bad k := rfl
end ARes

namespace Prog

/-- Meaning of a program on the remaining bits. -/
def denote {α : Type} : Prog α → List Bool → ARes α
  | ret a, r => .ok a r
  | fail, r => .fail r
  | bad k, _ => .bad k
  | read w n k, r =>
    if n = 0 then .bad .assertion
    else if n ≤ w ∧ n ≤ r.length then denote (k (some (val (r.take n)))) (r.drop n)
    else denote (k none) r
  | ue k, r =>
    match ueSplit r with
    | some (v, r') => denote (k (some v)) r'
    | none => denote (k none) r
  | se k, r =>
    match ueSplit r with
    | some (c, r') =>
      match seOfUe c with
      | some v => denote (k (some v)) r'
      | none => .bad .signedOverflow
    | none => denote (k none) r
  | peek n k, r =>
    if n = 0 then .bad .assertion
    else if n ≤ 32 ∧ n ≤ r.length then denote (k (some (val (r.take n)))) r
    else denote (k none) r
  | remaining k, r => denote (k r.length) r
  | aligned k, r => denote (k (r.length % 8 == 0)) r

/-- No aliased signed code word is read: every se(v) element read by the program in its run on the bits `r` has a code number
that is even or below 2^31.  (The signed reader maps odd code numbers above 2^31 to negative values, see C06.) -/
def NoAlias {α : Type} : Prog α → List Bool → Prop
  | ret _, _ => True
  | fail, _ => True
  | bad _, _ => True
  | read w n k, r =>
    if n ≤ w ∧ n ≤ r.length then NoAlias (k (some (val (r.take n)))) (r.drop n) else NoAlias (k none) r
  | ue k, r =>
    match ueSplit r with
    | some (v, r') => NoAlias (k (some v)) r'
    | none => NoAlias (k none) r
  | se k, r =>
    match ueSplit r with
    | some (c, r') => (c % 2 = 1 → c < 2 ^ 31) ∧
      match seOfUe c with
      | some v => NoAlias (k (some v)) r'
      | none => True
    | none => NoAlias (k none) r
  | peek n k, r =>
    if n ≤ 32 ∧ n ≤ r.length then NoAlias (k (some (val (r.take n)))) r else NoAlias (k none) r
  | remaining k, r => NoAlias (k r.length) r
  | aligned k, r => NoAlias (k (r.length % 8 == 0)) r

/-- What it means for a concrete reader result to agree with an abstract one. -/
def Agrees {α : Type} (bb : BB) : ARes α → Res α → Prop
  | .ok a r, .ok a' bb' => a = a' ∧ bb'.WF ∧ bb'.bytes = bb.bytes ∧ bb'.rem = r
  | .fail r, .fail bb' => bb'.WF ∧ bb'.bytes = bb.bytes ∧ bb'.rem = r
  | .bad k, .bad k' => k = k'
  | _, _ => False

theorem Agrees.mono {α : Type} {bb bb1 : BB} (hb : bb1.bytes = bb.bytes) {a : ARes α} {r : Res α}
    (h : Agrees bb1 a r) : Agrees bb a r := by
  cases a <;> cases r <;> simp_all [Agrees]

/-- Adequacy: running a program on the reader model does what `denote` says on the
remaining bits. -/
theorem run_agrees {α : Type} (p : Prog α) : ∀ bb : BB, bb.WF → Agrees bb (p.denote bb.rem) (p.run bb) := by
  induction p with
  | ret a => intro bb h; simp [denote, run, Agrees, h]
  | fail => intro bb h; simp [denote, run, Agrees, h]
  | bad k => intro bb h; simp [denote, run, Agrees]
  | read w n k ih =>
    intro bb h
    unfold denote run
    by_cases h0 : n = 0
    · subst h0; rw [BB.readBits_zero]; simp [Agrees]
    · rw [BB.readBits_eq h (by omega), if_neg h0]
      by_cases hc : n ≤ w ∧ n ≤ bb.rem.length
      · rw [if_pos hc, if_pos hc]
        simp only
        rw [← BB.rem_adv]
        exact (ih _ _ (h.adv hc.2)).mono (BB.adv_bytes _ _)
      · rw [if_neg hc, if_neg hc]
        exact ih _ _ h
  | ue k ih =>
    intro bb h
    unfold denote run
    rw [BB.readUE_eq h]
    cases hs : ueSplit bb.rem with
    | none => exact ih _ _ h
    | some vr =>
      obtain ⟨v, r'⟩ := vr
      simp only
      have hr := (ueSplit_some hs).1
      have hle : bb.rem.length - r'.length ≤ bb.rem.length := by omega
      have hrem : (bb.adv (bb.rem.length - r'.length)).rem = r' := by
        rw [BB.rem_adv]
        conv => lhs; rw [hr]
        rw [List.length_append, show (Spec.ue v).length + r'.length - r'.length = (Spec.ue v).length by omega]
        simp
      have := ih (some v) (bb.adv (bb.rem.length - r'.length)) (h.adv hle)
      rw [hrem] at this
      exact this.mono (BB.adv_bytes _ _)
  | se k ih =>
    intro bb h
    unfold denote run BB.readSE
    rw [BB.readUE_eq h]
    cases hs : ueSplit bb.rem with
    | none => exact ih _ _ h
    | some vr =>
      obtain ⟨v, r'⟩ := vr
      simp only
      cases hv : seOfUe v with
      | none => simp [Agrees]
      | some x =>
        simp only
        have hr := (ueSplit_some hs).1
        have hle : bb.rem.length - r'.length ≤ bb.rem.length := by omega
        have hrem : (bb.adv (bb.rem.length - r'.length)).rem = r' := by
          rw [BB.rem_adv]
          conv => lhs; rw [hr]
          rw [List.length_append, show (Spec.ue v).length + r'.length - r'.length = (Spec.ue v).length by omega]
          simp
        have := ih (some x) (bb.adv (bb.rem.length - r'.length)) (h.adv hle)
        rw [hrem] at this
        exact this.mono (BB.adv_bytes _ _)
  | peek n k ih =>
    intro bb h
    unfold denote run
    by_cases h0 : n = 0
    · subst h0; simp [BB.peekBits, Agrees]
    · rw [if_neg h0]
      by_cases hc : n ≤ 32 ∧ n ≤ bb.rem.length
      · rw [if_pos hc, BB.peekBits_ok h (by omega) hc.1 hc.2]
        exact ih _ _ h
      · rw [if_neg hc, BB.peekBits_fail h (by omega) hc]
        exact ih _ _ h
  | remaining k ih =>
    intro bb h
    unfold denote run
    rw [BB.remaining_eq h]
    exact ih _ _ h
  | aligned k ih =>
    intro bb h
    unfold denote run
    have : (bb.bitOff == 0) = (bb.rem.length % 8 == 0) := by
      rw [Bool.eq_iff_iff, beq_iff_eq, beq_iff_eq]
      exact BB.bitOff_eq h
    rw [this]
    exact ih _ _ h

/-! ### denotation of the combinators -/

@[simp] theorem denote_pure {α : Type} (a : α) (r : List Bool) : (pure a : Prog α).denote r = .ok a r := rfl
@[simp] theorem denote_ret {α : Type} (a : α) (r : List Bool) : (ret a : Prog α).denote r = .ok a r := rfl
@[simp] theorem denote_fail {α : Type} (r : List Bool) : (fail : Prog α).denote r = .fail r := rfl
@[simp] theorem denote_bad {α : Type} (k : Bad) (r : List Bool) : (bad k : Prog α).denote r = .bad k := rfl

theorem denote_bind {α β : Type} (p : Prog α) (f : α → Prog β) (r : List Bool) :
    (p >>= f).denote r = (p.denote r).bind (fun a r' => (f a).denote r') := by
  show (p.bind f).denote r = _
  induction p generalizing r with
  | ret a => rfl
  | fail => rfl
  | bad k => rfl
  | read w n k ih =>
    simp only [bind, denote]
    by_cases h0 : n = 0
    · simp [h0]
    · by_cases hc : n ≤ w ∧ n ≤ r.length
      · simp only [h0, if_false, hc, and_self, if_true, ih]
      · simp only [h0, if_false, hc, ih]
  | ue k ih =>
    simp only [bind, denote]
    cases ueSplit r with
    | none => simp only [ih]
    | some vr => simp only [ih]
  | se k ih =>
    simp only [bind, denote]
    cases ueSplit r with
    | none => simp only [ih]
    | some vr =>
      simp only
      cases seOfUe vr.1 with
      | none => rfl
      | some v => simp only [ih]
  | peek n k ih =>
    simp only [bind, denote]
    by_cases h0 : n = 0
    · simp [h0]
    · by_cases hc : n ≤ 32 ∧ n ≤ r.length
      · simp only [h0, if_false, hc, and_self, if_true, ih]
      · simp only [h0, if_false, hc, ih]
  | remaining k ih => simp only [bind, denote, ih]
  | aligned k ih => simp only [bind, denote, ih]

/-- in a run without aliased code words there is none in any part of the run -/
theorem NoAlias.of_bind {α β : Type} {p : Prog α} {f : α → Prog β} {r : List Bool} (h : (p >>= f).NoAlias r) :
    p.NoAlias r ∧ ∀ a r', p.denote r = .ok a r' → (f a).NoAlias r' := by
  change (p.bind f).NoAlias r at h
  induction p generalizing r with
  | ret a => exact ⟨trivial, by rintro _ _ ⟨⟩; exact h⟩
  | fail => exact ⟨trivial, by rintro _ _ ⟨⟩⟩
  | bad k => exact ⟨trivial, by rintro _ _ ⟨⟩⟩
  | read w n k ih =>
    simp only [bind, NoAlias, denote] at h ⊢
    by_cases hc : n ≤ w ∧ n ≤ r.length
    · rw [if_pos hc] at h ⊢
      refine ⟨(ih _ h).1, fun a r' ha => ?_⟩
      by_cases h0 : n = 0
      · rw [if_pos h0] at ha; cases ha
      · rw [if_neg h0, if_pos hc] at ha
        exact (ih _ h).2 a r' ha
    · rw [if_neg hc] at h ⊢
      refine ⟨(ih _ h).1, fun a r' ha => ?_⟩
      by_cases h0 : n = 0
      · rw [if_pos h0] at ha; cases ha
      · rw [if_neg h0, if_neg hc] at ha
        exact (ih _ h).2 a r' ha
  | ue k ih =>
    simp only [bind, NoAlias, denote] at h ⊢
    cases hu : ueSplit r with
    | none => simp only [hu] at h ⊢; exact ih _ h
    | some vr => simp only [hu] at h ⊢; exact ih _ h
  | se k ih =>
    simp only [bind, NoAlias, denote] at h ⊢
    cases hu : ueSplit r with
    | none => simp only [hu] at h ⊢; exact ih _ h
    | some vr =>
      simp only [hu] at h ⊢
      cases hv : seOfUe vr.1 with
      | none => exact ⟨⟨h.1, trivial⟩, by rintro _ _ ⟨⟩⟩
      | some v =>
        simp only [hv] at h ⊢
        exact ⟨⟨h.1, (ih _ h.2).1⟩, (ih _ h.2).2⟩
  | peek n k ih =>
    simp only [bind, NoAlias, denote] at h ⊢
    by_cases hc : n ≤ 32 ∧ n ≤ r.length
    · rw [if_pos hc] at h ⊢
      refine ⟨(ih _ h).1, fun a r' ha => ?_⟩
      by_cases h0 : n = 0
      · rw [if_pos h0] at ha; cases ha
      · rw [if_neg h0, if_pos hc] at ha
        exact (ih _ h).2 a r' ha
    · rw [if_neg hc] at h ⊢
      refine ⟨(ih _ h).1, fun a r' ha => ?_⟩
      by_cases h0 : n = 0
      · rw [if_pos h0] at ha; cases ha
      · rw [if_neg h0, if_neg hc] at ha
        exact (ih _ h).2 a r' ha
  | remaining k ih => simp only [bind, NoAlias, denote] at h ⊢; exact ih _ h
  | aligned k ih => simp only [bind, NoAlias, denote] at h ⊢; exact ih _ h

theorem NoAlias.of_attempt {α : Type} {p : Prog α} {r : List Bool} (h : p.attempt.NoAlias r) : p.NoAlias r := by
  induction p generalizing r with
  | ret a => trivial
  | fail => trivial
  | bad k => trivial
  | read w n k ih =>
    simp only [attempt, NoAlias] at h ⊢
    split
    · rename_i hc; rw [if_pos hc] at h; exact ih _ h
    · rename_i hc; rw [if_neg hc] at h; exact ih _ h
  | ue k ih =>
    simp only [attempt, NoAlias] at h ⊢
    cases hu : ueSplit r with
    | none => simp only [hu] at h ⊢; exact ih _ h
    | some vr => simp only [hu] at h ⊢; exact ih _ h
  | se k ih =>
    simp only [attempt, NoAlias] at h ⊢
    cases hu : ueSplit r with
    | none => simp only [hu] at h ⊢; exact ih _ h
    | some vr =>
      simp only [hu] at h ⊢
      cases hv : seOfUe vr.1 with
      | none => exact ⟨h.1, trivial⟩
      | some v => simp only [hv] at h ⊢; exact ⟨h.1, ih _ h.2⟩
  | peek n k ih =>
    simp only [attempt, NoAlias] at h ⊢
    split
    · rename_i hc; rw [if_pos hc] at h; exact ih _ h
    · rename_i hc; rw [if_neg hc] at h; exact ih _ h
  | remaining k ih => simp only [attempt, NoAlias] at h ⊢; exact ih _ h
  | aligned k ih => simp only [attempt, NoAlias] at h ⊢; exact ih _ h

theorem denote_attempt {α : Type} (p : Prog α) (r : List Bool) :
    p.attempt.denote r = match p.denote r with
      | .ok a r' => .ok (some a) r'
      | .fail r' => .ok none r'
      | .bad k => .bad k := by
  induction p generalizing r with
  | ret a => rfl
  | fail => rfl
  | bad k => rfl
  | read w n k ih =>
    simp only [attempt, denote]
    by_cases h0 : n = 0
    · simp [h0]
    · by_cases hc : n ≤ w ∧ n ≤ r.length
      · simp only [h0, if_false, hc, and_self, if_true, ih]
      · simp only [h0, if_false, hc, ih]
  | ue k ih =>
    simp only [attempt, denote]
    cases ueSplit r with
    | none => simp only [ih]
    | some vr => simp only [ih]
  | se k ih =>
    simp only [attempt, denote]
    cases ueSplit r with
    | none => simp only [ih]
    | some vr =>
      simp only
      cases seOfUe vr.1 with
      | none => rfl
      | some v => simp only [ih]
  | peek n k ih =>
    simp only [attempt, denote]
    by_cases h0 : n = 0
    · simp [h0]
    · by_cases hc : n ≤ 32 ∧ n ≤ r.length
      · simp only [h0, if_false, hc, and_self, if_true, ih]
      · simp only [h0, if_false, hc, ih]
  | remaining k ih => simp only [attempt, denote, ih]
  | aligned k ih => simp only [attempt, denote, ih]

/-- A program only ever drops a prefix of the remaining bits. -/
theorem denote_suffix {α : Type} (p : Prog α) (r : List Bool) :
    match p.denote r with
    | .ok _ r' => r' <:+ r
    | .fail r' => r' <:+ r
    | .bad _ => True := by
  induction p generalizing r with
  | ret a => exact List.suffix_refl r
  | fail => exact List.suffix_refl r
  | bad k => trivial
  | read w n k ih =>
    simp only [denote]
    by_cases h0 : n = 0
    · simp [h0]
    · by_cases hc : n ≤ w ∧ n ≤ r.length
      · simp only [h0, if_false, hc, and_self, if_true]
        have h := ih (some (val (r.take n))) (r.drop n)
        have hs : r.drop n <:+ r := List.drop_suffix n r
        revert h
        cases (k (some (val (r.take n)))).denote (r.drop n) with
        | ok a r' => exact fun h => List.IsSuffix.trans h hs
        | fail r' => exact fun h => List.IsSuffix.trans h hs
        | bad k => exact fun h => h
      · simp only [h0, if_false, hc]
        exact ih none r
  | ue k ih =>
    simp only [denote]
    cases hu : ueSplit r with
    | none => exact ih none r
    | some vr =>
      obtain ⟨v, r1⟩ := vr
      simp only
      have h := ih (some v) r1
      have hs : r1 <:+ r := ⟨_, (ueSplit_some hu).1.symm⟩
      revert h
      cases (k (some v)).denote r1 with
      | ok a r' => exact fun h => List.IsSuffix.trans h hs
      | fail r' => exact fun h => List.IsSuffix.trans h hs
      | bad k => exact fun h => h
  | se k ih =>
    simp only [denote]
    cases hu : ueSplit r with
    | none => exact ih none r
    | some vr =>
      obtain ⟨v, r1⟩ := vr
      simp only
      cases seOfUe v with
      | none => trivial
      | some x =>
        simp only
        have h := ih (some x) r1
        have hs : r1 <:+ r := ⟨_, (ueSplit_some hu).1.symm⟩
        revert h
        cases (k (some x)).denote r1 with
        | ok a r' => exact fun h => List.IsSuffix.trans h hs
        | fail r' => exact fun h => List.IsSuffix.trans h hs
        | bad k => exact fun h => h
  | peek n k ih =>
    simp only [denote]
    by_cases h0 : n = 0
    · simp [h0]
    · by_cases hc : n ≤ 32 ∧ n ≤ r.length
      · simp only [h0, if_false, hc, and_self, if_true]
        exact ih _ r
      · simp only [h0, if_false, hc]
        exact ih _ r
  | remaining k ih => simp only [denote]; exact ih _ r
  | aligned k ih => simp only [denote]; exact ih _ r

theorem denote_u {n : Nat} (h0 : 0 < n) (r : List Bool) :
    (u n).denote r = if n ≤ 32 ∧ n ≤ r.length then .ok (val (r.take n)) (r.drop n) else .fail r := by
  unfold u denote
  rw [if_neg (by omega)]
  by_cases hc : n ≤ 32 ∧ n ≤ r.length <;> simp [hc, denote]

theorem denote_u64 {n : Nat} (h0 : 0 < n) (r : List Bool) :
    (u64 n).denote r = if n ≤ 64 ∧ n ≤ r.length then .ok (val (r.take n)) (r.drop n) else .fail r := by
  unfold u64 denote
  rw [if_neg (by omega)]
  by_cases hc : n ≤ 64 ∧ n ≤ r.length <;> simp [hc, denote]

theorem denote_uev (r : List Bool) :
    uev.denote r = match ueSplit r with | some (v, r') => .ok v r' | none => .fail r := by
  unfold uev denote
  cases ueSplit r <;> simp [denote]

end Prog
end H265
