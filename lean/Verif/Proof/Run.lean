/- How the reader executes sequenced programs. -/
import Verif.Proof.Denote

namespace H265
open Spec

/-- what happens to the result of a program in a sequence -/
def Res.andThen {α β : Type} : Res α → (α → BB → Res β) → Res β
  | .ok a bb, f => f a bb
  | .fail bb, _ => .fail bb
  | .bad k, _ => .bad k

theorem Prog.run_bind {α β : Type} (p : Prog α) (f : α → Prog β) : ∀ bb, (p.bind f).run bb = (p.run bb).andThen fun a bb' => (f a).run bb' := by
  induction p with
  | ret a => intro bb; rfl
  | fail => intro bb; rfl
  | bad k => intro bb; rfl
  | read w n k ih => intro bb; simp only [Prog.bind, Prog.run]; cases bb.readBits w n <;> first | rfl | exact ih _ _
  | ue k ih => intro bb; simp only [Prog.bind, Prog.run]; cases bb.readUE <;> first | rfl | exact ih _ _
  | se k ih => intro bb; simp only [Prog.bind, Prog.run]; cases bb.readSE <;> first | rfl | exact ih _ _
  | peek n k ih => intro bb; simp only [Prog.bind, Prog.run]; cases bb.peekBits 32 n <;> first | rfl | exact ih _ _
  | remaining k ih => intro bb; exact ih _ _
  | aligned k ih => intro bb; exact ih _ _

theorem Prog.run_seq {α β : Type} (p : Prog α) (f : α → Prog β) (bb : BB) :
    (p >>= f).run bb = (p.run bb).andThen fun a bb' => (f a).run bb' := Prog.run_bind p f bb

theorem Prog.bind_ok {α β : Type} {p : Prog α} {f : α → Prog β} {bb bb' : BB} {b : β} (h : (p.bind f).run bb = .ok b bb') :
    ∃ a b1, p.run bb = .ok a b1 ∧ (f a).run b1 = .ok b bb' := by
  rw [Prog.run_bind] at h
  cases hp : p.run bb with
  | ok a b1 => rw [hp] at h; exact ⟨a, b1, rfl, h⟩
  | fail b1 => rw [hp] at h; cases h
  | bad k => rw [hp] at h; cases h

theorem Prog.bind_bad {α β : Type} {p : Prog α} {f : α → Prog β} {bb : BB} {k : Bad} (h : (p.bind f).run bb = .bad k) :
    p.run bb = .bad k ∨ ∃ a b1, p.run bb = .ok a b1 ∧ (f a).run b1 = .bad k := by
  rw [Prog.run_bind] at h
  cases hp : p.run bb with
  | ok a b1 => rw [hp] at h; exact Or.inr ⟨a, b1, rfl, h⟩
  | fail b1 => rw [hp] at h; cases h
  | bad k => rw [hp] at h; cases h; exact Or.inl rfl

theorem Prog.bind_fail {α β : Type} {p : Prog α} {f : α → Prog β} {bb b' : BB} (h : (p.bind f).run bb = .fail b') :
    p.run bb = .fail b' ∨ ∃ a b1, p.run bb = .ok a b1 ∧ (f a).run b1 = .fail b' := by
  rw [Prog.run_bind] at h
  cases hp : p.run bb with
  | ok a b1 => rw [hp] at h; exact Or.inr ⟨a, b1, rfl, h⟩
  | fail b1 => rw [hp] at h; cases h; exact Or.inl rfl
  | bad k => rw [hp] at h; cases h

theorem Prog.bind_of_ok {α β : Type} {p : Prog α} {f : α → Prog β} {bb b1 : BB} {a : α} (h : p.run bb = .ok a b1) :
    (p.bind f).run bb = (f a).run b1 := by
  rw [Prog.run_bind, h]; rfl

/-- a tolerated failure: the reader stays where the sub-parser left it -/
theorem Prog.run_attempt {α : Type} (p : Prog α) : ∀ bb, p.attempt.run bb = match p.run bb with
    | .ok a bb' => .ok (some a) bb'
    | .fail bb' => .ok none bb'
    | .bad k => .bad k := by
  induction p with
  | ret a => intro bb; rfl
  | fail => intro bb; rfl
  | bad k => intro bb; rfl
  | read w n k ih => intro bb; simp only [Prog.attempt, Prog.run]; cases bb.readBits w n <;> first | rfl | exact ih _ _
  | ue k ih => intro bb; simp only [Prog.attempt, Prog.run]; cases bb.readUE <;> first | rfl | exact ih _ _
  | se k ih => intro bb; simp only [Prog.attempt, Prog.run]; cases bb.readSE <;> first | rfl | exact ih _ _
  | peek n k ih => intro bb; simp only [Prog.attempt, Prog.run]; cases bb.peekBits 32 n <;> first | rfl | exact ih _ _
  | remaining k ih => intro bb; exact ih _ _
  | aligned k ih => intro bb; exact ih _ _

theorem denote_of_run_ok {α : Type} {p : Prog α} {bb bb' : BB} {a : α} (h : bb.WF) (hr : p.run bb = .ok a bb') :
    p.denote bb.rem = .ok a bb'.rem := by
  have hag := Prog.run_agrees p bb h
  rw [hr] at hag
  revert hag
  cases p.denote bb.rem with
  | ok a' r => rintro ⟨rfl, _, _, rfl⟩; rfl
  | fail r => intro h; exact h.elim
  | bad k => intro h; exact h.elim

/-- the reader never moves backwards -/
theorem Prog.denote_forward {α : Type} (p : Prog α) : ∀ r : List Bool,
    match p.denote r with
    | .ok _ r' => r' <:+ r
    | .fail r' => r' <:+ r
    | .bad _ => True := by
  induction p with
  | ret a => intro r; exact List.suffix_refl r
  | fail => intro r; exact List.suffix_refl r
  | bad k => intro r; trivial
  | read w n k ih =>
    intro r
    simp only [Prog.denote]
    by_cases h0 : n = 0
    · rw [if_pos h0]; trivial
    · rw [if_neg h0]
      by_cases h1 : n ≤ w ∧ n ≤ r.length
      · rw [if_pos h1]
        have := ih (some (val (r.take n))) (r.drop n)
        revert this
        cases ((k (some (val (r.take n)))).denote (r.drop n)) with
        | bad k => exact fun h => h
        | ok a r' => exact fun h => List.IsSuffix.trans h (List.drop_suffix n r)
        | fail r' => exact fun h => List.IsSuffix.trans h (List.drop_suffix n r)
      · rw [if_neg h1]; exact ih _ _
  | ue k ih =>
    intro r
    simp only [Prog.denote]
    cases hu : ueSplit r with
    | none => exact ih _ _
    | some x =>
      obtain ⟨v, r1⟩ := x
      have hs : r1 <:+ r := ⟨_, (ueSplit_some hu).1.symm⟩
      simp only
      have := ih (some v) r1
      revert this
      cases (k (some v)).denote r1 with
      | bad k => exact fun h => h
      | ok a r' => exact fun h => List.IsSuffix.trans h hs
      | fail r' => exact fun h => List.IsSuffix.trans h hs
  | se k ih =>
    intro r
    simp only [Prog.denote]
    cases hu : ueSplit r with
    | none => exact ih _ _
    | some x =>
      obtain ⟨c, r1⟩ := x
      have hs : r1 <:+ r := ⟨_, (ueSplit_some hu).1.symm⟩
      simp only
      cases seOfUe c with
      | none => trivial
      | some v =>
        simp only
        have := ih (some v) r1
        revert this
        cases (k (some v)).denote r1 with
        | bad k => exact fun h => h
        | ok a r' => exact fun h => List.IsSuffix.trans h hs
        | fail r' => exact fun h => List.IsSuffix.trans h hs
  | peek n k ih =>
    intro r
    simp only [Prog.denote]
    by_cases h0 : n = 0
    · rw [if_pos h0]; trivial
    · rw [if_neg h0]
      by_cases h1 : n ≤ 32 ∧ n ≤ r.length
      · rw [if_pos h1]; exact ih _ _
      · rw [if_neg h1]; exact ih _ _
  | remaining k ih => intro r; exact ih _ _
  | aligned k ih => intro r; exact ih _ _

theorem Prog.run_forward {α : Type} {p : Prog α} {bb bb' : BB} {a : α} (h : bb.WF) (hr : p.run bb = .ok a bb') :
    bb'.rem.length ≤ bb.rem.length := by
  have := Prog.denote_forward p bb.rem
  rw [denote_of_run_ok h hr] at this
  exact this.length_le

end H265
