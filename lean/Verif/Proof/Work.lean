/-
The work of the parsers on bit strings, and that it is paid for by the bits they consume.
-/
import Verif.Model.Work
import Verif.Proof.Run
import Verif.Proof.Rps

set_option autoImplicit false

namespace H265
open Spec

namespace Prog

/-- `steps` on the bits that are left -/
def work {α : Type} : Prog α → List Bool → Nat
  | ret _, _ => 0
  | fail, _ => 0
  | bad _, _ => 0
  | read w n k, r =>
    if n = 0 then 1
    else if n ≤ w ∧ n ≤ r.length then 1 + work (k (some (val (r.take n)))) (r.drop n)
    else 1 + work (k none) r
  | ue k, r =>
    match ueSplit r with
    | some (v, r') => 1 + lz r + work (k (some v)) r'
    | none => 1 + lz r + work (k none) r
  | se k, r =>
    match ueSplit r with
    | some (c, r') =>
      match seOfUe c with
      | some v => 1 + lz r + work (k (some v)) r'
      | none => 1 + lz r
    | none => 1 + lz r + work (k none) r
  | peek n k, r =>
    if n = 0 then 1
    else if n ≤ 32 ∧ n ≤ r.length then 1 + work (k (some (val (r.take n)))) r
    else 1 + work (k none) r
  | remaining k, r => work (k r.length) r
  | aligned k, r => work (k (r.length % 8 == 0)) r

theorem zeroSteps_eq {bb : BB} (h : bb.WF) : bb.zeroSteps = lz bb.rem := by
  unfold BB.zeroSteps
  rw [BB.zeroLoop_eq _ _ _ h (by rw [BB.remaining_eq h]; have := lz_le bb.rem; omega)]
  simp

theorem steps_eq {α : Type} (p : Prog α) : ∀ bb : BB, bb.WF → p.steps bb = p.work bb.rem := by
  induction p with
  | ret a => intro bb h; rfl
  | fail => intro bb h; rfl
  | bad k => intro bb h; rfl
  | read w n k ih =>
    intro bb h
    unfold steps work
    by_cases h0 : n = 0
    · subst h0; rw [BB.readBits_zero]; simp
    · rw [BB.readBits_eq h (by omega), if_neg h0]
      by_cases hc : n ≤ w ∧ n ≤ bb.rem.length
      · rw [if_pos hc, if_pos hc]
        simp only
        rw [← BB.rem_adv, ih _ _ (h.adv hc.2)]
      · rw [if_neg hc, if_neg hc]
        simp only
        rw [ih _ _ h]
  | ue k ih =>
    intro bb h
    unfold steps work
    rw [BB.readUE_eq h, zeroSteps_eq h]
    cases hs : ueSplit bb.rem with
    | none => simp only; rw [ih _ _ h]
    | some vr =>
      obtain ⟨v, r'⟩ := vr
      simp only
      have hr := (ueSplit_some hs).1
      have hle : bb.rem.length - r'.length ≤ bb.rem.length := by omega
      have hrem : (bb.adv (bb.rem.length - r'.length)).rem = r' := by
        rw [BB.rem_adv]
        conv => lhs; rw [hr]
        rw [List.length_append, show (Spec.ue v).length + r'.length - r'.length = (Spec.ue v).length by omega]
        simp
      rw [ih (some v) (bb.adv (bb.rem.length - r'.length)) (h.adv hle), hrem]
  | se k ih =>
    intro bb h
    unfold steps work BB.readSE
    rw [BB.readUE_eq h, zeroSteps_eq h]
    cases hs : ueSplit bb.rem with
    | none => simp only; rw [ih _ _ h]
    | some vr =>
      obtain ⟨v, r'⟩ := vr
      simp only
      cases hv : seOfUe v with
      | none => simp only
      | some x =>
        simp only
        have hr := (ueSplit_some hs).1
        have hle : bb.rem.length - r'.length ≤ bb.rem.length := by omega
        have hrem : (bb.adv (bb.rem.length - r'.length)).rem = r' := by
          rw [BB.rem_adv]
          conv => lhs; rw [hr]
          rw [List.length_append, show (Spec.ue v).length + r'.length - r'.length = (Spec.ue v).length by omega]
          simp
        rw [ih (some x) (bb.adv (bb.rem.length - r'.length)) (h.adv hle), hrem]
  | peek n k ih =>
    intro bb h
    unfold steps work
    by_cases h0 : n = 0
    · subst h0; simp [BB.peekBits]
    · rw [if_neg h0]
      by_cases hc : n ≤ 32 ∧ n ≤ bb.rem.length
      · rw [if_pos hc, BB.peekBits_ok h (by omega) hc.1 hc.2]
        simp only
        rw [ih _ _ h]
      · rw [if_neg hc, BB.peekBits_fail h (by omega) hc]
        simp only
        rw [ih _ _ h]
  | remaining k ih =>
    intro bb h
    unfold steps work
    rw [BB.remaining_eq h]
    exact ih _ _ h
  | aligned k ih =>
    intro bb h
    unfold steps work
    have : (bb.bitOff == 0) = (bb.rem.length % 8 == 0) := by
      rw [Bool.eq_iff_iff, beq_iff_eq, beq_iff_eq]
      exact BB.bitOff_eq h
    rw [this]
    exact ih _ _ h

/-- the work of what follows a parse -/
def workAfter {α β : Type} (f : α → Prog β) : ARes α → Nat
  | .ok a r' => (f a).work r'
  | _ => 0

theorem work_bind' {α β : Type} (f : α → Prog β) (p : Prog α) : ∀ r, (p.bind f).work r = p.work r + workAfter f (p.denote r) := by
  induction p with
  | ret a => intro r; simp [Prog.bind, work, denote, workAfter]
  | fail => intro r; simp [Prog.bind, work, denote, workAfter]
  | bad k => intro r; simp [Prog.bind, work, denote, workAfter]
  | read w n k ih =>
    intro r
    unfold Prog.bind work denote
    by_cases h0 : n = 0
    · simp [h0, workAfter]
    · rw [if_neg h0, if_neg h0, if_neg h0]
      by_cases hc : n ≤ w ∧ n ≤ r.length
      · rw [if_pos hc, if_pos hc, if_pos hc, ih, Nat.add_assoc]
      · rw [if_neg hc, if_neg hc, if_neg hc, ih, Nat.add_assoc]
  | ue k ih =>
    intro r
    unfold Prog.bind work denote
    cases ueSplit r with
    | none => simp only; rw [ih]; omega
    | some x => simp only; rw [ih]; omega
  | se k ih =>
    intro r
    unfold Prog.bind work denote
    cases ueSplit r with
    | none => simp only; rw [ih]; omega
    | some x =>
      simp only
      cases seOfUe x.1 with
      | none => simp only [workAfter]; omega
      | some v => simp only; rw [ih]; omega
  | peek n k ih =>
    intro r
    unfold Prog.bind work denote
    by_cases h0 : n = 0
    · simp [h0, workAfter]
    · rw [if_neg h0, if_neg h0, if_neg h0]
      by_cases hc : n ≤ 32 ∧ n ≤ r.length
      · rw [if_pos hc, if_pos hc, if_pos hc, ih, Nat.add_assoc]
      · rw [if_neg hc, if_neg hc, if_neg hc, ih, Nat.add_assoc]
  | remaining k ih => intro r; unfold Prog.bind work denote; exact ih _ _
  | aligned k ih => intro r; unfold Prog.bind work denote; exact ih _ _

theorem work_bind {α β : Type} (p : Prog α) (f : α → Prog β) (r : List Bool) :
    (p >>= f).work r = p.work r + (match p.denote r with | .ok a r' => (f a).work r' | _ => 0) := by
  rw [Prog.bind_def, work_bind']
  cases p.denote r <;> rfl

theorem work_attempt {α : Type} (p : Prog α) : ∀ r, p.attempt.work r = p.work r := by
  induction p with
  | ret a => intro r; rfl
  | fail => intro r; rfl
  | bad k => intro r; rfl
  | read w n k ih =>
    intro r
    unfold attempt work
    simp only [ih]
  | ue k ih => intro r; unfold attempt work; cases ueSplit r <;> simp only [ih]
  | se k ih =>
    intro r; unfold attempt work
    cases ueSplit r with
    | none => simp only [ih]
    | some x => simp only; cases seOfUe x.1 <;> simp only [ih]
  | peek n k ih => intro r; unfold attempt work; simp only [ih]
  | remaining k ih => intro r; unfold attempt work; exact ih _ _
  | aligned k ih => intro r; unfold attempt work; exact ih _ _

/-- every step is paid for by the bits consumed (four for each), except for the last read -/
def Frugal {α : Type} (p : Prog α) : Prop := ∀ r,
  match p.denote r with
  | .ok _ r' => p.work r + 4 * r'.length ≤ 4 * r.length
  | _ => p.work r ≤ 1 + 4 * r.length

/-- a bound on the work by the number of bits that are left, whatever the result -/
def Within {α : Type} (c m : Nat) (p : Prog α) : Prop := ∀ r, p.work r ≤ c + m * r.length

theorem denote_length {α : Type} {p : Prog α} {r : List Bool} {a : α} {r' : List Bool} (h : p.denote r = .ok a r') : r'.length ≤ r.length := by
  have := denote_forward p r
  rw [h] at this
  exact this.length_le

theorem Frugal.ok {α : Type} {p : Prog α} (hp : p.Frugal) {r r' : List Bool} {a : α} (h : p.denote r = .ok a r') : p.work r + 4 * r'.length ≤ 4 * r.length := by
  have := hp r; rw [h] at this; exact this

theorem Frugal.all {α : Type} {p : Prog α} (hp : p.Frugal) (r : List Bool) : p.work r ≤ 1 + 4 * r.length := by
  have := hp r
  split at this <;> omega

theorem Frugal.within {α : Type} {p : Prog α} (hp : p.Frugal) : p.Within 1 4 := hp.all

theorem Frugal.ret {α : Type} (a : α) : (Prog.ret a).Frugal := fun r => by simp [denote, work]
theorem Frugal.pure {α : Type} (a : α) : (Pure.pure a : Prog α).Frugal := Frugal.ret a
theorem Frugal.fail {α : Type} : (Prog.fail : Prog α).Frugal := fun r => by simp [denote, work]
theorem Frugal.bad {α : Type} (k : Bad) : (Prog.bad k : Prog α).Frugal := fun r => by simp [denote, work]

theorem Frugal.bind {α β : Type} {p : Prog α} {f : α → Prog β} (hp : p.Frugal) (hf : ∀ a, (f a).Frugal) : (p >>= f).Frugal := by
  intro r
  have h1 := hp r
  rw [work_bind, denote_bind]
  cases h : p.denote r with
  | fail r' => rw [h] at h1; simp only [ARes.bind] at *; omega
  | bad k => rw [h] at h1; simp only [ARes.bind] at *; omega
  | ok a r' =>
    rw [h] at h1
    have h2 := hf a r'
    simp only [ARes.bind] at *
    split at h2 <;> omega

theorem Frugal.bind' {α β : Type} {p : Prog α} {f : α → Prog β} (hp : p.Frugal) (hf : ∀ a, (f a).Frugal) : (p.bind f).Frugal := Frugal.bind hp hf

theorem Frugal.readN (w n : Nat) : (Prog.read w n fun | some v => Prog.ret v | none => Prog.fail : Prog Nat).Frugal := by
  intro r
  unfold work denote
  by_cases h0 : n = 0
  · simp only [h0, if_true]; omega
  · rw [if_neg h0, if_neg h0]
    by_cases hc : n ≤ w ∧ n ≤ r.length
    · rw [if_pos hc, if_pos hc]
      simp only [denote, work, List.length_drop]
      omega
    · rw [if_neg hc, if_neg hc]
      simp only [denote, work]
      omega

theorem Frugal.u (n : Nat) : (Prog.u n).Frugal := Frugal.readN 32 n
theorem Frugal.u64 (n : Nat) : (Prog.u64 n).Frugal := Frugal.readN 64 n

theorem ueSplit_length {r r' : List Bool} {v : Nat} (h : ueSplit r = some (v, r')) : r'.length + 2 * lz r + 1 = r.length := by
  unfold ueSplit at h
  split at h
  · simp only [Option.some.injEq, Prod.mk.injEq] at h
    rw [← h.2, List.length_drop]
    omega
  · cases h

theorem Frugal.uev : Prog.uev.Frugal := by
  intro r
  have := lz_le r
  unfold Prog.uev work denote
  cases h : ueSplit r with
  | none => simp only [denote, work]; omega
  | some x =>
    obtain ⟨v, r'⟩ := x
    have := ueSplit_length h
    simp only [denote, work]
    omega

theorem Frugal.sev : Prog.sev.Frugal := by
  intro r
  have := lz_le r
  unfold Prog.sev work denote
  cases h : ueSplit r with
  | none => simp only [denote, work]; omega
  | some x =>
    obtain ⟨v, r'⟩ := x
    have := ueSplit_length h
    simp only
    cases seOfUe v with
    | none => simp only; omega
    | some y => simp only [denote, work]; omega

theorem Frugal.ite {α : Type} {c : Prop} [Decidable c] {p q : Prog α} (hp : c → p.Frugal) (hq : ¬ c → q.Frugal) : (if c then p else q).Frugal := by
  split
  · exact hp ‹_›
  · exact hq ‹_›

theorem Frugal.remaining {α : Type} {k : Nat → Prog α} (hk : ∀ n, (k n).Frugal) : (Prog.remaining k).Frugal := fun r => hk _ r
theorem Frugal.check (c : Prop) [Decidable c] : (Prog.check c).Frugal := Frugal.ite (fun _ => .ret _) (fun _ => .fail)
theorem Frugal.opt {α : Type} {c : Prop} [Decidable c] {p : Prog α} {d : α} (hp : p.Frugal) : (Prog.opt c p d).Frugal := Frugal.ite (fun _ => hp) (fun _ => .ret _)
theorem Frugal.maybe {α : Type} {c : Prop} [Decidable c] {p : Prog α} (hp : p.Frugal) : (Prog.maybe c p).Frugal :=
  Frugal.ite (fun _ => .bind' hp fun _ => .ret _) (fun _ => .ret _)
theorem Frugal.ueRange (lo hi : Nat) : (Prog.ueRange lo hi).Frugal := .bind' .uev fun _ => .ite (fun _ => .ret _) (fun _ => .fail)

theorem Frugal.rep {α : Type} {p : Prog α} (hp : p.Frugal) : ∀ n, (Prog.rep n p).Frugal
  | 0 => .ret _
  | n + 1 => .bind hp fun _ => .bind (Frugal.rep hp n) fun _ => .pure _

theorem Frugal.repI {α : Type} {p : Nat → Prog α} (hp : ∀ i, (p i).Frugal) : ∀ n start, (Prog.repI start n p).Frugal
  | 0, _ => .ret _
  | n + 1, s => .bind (hp s) fun _ => .bind (Frugal.repI hp n (s + 1)) fun _ => .pure _

theorem Frugal.at' {α : Type} (l : List α) (i : Nat) : (Prog.at' l i).Frugal := by
  unfold Prog.at'
  split
  · exact .ret _
  · exact .bad _

theorem Frugal.int32 (x : Int) : (Prog.int32 x).Frugal := .ite (fun _ => .ret _) (fun _ => .bad _)

/-! ### bounds whatever the result -/

theorem Within.mono {α : Type} {c m c' m' : Nat} {p : Prog α} (h : p.Within c m) (hc : c ≤ c') (hm : m ≤ m') : p.Within c' m' := fun r =>
  Nat.le_trans (h r) (Nat.add_le_add hc (Nat.mul_le_mul_right _ hm))

theorem Within.attempt {α : Type} {c m : Nat} {p : Prog α} (h : p.Within c m) : p.attempt.Within c m := fun r => by rw [work_attempt]; exact h r

theorem Within.bind {α β : Type} {c1 m1 c2 m2 : Nat} {p : Prog α} {f : α → Prog β} (hp : p.Within c1 m1) (hf : ∀ a, (f a).Within c2 m2) :
    (p >>= f).Within (c1 + c2) (m1 + m2) := by
  intro r
  have h1 := hp r
  rw [work_bind, Nat.add_mul]
  cases h : p.denote r with
  | fail r' => simp only; omega
  | bad k => simp only; omega
  | ok a r' =>
    have h2 := hf a r'
    have := Nat.mul_le_mul_left m2 (denote_length h)
    simp only
    omega

/-- after a frugal start -/
theorem Frugal.then {α β : Type} {c m : Nat} {p : Prog α} {f : α → Prog β} (hp : p.Frugal) (hf : ∀ a, (f a).Within c (4 + m)) : (p >>= f).Within (c + 1) (4 + m) := by
  intro r
  have h1 := hp r
  rw [work_bind]
  have hr : (4 + m) * r.length = 4 * r.length + m * r.length := Nat.add_mul _ _ _
  cases h : p.denote r with
  | fail r' => rw [h] at h1; simp only at *; omega
  | bad k => rw [h] at h1; simp only at *; omega
  | ok a r' =>
    rw [h] at h1
    have h2 := hf a r'
    have := Nat.mul_le_mul_left m (denote_length h)
    rw [Nat.add_mul] at h2
    simp only at *
    omega

theorem Within.ret {α : Type} (a : α) {c m : Nat} : (Prog.ret a).Within c m := fun r => by simp [work]
theorem Within.pure {α : Type} (a : α) {c m : Nat} : (Pure.pure a : Prog α).Within c m := Within.ret a
theorem Within.fail {α : Type} {c m : Nat} : (Prog.fail : Prog α).Within c m := fun r => by simp [work]

/-- use the rules, down to leaves -/
macro "frugal" : tactic => `(tactic| repeat' (first
  | exact Frugal.pure _ | exact Frugal.ret _ | exact Frugal.fail | exact Frugal.bad _ | exact Frugal.u _ | exact Frugal.u64 _ | exact Frugal.uev
  | exact Frugal.sev | exact Frugal.check _ | exact Frugal.ueRange _ _ | exact Frugal.at' _ _ | exact Frugal.int32 _ | assumption
  | with_reducible refine Frugal.bind ?_ fun _ => ?_ | with_reducible refine Frugal.bind' ?_ fun _ => ?_ | with_reducible refine Frugal.opt ?_
  | with_reducible refine Frugal.maybe ?_ | with_reducible refine Frugal.rep ?_ _ | with_reducible refine Frugal.repI (fun _ => ?_) _ _
  | with_reducible refine Frugal.ite (fun _ => ?_) (fun _ => ?_)))

/-- `frugal`, with more leaves -/
syntax "frugal_leaf" "[" term,* "]" : tactic
macro_rules
  | `(tactic| frugal_leaf []) => `(tactic| fail)
  | `(tactic| frugal_leaf [$h]) => `(tactic| (first
    | with_reducible exact $h | with_reducible exact $h _ | with_reducible exact $h _ _ | with_reducible exact $h _ _ _ | with_reducible exact $h _ _ _ _))
  | `(tactic| frugal_leaf [$h, $hs,*]) => `(tactic| (first | frugal_leaf [$h] | frugal_leaf [$hs,*]))
syntax "frugal_with" "[" term,* "]" : tactic
macro_rules
  | `(tactic| frugal_with []) => `(tactic| fail)
  | `(tactic| frugal_with [$h]) => `(tactic| frugal_with [$h, $h])
  | `(tactic| frugal_with [$h, $hs,*]) => `(tactic| (repeat' (first
    | frugal_leaf [$h] | frugal_leaf [$hs,*]
    | exact Frugal.pure _ | exact Frugal.ret _ | exact Frugal.fail | exact Frugal.bad _ | exact Frugal.u _ | exact Frugal.u64 _ | exact Frugal.uev
    | exact Frugal.sev | exact Frugal.check _ | exact Frugal.ueRange _ _ | exact Frugal.at' _ _ | exact Frugal.int32 _ | assumption
    | with_reducible refine Frugal.bind ?_ fun _ => ?_ | with_reducible refine Frugal.bind' ?_ fun _ => ?_ | with_reducible refine Frugal.opt ?_
    | with_reducible refine Frugal.maybe ?_ | with_reducible refine Frugal.rep ?_ _ | with_reducible refine Frugal.repI (fun _ => ?_) _ _
    | with_reducible refine Frugal.ite (fun _ => ?_) (fun _ => ?_))))

end Prog
end H265
