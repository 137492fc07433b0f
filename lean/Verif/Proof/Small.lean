/-
Parser programs that do not overflow as long as the code numbers of the Exp-Golomb codes they read are in a given set.
-/
import Verif.Proof.Run
import Verif.Spec.ShortCodes
import Verif.Proof.Work

set_option autoImplicit false

namespace H265
open Spec

namespace Prog

/-- If all code numbers of ue(v) and se(v) codes satisfy `B`, then the program does not overflow, and its result satisfies `Q`. -/
def Small {α : Type} (B : Nat → Prop) (Q : α → Prop) : Prog α → Prop
  | ret a => Q a
  | fail => True
  | bad k => k ≠ .signedOverflow
  | read _ n k => (∀ v, v < 2 ^ n → Small B Q (k (some v))) ∧ Small B Q (k none)
  | ue k => (∀ c, B c → Small B Q (k (some c))) ∧ Small B Q (k none)
  | se k => (∀ c, B c → ∃ v, seOfUe c = some v ∧ Small B Q (k (some v))) ∧ Small B Q (k none)
  | peek _ k => ∀ v, Small B Q (k v)
  | remaining k => ∀ n, Small B Q (k n)
  | aligned k => ∀ b, Small B Q (k b)

variable {α β : Type} {B : Nat → Prop}

theorem Small.denote {n : Nat} {Q : α → Prop} {p : Prog α} : ∀ {r : List Bool}, p.Small (fun c => c < 2 ^ n - 1) Q → CodesBelow n p r →
    match p.denote r with
    | .ok a _ => Q a
    | .fail _ => True
    | .bad k => k ≠ .signedOverflow := by
  induction p with
  | ret a => intro r h hc; exact h
  | fail => intro r h hc; trivial
  | bad k => intro r h hc; exact h
  | read w m k ih =>
    intro r h hc
    unfold Prog.denote
    unfold CodesBelow at hc
    by_cases h0 : m = 0
    · rw [if_pos h0]; simp
    rw [if_neg h0]
    by_cases h1 : m ≤ w ∧ m ≤ r.length
    · rw [if_pos h1] at hc ⊢
      refine ih _ (h.1 _ ?_) hc
      refine Nat.lt_of_lt_of_eq (val_lt _) ?_
      rw [List.length_take, Nat.min_eq_left h1.2]
    · rw [if_neg h1] at hc ⊢; exact ih _ h.2 hc
  | ue k ih =>
    intro r h hc
    unfold Prog.denote
    unfold CodesBelow at hc
    cases hs : ueSplit r with
    | none => rw [hs] at hc; exact ih _ h.2 hc
    | some x => rw [hs] at hc; exact ih _ (h.1 _ hc.1) hc.2
  | se k ih =>
    intro r h hc
    unfold Prog.denote
    unfold CodesBelow at hc
    cases hs : ueSplit r with
    | none => rw [hs] at hc; exact ih _ h.2 hc
    | some x =>
      rw [hs] at hc
      obtain ⟨h1, h2⟩ := hc
      obtain ⟨v, hv, hk⟩ := h.1 _ h1
      rw [hv] at h2
      dsimp only
      rw [hv]
      exact ih _ hk h2
  | peek m k ih =>
    intro r h hc
    unfold Prog.denote
    unfold CodesBelow at hc
    by_cases h0 : m = 0
    · rw [if_pos h0]; simp
    rw [if_neg h0]
    by_cases h1 : m ≤ 32 ∧ m ≤ r.length
    · rw [if_pos h1] at hc ⊢; exact ih _ (h _) hc
    · rw [if_neg h1] at hc ⊢; exact ih _ (h _) hc
  | remaining k ih => intro r h hc; exact ih _ (h _) hc
  | aligned k ih => intro r h hc; exact ih _ (h _) hc

theorem Small.mono {Q R : α → Prop} {p : Prog α} (h : p.Small B Q) (hq : ∀ a, Q a → R a) : p.Small B R := by
  induction p with
  | ret a => exact hq _ h
  | fail => exact trivial
  | bad k => exact h
  | read w n k ih => exact ⟨fun v hv => ih _ (h.1 v hv), ih _ h.2⟩
  | ue k ih => exact ⟨fun v hv => ih _ (h.1 v hv), ih _ h.2⟩
  | se k ih => exact ⟨fun v hv => (h.1 v hv).imp fun x hx => ⟨hx.1, ih _ hx.2⟩, ih _ h.2⟩
  | peek n k ih => exact fun v => ih _ (h v)
  | remaining k ih => exact fun v => ih _ (h v)
  | aligned k ih => exact fun v => ih _ (h v)

theorem Small.bind' {Q : α → Prop} {R : β → Prop} {p : Prog α} {f : α → Prog β} (h : p.Small B Q) (hf : ∀ a, Q a → (f a).Small B R) : (p.bind f).Small B R := by
  induction p with
  | ret a => exact hf _ h
  | fail => exact trivial
  | bad k => exact h
  | read w n k ih => exact ⟨fun v hv => ih _ (h.1 v hv), ih _ h.2⟩
  | ue k ih => exact ⟨fun v hv => ih _ (h.1 v hv), ih _ h.2⟩
  | se k ih => exact ⟨fun v hv => (h.1 v hv).imp fun x hx => ⟨hx.1, ih _ hx.2⟩, ih _ h.2⟩
  | peek n k ih => exact fun v => ih _ (h v)
  | remaining k ih => exact fun v => ih _ (h v)
  | aligned k ih => exact fun v => ih _ (h v)

theorem Small.bind {Q : α → Prop} {R : β → Prop} {p : Prog α} {f : α → Prog β} (h : p.Small B Q) (hf : ∀ a, Q a → (f a).Small B R) : (p >>= f).Small B R :=
  Small.bind' h hf

theorem Small.attempt {Q : α → Prop} {p : Prog α} (h : p.Small B Q) : p.attempt.Small B (fun o => ∀ a, o = some a → Q a) := by
  induction p with
  | ret a => intro b hb; cases hb; exact h
  | fail => intro b hb; cases hb
  | bad k => exact h
  | read w n k ih => exact ⟨fun v hv => ih _ (h.1 v hv), ih _ h.2⟩
  | ue k ih => exact ⟨fun v hv => ih _ (h.1 v hv), ih _ h.2⟩
  | se k ih => exact ⟨fun v hv => (h.1 v hv).imp fun x hx => ⟨hx.1, ih _ hx.2⟩, ih _ h.2⟩
  | peek n k ih => exact fun v => ih _ (h v)
  | remaining k ih => exact fun v => ih _ (h v)
  | aligned k ih => exact fun v => ih _ (h v)

/-- no overflow, any result -/
abbrev Quiet (B : Nat → Prop) (p : Prog α) : Prop := p.Small B (fun _ => True)

theorem Small.quiet {Q : α → Prop} {p : Prog α} (h : p.Small B Q) : p.Quiet B := h.mono fun _ _ => trivial

theorem Quiet.ret (a : α) : (Prog.ret a).Quiet B := trivial
theorem Quiet.pure (a : α) : (Pure.pure a : Prog α).Quiet B := trivial
theorem Quiet.fail : (Prog.fail : Prog α).Quiet B := trivial
theorem Quiet.bind {p : Prog α} {f : α → Prog β} {R : β → Prop} (hp : p.Quiet B) (hf : ∀ a, (f a).Small B R) : (p >>= f).Small B R := Small.bind hp fun a _ => hf a
theorem Quiet.bind' {p : Prog α} {f : α → Prog β} {R : β → Prop} (hp : p.Quiet B) (hf : ∀ a, (f a).Small B R) : (p.bind f).Small B R := Small.bind hp fun a _ => hf a
theorem Small.ite {c : Prop} [Decidable c] {p q : Prog α} {R : α → Prop} (hp : c → p.Small B R) (hq : ¬ c → q.Small B R) : (if c then p else q).Small B R := by
  split
  · exact hp ‹_›
  · exact hq ‹_›
theorem Small.u (n : Nat) : (Prog.u n).Small B (fun v => v < 2 ^ n) := ⟨fun _ hv => hv, trivial⟩
theorem Quiet.u (n : Nat) : (Prog.u n).Quiet B := (Small.u n).quiet
theorem Quiet.u64 (n : Nat) : (Prog.u64 n).Quiet B := ⟨fun _ _ => trivial, trivial⟩
theorem Small.uev : Prog.uev.Small B B := ⟨fun _ hc => hc, trivial⟩
theorem Quiet.uev : Prog.uev.Quiet B := Small.uev.quiet
theorem Small.ueRange (lo hi : Nat) : (Prog.ueRange lo hi).Small B (fun v => B v ∧ lo ≤ v ∧ v ≤ hi) :=
  Small.uev.bind' fun _ hv => Small.ite (fun h => ⟨hv, h⟩) (fun _ => trivial)
theorem Quiet.ueRange (lo hi : Nat) : (Prog.ueRange lo hi).Quiet B := (Small.ueRange lo hi).quiet
theorem Small.check (c : Prop) [Decidable c] : (Prog.check c).Small B (fun _ => c) := Small.ite (fun h => h) (fun _ => trivial)
theorem Quiet.check (c : Prop) [Decidable c] : (Prog.check c).Quiet B := (Small.check c).quiet
theorem Quiet.opt {c : Prop} [Decidable c] {p : Prog α} {d : α} (hp : p.Quiet B) : (Prog.opt c p d).Quiet B := Small.ite (fun _ => hp) (fun _ => trivial)
theorem Quiet.maybe {c : Prop} [Decidable c] {p : Prog α} (hp : p.Quiet B) : (Prog.maybe c p).Quiet B :=
  Small.ite (fun _ => Quiet.bind' hp fun _ => Quiet.ret _) (fun _ => trivial)
theorem Small.rep {Q : α → Prop} {p : Prog α} (hp : p.Small B Q) : ∀ n, (Prog.rep n p).Small B (fun l => l.length = n ∧ ∀ a ∈ l, Q a)
  | 0 => ⟨rfl, by simp⟩
  | n + 1 => hp.bind fun a ha => (Small.rep hp n).bind fun l hl => ⟨by simp [hl.1], by
      intro b hb
      rw [List.mem_cons] at hb
      exact hb.elim (fun h => h ▸ ha) (hl.2 b)⟩
theorem Quiet.rep {p : Prog α} (hp : p.Quiet B) (n : Nat) : (Prog.rep n p).Quiet B := (Small.rep hp n).quiet
theorem Quiet.repI {p : Nat → Prog α} (hp : ∀ i, (p i).Quiet B) : ∀ n start, (Prog.repI start n p).Quiet B
  | 0, _ => trivial
  | n + 1, s => Quiet.bind (hp s) fun _ => Quiet.bind (Quiet.repI hp n (s + 1)) fun _ => Quiet.pure _
theorem Small.at' (l : List α) (i : Nat) : (Prog.at' l i).Small B (fun a => a ∈ l) := by
  unfold Prog.at'
  split
  · rename_i h; exact List.mem_of_getElem? h
  · simp [Small]
theorem Quiet.at' (l : List α) (i : Nat) : (Prog.at' l i).Quiet B := (Small.at' l i).quiet

theorem Small.sev {n : Nat} (hn : n ≤ 2 ^ 30) : Prog.sev.Small (fun c => c < n) (fun v => -(n : Int) < v ∧ v < n) := by
  refine ⟨fun c hc => ?_, trivial⟩
  have hc : c < n := hc
  by_cases h : c % 2 = 0
  · refine ⟨-(Int.ofNat (c / 2)), by rw [seOfUe, if_pos h], ?_⟩
    show -(n : Int) < _ ∧ _ < (n : Int)
    simp only [Int.ofNat_eq_natCast]; omega
  · refine ⟨((c : Int) + 1).tdiv 2, ?_, ?_⟩
    · rw [seOfUe, if_neg h]
      simp only
      rw [if_pos (show c < 2 ^ 31 by omega), if_neg (by omega)]
    · show -(n : Int) < _ ∧ _ < (n : Int)
      rw [Int.tdiv_eq_ediv_of_nonneg (by omega)]
      omega

/-- the rules, down to leaves -/
syntax "quiet_leaf" "[" term,* "]" : tactic
macro_rules
  | `(tactic| quiet_leaf []) => `(tactic| fail)
  | `(tactic| quiet_leaf [$h]) => `(tactic| (first
    | with_reducible exact $h | with_reducible exact $h _ | with_reducible exact $h _ _ | with_reducible exact $h _ _ _ | with_reducible exact $h _ _ _ _))
  | `(tactic| quiet_leaf [$h, $hs,*]) => `(tactic| (first | quiet_leaf [$h] | quiet_leaf [$hs,*]))
syntax "quiet_with" "[" term,* "]" : tactic
macro_rules
  | `(tactic| quiet_with []) => `(tactic| quiet_with [Quiet.uev, Quiet.uev])
  | `(tactic| quiet_with [$h]) => `(tactic| quiet_with [$h, $h])
  | `(tactic| quiet_with [$h, $hs,*]) => `(tactic| (repeat' (first
    | quiet_leaf [$h] | quiet_leaf [$hs,*]
    | exact Quiet.pure _ | exact Quiet.ret _ | exact Quiet.fail | exact Quiet.u _ | exact Quiet.u64 _ | exact Quiet.uev
    | exact Quiet.check _ | exact Quiet.ueRange _ _ | exact Quiet.at' _ _ | assumption
    | with_reducible refine Quiet.bind ?_ fun _ => ?_ | with_reducible refine Quiet.bind' ?_ fun _ => ?_ | with_reducible refine Quiet.opt ?_
    | with_reducible refine Quiet.maybe ?_ | with_reducible refine Quiet.rep ?_ _ | with_reducible refine Quiet.repI (fun _ => ?_) _ _
    | with_reducible refine Small.ite (fun _ => ?_) (fun _ => ?_))))

end Prog
end H265
