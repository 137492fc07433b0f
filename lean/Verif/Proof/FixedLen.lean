import Verif.Proof.Headers
namespace H265
open Spec

/-- a program of fixed-size reads cannot fail while enough bits are left -/
def FixedLen {α : Type} (p : Prog α) (n : Nat) : Prop := ∀ r, n ≤ r.length → ∃ a r', p.denote r = .ok a r' ∧ r'.length + n = r.length

theorem FixedLen.u {n : Nat} (h0 : 0 < n) (h1 : n ≤ 32) : FixedLen (Prog.u n) n := by
  intro r hr
  rw [Prog.denote_u h0, if_pos ⟨h1, hr⟩]
  exact ⟨_, _, rfl, by rw [List.length_drop]; omega⟩
theorem FixedLen.pure {α : Type} (a : α) : FixedLen (Pure.pure a : Prog α) 0 := fun r _ => ⟨a, r, rfl, rfl⟩
theorem FixedLen.bind {α β : Type} {p : Prog α} {f : α → Prog β} {n m : Nat} (hp : FixedLen p n) (hf : ∀ a, FixedLen (f a) m) :
    FixedLen (p >>= f) (n + m) := by
  intro r hr
  obtain ⟨a, r', h1, h2⟩ := hp r (by omega)
  obtain ⟨b, r'', h3, h4⟩ := hf a r' (by omega)
  rw [Prog.denote_bind, h1, ARes.ok_bind]
  exact ⟨b, r'', h3, by omega⟩
theorem FixedLen.rep {α : Type} {p : Prog α} {n : Nat} (hp : FixedLen p n) (k : Nat) : FixedLen (Prog.rep k p) (k * n) := by
  induction k with
  | zero => intro r _; exact ⟨[], r, rfl, by omega⟩
  | succ k ih =>
    have := FixedLen.bind hp (fun a => FixedLen.bind ih (fun l => FixedLen.pure (a :: l)))
    have e : (k + 1) * n = n + (k * n + 0) := by rw [Nat.succ_mul]; omega
    rw [e]; exact this

theorem FixedLen.wide {k : Nat} (h0 : 0 < k) (h1 : k ≤ 32) : FixedLen (wide k) (k + 32) :=
  FixedLen.bind (FixedLen.u h0 h1) (fun _ => FixedLen.bind (m := 0) (FixedLen.u (n := 32) (by decide) (by decide)) (fun _ => FixedLen.pure _))

theorem FixedLen.nil {α β : Type} {a : α} {f : α → Prog β} {n : Nat} (h : FixedLen (f a) n) : FixedLen (Prog.ret a >>= f) n := h

theorem opt_pos {α : Type} {c : Prop} [Decidable c] (h : c) (p : Prog α) (d : α) : Prog.opt c p d = p := if_pos h
theorem opt_neg {α : Type} {c : Prop} [Decidable c] (h : ¬ c) (p : Prog α) (d : α) : Prog.opt c p d = Prog.ret d := if_neg h

theorem FixedLen.bind' {α β : Type} {p : Prog α} {f : α → Prog β} {n N : Nat} (hp : FixedLen p n) (hf : ∀ a, FixedLen (f a) (N - n))
    (h : n ≤ N) : FixedLen (p >>= f) N := by
  have := FixedLen.bind hp hf
  rwa [show n + (N - n) = N by omega] at this

theorem FixedLen.pure' {α : Type} {N : Nat} (h : N = 0) (a : α) : FixedLen (Pure.pure a : Prog α) N := by
  subst h; exact FixedLen.pure a

theorem FixedLen.optPos {α β : Type} {c : Prop} [Decidable c] {p : Prog α} {d : α} {f : α → Prog β} {n N : Nat} (hc : c)
    (hp : FixedLen p n) (hf : ∀ a, FixedLen (f a) (N - n)) (h : n ≤ N) : FixedLen (Prog.opt c p d >>= f) N := by
  rw [opt_pos hc]; exact FixedLen.bind' hp hf h

theorem FixedLen.optNeg {α β : Type} {c : Prop} [Decidable c] {p : Prog α} {d : α} {f : α → Prog β} {N : Nat} (hc : ¬ c)
    (hf : FixedLen (f d) N) : FixedLen (Prog.opt c p d >>= f) N := by
  rw [opt_neg hc]; exact hf

codec_opaque
attribute [local irreducible] FixedLen H265.wide isProfile

macro "fixed_step" : tactic => `(tactic| first
  | refine FixedLen.bind' (FixedLen.u (by decide) (by decide)) (fun _ => ?_) (by decide)
  | refine FixedLen.bind' (FixedLen.wide (by decide) (by decide)) (fun _ => ?_) (by decide)
  | refine FixedLen.bind' (FixedLen.rep (FixedLen.u (by decide) (by decide)) _) (fun _ => ?_) (by decide)
  | refine FixedLen.optPos (by assumption) (FixedLen.u (by decide) (by decide)) (fun _ => ?_) (by decide)
  | refine FixedLen.optPos (by assumption) (FixedLen.wide (by decide) (by decide)) (fun _ => ?_) (by decide)
  | refine FixedLen.optNeg (by assumption) ?_
  | exact FixedLen.pure' (by decide) _)
macro "fixed" : tactic => `(tactic| repeat fixed_step)

theorem parseConstraints_fixed (idc : Nat) (flags : List Nat) : FixedLen (parseConstraints idc flags) 43 := by
  unfold parseConstraints
  split
  · unfold parseConstraintsExt
    by_cases h : isProfile idc flags 5 ∨ isProfile idc flags 9 ∨ isProfile idc flags 10 ∨ isProfile idc flags 11
    · have h' := not_not_intro h
      fixed
    · fixed
  · split
    · unfold parseConstraintsMain10
      fixed
    · unfold parseConstraintsOther
      fixed

theorem parseProfileInfo_fixed : FixedLen parseProfileInfo 88 := by
  unfold parseProfileInfo
  refine FixedLen.bind' (FixedLen.u (by decide) (by decide)) (fun _ => ?_) (by decide)
  refine FixedLen.bind' (FixedLen.u (by decide) (by decide)) (fun _ => ?_) (by decide)
  refine FixedLen.bind' (FixedLen.u (by decide) (by decide)) (fun idc => ?_) (by decide)
  refine FixedLen.bind' (FixedLen.rep (FixedLen.u (by decide) (by decide)) _) (fun fl => ?_) (by decide)
  refine FixedLen.bind' (FixedLen.u (by decide) (by decide)) (fun _ => ?_) (by decide)
  refine FixedLen.bind' (FixedLen.u (by decide) (by decide)) (fun _ => ?_) (by decide)
  refine FixedLen.bind' (FixedLen.u (by decide) (by decide)) (fun _ => ?_) (by decide)
  refine FixedLen.bind' (FixedLen.u (by decide) (by decide)) (fun _ => ?_) (by decide)
  refine FixedLen.bind' (parseConstraints_fixed _ _) (fun _ => ?_) (by decide)
  by_cases h : (isProfile idc fl 1 ∨ isProfile idc fl 2 ∨ isProfile idc fl 3 ∨ isProfile idc fl 4 ∨
    isProfile idc fl 5 ∨ isProfile idc fl 9 ∨ isProfile idc fl 11)
  · have h' := not_not_intro h
    fixed
  · fixed


end H265
