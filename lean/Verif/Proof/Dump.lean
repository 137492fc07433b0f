/-
The printing primitives: numbers can be read back, texts can be taken apart.
-/
import Verif.Model.Dump
import Verif.Spec.Dump

set_option autoImplicit false

namespace H265
open Spec

/-! ### Numbers -/

/-- characters of a printed value -/
def Plain (c : Char) : Prop := c ≠ ' ' ∧ c ≠ '\n' ∧ c ≠ '{' ∧ c ≠ '}'

instance (c : Char) : Decidable (Plain c) := by unfold Plain; infer_instance

/-- a printed value: a non-empty word without braces -/
structure Word (w : List Char) : Prop where
  ne : w ≠ []
  plain : ∀ c ∈ w, Plain c

theorem digitChar_plain (n : Nat) : Plain (digitChar n) ∧ digitChar n ≠ '-' ∧ digitChar n ≠ '(' ∧ digitChar n ≠ '.' := by
  by_cases h : n < 16
  · revert n; decide
  · have : digitChar n = 'f' := by unfold digitChar; split <;> first | omega | rfl
    rw [this]; decide

theorem digitsAux_mem (b : Nat) : ∀ fuel n c, c ∈ digitsAux b fuel n → ∃ k, c = digitChar k := by
  intro fuel; induction fuel with
  | zero => intro n c h; simp [digitsAux] at h
  | succ fuel ih =>
    intro n c h
    unfold digitsAux at h
    split at h
    · simp at h; exact ⟨_, h⟩
    · simp at h; rcases h with h | h
      · exact ih _ _ h
      · exact ⟨_, h⟩

theorem digitsAux_ne (b : Nat) (fuel n : Nat) (h : 0 < fuel) : digitsAux b fuel n ≠ [] := by
  cases fuel with
  | zero => omega
  | succ f => unfold digitsAux; split <;> simp

theorem putU_word (n : Nat) : Word (putU n) :=
  ⟨digitsAux_ne _ _ _ (by omega), fun c hc => by obtain ⟨k, rfl⟩ := digitsAux_mem _ _ _ _ hc; exact (digitChar_plain k).1⟩
theorem putX_word (n : Nat) : Word (putX n) :=
  ⟨digitsAux_ne _ _ _ (by omega), fun c hc => by obtain ⟨k, rfl⟩ := digitsAux_mem _ _ _ _ hc; exact (digitChar_plain k).1⟩

theorem putD_word (n : Int) : Word (putD n) := by
  unfold putD
  split
  · refine ⟨by simp, fun c hc => ?_⟩
    rcases List.mem_cons.1 hc with rfl | hc
    · decide
    · exact (putU_word _).plain c hc
  · exact putU_word _

theorem putI_word (n : Nat) : Word (putI n) := putD_word _

theorem zeroPad_mem {w : Nat} {s : List Char} {c : Char} (h : c ∈ zeroPad w s) : c = '0' ∨ c ∈ s := by
  unfold zeroPad at h
  rcases List.mem_append.1 h with h | h
  · exact .inl (List.eq_of_mem_replicate h)
  · exact .inr h

theorem zeroPad_word {w : Nat} {s : List Char} (h : Word s) : Word (zeroPad w s) :=
  ⟨by unfold zeroPad; simp [h.ne], fun c hc => by
    rcases zeroPad_mem hc with rfl | hc
    · decide
    · exact h.plain c hc⟩

theorem putX0_word (w n : Nat) : Word (putX0 w n) := zeroPad_word (putX_word n)

theorem putF_word (d n : Nat) : Word (putF d n) := by
  refine ⟨by unfold putF; simp, fun c hc => ?_⟩
  unfold putF at hc
  rcases List.mem_append.1 hc with hc | hc
  · exact (putU_word _).plain c hc
  · rcases List.mem_cons.1 hc with rfl | hc
    · decide
    · exact (zeroPad_word (putU_word _)).plain c hc

/-! ### Taking a text apart -/

/-- the beginning of a text that may follow a value: nothing or a blank -/
def Sep (r : List Char) : Prop := r = [] ∨ (∃ t, r = ' ' :: t) ∨ ∃ t, r = '\n' :: t

theorem Sep.nil : Sep [] := .inl rfl
theorem Sep.space (t : List Char) : Sep (' ' :: t) := .inr (.inl ⟨t, rfl⟩)
theorem Sep.indent (lvl : Int) (t : List Char) : Sep (indentText lvl ++ t) := by
  unfold indentText; split
  · exact .inr (.inl ⟨t, rfl⟩)
  · exact .inr (.inr ⟨_, rfl⟩)

/-! ### Documents -/

/-- the text is empty or begins with a blank -/
def Spaced (x : Dump) : Prop := ∀ d lvl r, x = .ok d → Sep r → Sep (d.render lvl ++ r)

theorem Spaced.seq {l : List Dump} (h : ∀ x ∈ l, Spaced x) : Spaced (Dump.seq l) := by
  induction l with
  | nil =>
    intro d lvl r hd hr
    simp only [Dump.seq, Except.ok.injEq] at hd; subst hd
    simpa [Doc.render] using hr
  | cons x l ih =>
    intro d lvl r hd hr
    unfold Dump.seq at hd
    cases hx : x with
    | error k => simp [hx] at hd
    | ok a =>
      cases hl : Dump.seq l with
      | error k => simp [hx, hl] at hd
      | ok b =>
        simp only [hx, hl, Except.ok.injEq] at hd; subst hd
        simp only [Doc.render, List.append_assoc]
        exact h x (by simp) a lvl _ hx (ih (fun x hx => h x (by simp [hx])) b lvl r hl hr)

theorem Spaced.fld (name : String) (v : List Char) : Spaced (Dump.fld name v) := by
  intro d lvl r hd hr
  simp only [Dump.fld, Except.ok.injEq] at hd; subst hd
  simp only [Doc.render, List.append_assoc]; exact Sep.indent _ _
theorem Spaced.lst {α : Type} (name : String) (f : α → List Char) (l : List α) : Spaced (Dump.lst name f l) := by
  intro d lvl r hd hr
  simp only [Dump.lst, Except.ok.injEq] at hd; subst hd
  simp only [Doc.render, List.append_assoc]; exact Sep.indent _ _
theorem Spaced.on (x : Dump) : Spaced (Dump.on x) := by
  intro d lvl r hd hr
  unfold Dump.on Dump.seq Dump.seq at hd
  cases hx : x with
  | error k => simp [hx] at hd
  | ok a =>
    simp only [hx, Dump.seq, Except.ok.injEq] at hd; subst hd
    simp only [Doc.render, List.append_assoc]; exact Sep.indent _ _
theorem Spaced.nil : Spaced (.ok .nil) := by
  intro d lvl r hd hr; cases hd; simpa [Doc.render] using hr
theorem Spaced.ind : Spaced (.ok .ind) := by
  intro d lvl r hd hr; cases hd; simp only [Doc.render]; exact Sep.indent _ _
theorem Spaced.cond {c : Prop} [Decidable c] {l : List Dump} (h : ∀ x ∈ l, Spaced x) : Spaced (Dump.cond c l) := by
  unfold Dump.cond; split
  · exact Spaced.seq h
  · exact Spaced.nil
theorem Spaced.deref {α : Type} {o : Option α} {f : α → Dump} (h : ∀ a, Spaced (f a)) : Spaced (Dump.deref o f) := by
  cases o with
  | none => intro d lvl r hd; cases hd
  | some a => exact h a
theorem Spaced.ifSome {α : Type} {o : Option α} {f : α → Dump} (h : ∀ a, Spaced (f a)) : Spaced (Dump.ifSome o f) := by
  cases o with
  | none => exact Spaced.nil
  | some a => exact h a
theorem Spaced.each {α : Type} {l : List α} {f : α → Dump} (h : ∀ a, Spaced (f a)) : Spaced (Dump.each l f) :=
  Spaced.seq (fun x hx => by obtain ⟨a, _, rfl⟩ := List.mem_map.1 hx; exact h a)
theorem Spaced.upTo {α : Type} {n : Nat} {l : List α} {f : Nat → α → Dump} (h : ∀ i a, Spaced (f i a)) : Spaced (Dump.upTo n l f) := by
  unfold Dump.upTo; split
  · refine Spaced.seq (fun x hx => ?_)
    obtain ⟨i, hi, rfl⟩ := List.mem_mapIdx.1 hx; exact h _ _
  · intro d lvl r hd; cases hd

theorem seq_cons_ok {x : Dump} {xs : List Dump} {d : Doc} (h : Dump.seq (x :: xs) = .ok d) :
    ∃ a b, x = .ok a ∧ Dump.seq xs = .ok b ∧ d = .cat a b := by
  unfold Dump.seq at h
  cases hx : x with
  | error k => simp [hx] at h
  | ok a =>
    cases hl : Dump.seq xs with
    | error k => simp [hx, hl] at h
    | ok b => simp only [hx, hl, Except.ok.injEq] at h; exact ⟨a, b, rfl, rfl, h.symm⟩

end H265
