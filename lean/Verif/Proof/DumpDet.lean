/-
Texts that determine what they show: the words of two structures can only agree if the structures do.
-/
import Verif.Proof.DumpWords
import Verif.Spec.DumpTables

set_option autoImplicit false

namespace H265
open Spec

/-! ### Numbers can be read back -/

/-- value of a digit -/
def digitVal (c : Char) : Nat :=
  if c.toNat < 58 then c.toNat - 48 else c.toNat - 87

/-- the value of a word of digits in base `b` -/
def readBase (b : Nat) (s : List Char) : Nat := s.foldl (fun acc c => acc * b + digitVal c) 0

theorem digitVal_digitChar : ∀ k, k < 16 → digitVal (digitChar k) = k := by decide

theorem readBase_append (b : Nat) (s : List Char) (c : Char) : readBase b (s ++ [c]) = readBase b s * b + digitVal c := by
  simp [readBase]

theorem readBase_digitsAux (b : Nat) (hb : 1 < b) (hb' : b ≤ 16) : ∀ fuel n, n < fuel → readBase b (digitsAux b fuel n) = n := by
  intro fuel; induction fuel with
  | zero => intro n h; omega
  | succ fuel ih =>
    intro n h
    unfold digitsAux
    split
    · rename_i hlt; simp [readBase, digitVal_digitChar n (by omega)]
    · rename_i hge
      have hd : n / b < n := Nat.div_lt_self (by omega) hb
      rw [readBase_append, ih _ (by omega), digitVal_digitChar _ (by have := Nat.mod_lt n (show b > 0 by omega); omega)]
      rw [Nat.mul_comm]; exact Nat.div_add_mod n b

theorem readBase_putU (n : Nat) : readBase 10 (putU n) = n := readBase_digitsAux 10 (by decide) (by decide) _ _ (by omega)
theorem readBase_putX (n : Nat) : readBase 16 (putX n) = n := readBase_digitsAux 16 (by decide) (by decide) _ _ (by omega)

theorem readBase_zeros (b k : Nat) (s : List Char) : readBase b (List.replicate k '0' ++ s) = readBase b s := by
  induction k with
  | zero => rfl
  | succ k ih =>
    rw [← ih]; simp only [readBase, List.replicate_succ, List.cons_append, List.foldl_cons, Nat.zero_mul]; rfl

theorem readBase_hexadecimal (w n : Nat) : readBase 16 (hexadecimal w n) = n := by
  unfold hexadecimal; rw [readBase_zeros, ← putX_eq, readBase_putX]

theorem hexadecimal_inj {w n m : Nat} (h : hexadecimal w n = hexadecimal w m) : n = m := by
  rw [← readBase_hexadecimal w n, h, readBase_hexadecimal]

theorem putU_no_minus (n : Nat) : '-' ∉ putU n := by
  intro h
  obtain ⟨k, hk⟩ := digitsAux_mem _ _ _ _ h
  exact (digitChar_plain k).2.1 hk.symm

theorem putU_inj {n m : Nat} (h : putU n = putU m) : n = m := by rw [← readBase_putU n, h, readBase_putU]

theorem decimal_inj {v w : Int} (h : decimal v = decimal w) : v = w := by
  rw [← putD_decimal, ← putD_decimal] at h
  unfold putD at h
  split at h <;> split at h
  · have := putU_inj (List.cons.inj h).2; omega
  · exact absurd (h ▸ List.mem_cons_self) (putU_no_minus _)
  · exact absurd (h.symm ▸ List.mem_cons_self) (putU_no_minus _)
  · have := putU_inj h; omega

theorem int32_inj {v w : Nat} (hv : v < 2 ^ 32) (hw : w < 2 ^ 32) (h : int32 v = int32 w) : v = w := by
  unfold Spec.int32 at h
  split at h <;> split at h <;> omega

theorem decimal_ne_brace (v : Int) : decimal v ≠ "}".toList := by
  rw [← putD_decimal]
  intro h
  have : '}' ∈ putD v := by rw [h]; decide
  exact ((putD_word v).plain _ this).2.2.2 rfl

/-! ### Texts that determine a fact -/

/-- If the texts `f` and `g` agree, whatever follows them, then `P` holds and what follows agrees. -/
def Det (f g : Text) (P : Prop) : Prop := ∀ r t, f ++ r = g ++ t → P ∧ r = t

theorem Det.mono {f g : Text} {P Q : Prop} (h : Det f g P) (hpq : P → Q) : Det f g Q := fun r t e => ⟨hpq (h r t e).1, (h r t e).2⟩

theorem Det.eq {f g : Text} {P : Prop} (h : Det f g P) (e : f = g) : P := (h [] [] (by rw [e])).1

theorem det_refl (f : Text) : Det f f True := fun _ _ e => ⟨trivial, List.append_cancel_left e⟩

theorem det_nil {P : Prop} (h : P) : Det [] [] P := fun _ _ e => ⟨h, e⟩

theorem det_append {f g f' g' : Text} {P Q : Prop} (h : Det f g P) (h' : P → Det f' g' Q) : Det (f ++ f') (g ++ g') (P ∧ Q) := by
  intro r t e
  rw [List.append_assoc, List.append_assoc] at e
  obtain ⟨hp, e⟩ := h _ _ e
  obtain ⟨hq, e⟩ := h' hp _ _ e
  exact ⟨⟨hp, hq⟩, e⟩

theorem det_cons (w : List Char) {f g : Text} {P : Prop} (h : Det f g P) : Det (w :: f) (w :: g) P :=
  fun r t e => h r t (List.cons.inj e).2

theorem det_entry {name : String} {f g : Text} {P : Prop} (h : Det f g P) : Det (entry name f) (entry name g) P := det_cons _ h

theorem det_one {v w : Int} : Det (one v) (one w) (v = w) := fun _ _ e => ⟨decimal_inj (List.cons.inj e).1, (List.cons.inj e).2⟩
theorem det_oneNat {v w : Nat} : Det (oneNat v) (oneNat w) (v = w) := det_one.mono (fun h => Int.ofNat.inj h)
theorem det_one32 {v w : Nat} (hv : v < 2 ^ 32) (hw : w < 2 ^ 32) : Det (one32 v) (one32 w) (v = w) :=
  fun _ _ e => ⟨int32_inj hv hw (decimal_inj (List.cons.inj e).1), (List.cons.inj e).2⟩

theorem det_num {name : String} {v w : Int} : Det (num name v) (num name w) (v = w) := det_entry det_one
theorem det_numNat {name : String} {v w : Nat} : Det (Spec.num name v) (Spec.num name w) (v = w) := det_entry det_oneNat
theorem det_u32 {name : String} {v w : Nat} (hv : v < 2 ^ 32) (hw : w < 2 ^ 32) : Det (u32 name v) (u32 name w) (v = w) := det_entry (det_one32 hv hw)

/-- a text that cannot be taken for a closing brace -/
def Opens (f : Text) : Prop := ∃ w ws, f = w :: ws ∧ w ≠ "}".toList

theorem Opens.one (v : Int) : Opens (one v) := ⟨_, _, rfl, decimal_ne_brace v⟩
theorem Opens.oneNat (v : Nat) : Opens (oneNat v) := ⟨_, _, rfl, decimal_ne_brace v⟩
theorem Opens.one32 (v : Nat) : Opens (one32 v) := ⟨_, _, rfl, decimal_ne_brace _⟩
theorem Opens.row {α : Type} (f : α → Text) (l : List α) : Opens (row f l) := ⟨_, _, rfl, by decide⟩

/-- The elements up to a closing brace. -/
theorem det_items {α : Type} {f : α → Text} {l m : List α} (hl : ∀ x ∈ l, ∀ y ∈ m, Det (f x) (f y) (x = y)) (ho : ∀ x, Opens (f x)) :
    Det (l.flatMap f ++ ["}".toList]) (m.flatMap f ++ ["}".toList]) (l = m) := by
  induction l generalizing m with
  | nil =>
    intro r t e
    cases m with
    | nil => exact ⟨rfl, (List.cons.inj e).2⟩
    | cons y m =>
      obtain ⟨w, ws, hw, hne⟩ := ho y
      rw [List.flatMap_cons, hw] at e
      exact absurd (List.cons.inj e).1.symm hne
  | cons x l ih =>
    intro r t e
    cases m with
    | nil =>
      obtain ⟨w, ws, hw, hne⟩ := ho x
      rw [List.flatMap_cons, hw] at e
      exact absurd (List.cons.inj e).1 hne
    | cons y m =>
      simp only [List.flatMap_cons, List.append_assoc] at e
      obtain ⟨hxy, e⟩ := hl x (by simp) y (by simp) _ _ e
      obtain ⟨hlm, e⟩ := ih (m := m) (fun x hx y hy => hl x (by simp [hx]) y (by simp [hy])) r t (by simpa only [List.append_assoc] using e)
      exact ⟨by rw [hxy, hlm], e⟩

theorem det_row {α : Type} {f : α → Text} {l m : List α} (hl : ∀ x ∈ l, ∀ y ∈ m, Det (f x) (f y) (x = y)) (ho : ∀ x, Opens (f x)) :
    Det (row f l) (row f m) (l = m) := by
  have := det_cons "{".toList (det_items hl ho)
  simpa [Spec.row, braces] using this

theorem det_listed {α : Type} {name : String} {f : α → Text} {l m : List α} (hl : ∀ x ∈ l, ∀ y ∈ m, Det (f x) (f y) (x = y)) (ho : ∀ x, Opens (f x)) :
    Det (listed name f l) (listed name f m) (l = m) := det_cons _ (det_row hl ho)

theorem det_list {name : String} {l m : List Int} : Det (listed name Spec.one l) (listed name Spec.one m) (l = m) :=
  det_listed (fun _ _ _ _ => det_one) Opens.one
theorem det_listNat {name : String} {l m : List Nat} : Det (listed name Spec.oneNat l) (listed name Spec.oneNat m) (l = m) :=
  det_listed (fun _ _ _ _ => det_oneNat) Opens.oneNat
theorem det_list32 {name : String} {l m : List Nat} (hl : ∀ x ∈ l, x < 2 ^ 32) (hm : ∀ x ∈ m, x < 2 ^ 32) :
    Det (listed name Spec.one32 l) (listed name Spec.one32 m) (l = m) :=
  det_listed (fun x hx y hy => det_one32 (hl x hx) (hm y hy)) Opens.one32
theorem det_rows32 {name : String} {l m : List (List Nat)} (hl : ∀ x ∈ l, ∀ v ∈ x, v < 2 ^ 32) (hm : ∀ x ∈ m, ∀ v ∈ x, v < 2 ^ 32) :
    Det (listed name (Spec.row Spec.one32) l) (listed name (Spec.row Spec.one32) m) (l = m) :=
  det_listed (fun x hx y hy => det_row (fun a ha b hb => det_one32 (hl x hx a ha) (hm y hy b hb)) Opens.one32) (Opens.row _)
theorem det_rows {name : String} {l m : List (List Int)} : Det (listed name (Spec.row Spec.one) l) (listed name (Spec.row Spec.one) m) (l = m) :=
  det_listed (fun _ _ _ _ => det_row (fun _ _ _ _ => det_one) Opens.one) (Opens.row _)

theorem det_block {name : String} {fs gs : List Text} {P : Prop} (h : Det fs.flatten gs.flatten P) : Det (block name fs) (block name gs) P := by
  intro r t e
  simp only [Spec.block, braces, List.append_assoc] at e
  have e := List.append_cancel_left e
  obtain ⟨hp, e⟩ := h _ _ (List.append_cancel_left e)
  exact ⟨hp, List.append_cancel_left e⟩

theorem det_opt {c c' : Prop} [Decidable c] [Decidable c'] {fs gs : List Text} {P : Prop} (hc : c ↔ c') (h : c → c' → Det fs.flatten gs.flatten P)
    (hn : ¬ c → ¬ c' → P) : Det (opt c fs) (opt c' gs) P := by
  unfold Spec.opt
  by_cases k : c
  · rw [if_pos k, if_pos (hc.1 k)]; exact h k (hc.1 k)
  · rw [if_neg k, if_neg (fun k' => k (hc.2 k'))]; exact det_nil (hn k (fun k' => k (hc.2 k')))

theorem det_some {α : Type} {o o' : Option α} {f g : α → Text} {E : α → α → Prop} (hs : o.isSome = o'.isSome)
    (h : ∀ x y, o = some x → o' = some y → Det (f x) (g y) (E x y)) : Det (some? o f) (some? o' g) (∀ x y, o = some x → o' = some y → E x y) := by
  cases o with
  | none =>
    cases o' with
    | none => exact det_nil (by intro x y h; cases h)
    | some y => cases hs
  | some x =>
    cases o' with
    | none => cases hs
    | some y =>
      have := h x y rfl rfl
      simp only [Spec.some?, Option.toList, List.flatMap_cons, List.flatMap_nil, List.append_nil]
      exact this.mono (by intro e x' y' hx hy; cases hx; cases hy; exact e)

/-- Lists of parts, of the same number. -/
theorem det_parts {α : Type} {f g : α → Text} {E : α → α → Prop} : ∀ {l m : List α}, l.length = m.length →
    (∀ (i : Nat) (x y : α), l[i]? = some x → m[i]? = some y → Det (f x) (g y) (E x y)) →
    Det (l.flatMap f) (m.flatMap g) (∀ (i : Nat) (x y : α), l[i]? = some x → m[i]? = some y → E x y)
  | [], [], _, _ => det_nil (by simp)
  | [], _ :: _, h, _ => by cases h
  | _ :: _, [], h, _ => by cases h
  | x :: l, y :: m, hlen, h => by
    have h0 := h 0 x y rfl rfl
    have ht := det_parts (f := f) (g := g) (E := E) (l := l) (m := m) (by simpa using hlen) (fun i x y hx hy => h (i + 1) x y hx hy)
    simp only [List.flatMap_cons]
    refine (det_append h0 (fun _ => ht)).mono (fun ⟨h1, h2⟩ i a b ha hb => ?_)
    cases i with
    | zero => cases ha; cases hb; exact h1
    | succ i => exact h2 i a b ha hb

theorem det_partsEq {α : Type} {f : α → Text} {l m : List α} (hlen : l.length = m.length)
    (h : ∀ x ∈ l, ∀ y ∈ m, Det (f x) (f y) (x = y)) : Det (l.flatMap f) (m.flatMap f) (l = m) := by
  refine (det_parts (E := Eq) hlen (fun i x y hx hy => h x (List.mem_of_getElem? hx) y (List.mem_of_getElem? hy))).mono (fun e => ?_)
  refine List.ext_getElem? (fun i => ?_)
  cases hx : l[i]? with
  | none =>
    rw [List.getElem?_eq_none_iff] at hx
    rw [List.getElem?_eq_none (by omega)]
  | some x =>
    cases hy : m[i]? with
    | none =>
      rw [List.getElem?_eq_none_iff] at hy
      obtain ⟨hi, _⟩ := List.getElem?_eq_some_iff.1 hx; omega
    | some y => rw [e i x y hx hy]

/-- Words up to a known one. -/
theorem split_at {α : Type} {p : α} : ∀ {f g : List α} {r t : List α}, p ∉ f → p ∉ g → f ++ p :: r = g ++ p :: t → f = g ∧ r = t
  | [], [], _, _, _, _, e => ⟨rfl, (List.cons.inj e).2⟩
  | [], y :: g, _, _, _, hg, e => absurd (List.cons.inj e).1 (fun h => hg (by simp [h]))
  | x :: f, [], _, _, hf, _, e => absurd (List.cons.inj e).1 (fun h => hf (by simp [h]))
  | x :: f, y :: g, r, t, hf, hg, e => by
    obtain ⟨h, e⟩ := List.cons.inj e
    obtain ⟨h', e⟩ := split_at (fun h => hf (by simp [h])) (fun h => hg (by simp [h])) e
    exact ⟨by rw [h, h'], e⟩

/-! ### Steps through a list of parts -/

theorem step {f g : Text} {fs gs : List Text} {P : Prop} {r t : Text} (h : Det f g P) (e : (f :: fs).flatten ++ r = (g :: gs).flatten ++ t) :
    P ∧ fs.flatten ++ r = gs.flatten ++ t := h _ _ (by simpa using e)

theorem steps_nil {r t : Text} (e : ([] : List Text).flatten ++ r = ([] : List Text).flatten ++ t) : r = t := e

/-! ### Values of absent elements, bounds -/

theorem Spec.Opt.same {c c' v v' d d' P : Prop} (h : Opt c v d) (h' : Opt c' v' d') (hn : ¬ c) (hn' : ¬ c') (k : d → d' → P) : P := k (h.absent hn) (h'.absent hn')

theorem Spec.Opt.either {c v d P : Prop} (h : Opt c v d) (hv : v → P) (hd : d → P) : P := by
  by_cases k : c
  · exact hv (h.present k)
  · exact hd (h.absent k)

theorem Spec.Maybe.same {α : Type} {c c' : Prop} {V V' : α → Prop} {o o' : Option α} (h : Maybe c V o) (h' : Maybe c' V' o') (k : c ↔ c') : o.isSome = o'.isSome := by
  have := h.present; have := h'.present
  cases o <;> cases o' <;> simp_all

theorem Spec.Maybe.none {α : Type} {c : Prop} {V : α → Prop} {o : Option α} (h : Maybe c V o) (k : ¬ c) : o = none := by
  cases o with
  | none => rfl
  | some x => exact absurd (h.present.1 rfl) k

theorem option_ext {α : Type} {o o' : Option α} (hs : o.isSome = o'.isSome) (h : ∀ x y, o = some x → o' = some y → x = y) : o = o' := by
  cases o <;> cases o' <;> simp_all

/-- the columns of two tables of records agree -/
theorem cols {α β γ : Type} {l m : List α} {f : α → β} {g : α → γ} (h : l.map f = m.map f) (h' : l.map g = m.map g) :
    l.map (fun x => (f x, g x)) = m.map (fun x => (f x, g x)) := by
  induction l generalizing m with
  | nil => cases m with
    | nil => rfl
    | cons => cases h
  | cons x l ih => cases m with
    | nil => cases h
    | cons y m =>
      simp only [List.map_cons, List.cons.injEq] at h h' ⊢
      exact ⟨by rw [h.1, h'.1], ih h.2 h'.2⟩

theorem cols_inj {α β : Type} {l m : List α} {f : α → β} (hf : ∀ x y, f x = f y → x = y) (h : l.map f = m.map f) : l = m := by
  induction l generalizing m with
  | nil => cases m with
    | nil => rfl
    | cons => cases h
  | cons x l ih => cases m with
    | nil => cases h
    | cons y m =>
      simp only [List.map_cons, List.cons.injEq] at h
      rw [hf _ _ h.1, ih h.2]

end H265
