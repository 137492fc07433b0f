/-
The words of a dump.
-/
import Verif.Proof.DumpLayout
import Verif.Spec.DumpText

set_option autoImplicit false

namespace H265
open Spec

/-! ### Numbers -/

theorem toDigitsCore_eq (b : Nat) (hb : b = 10 ∨ b = 16) : ∀ fuel n ds, n < fuel → Nat.toDigitsCore b fuel n ds = digitsAux b fuel n ++ ds := by
  have hd : ∀ k, k < b → Nat.digitChar k = digitChar k := by
    intro k hk
    have h : ∀ k, k < 16 → Nat.digitChar k = digitChar k := by decide
    exact h k (by omega)
  intro fuel; induction fuel with
  | zero => intro n ds h; omega
  | succ fuel ih =>
    intro n ds h
    unfold digitsAux
    simp only [Nat.toDigitsCore]
    split
    · rename_i h0
      have hlt : n < b := by
        rcases Nat.div_eq_zero_iff.1 h0 with h | h
        · omega
        · exact h
      rw [if_pos hlt, Nat.mod_eq_of_lt hlt, hd n hlt]; rfl
    · rename_i h0
      have hge : ¬ n < b := fun h => h0 (Nat.div_eq_of_lt h)
      rw [if_neg hge, ih _ _ (by have : n / b < n := Nat.div_lt_self (by omega) (by omega)
                                 omega), hd _ (Nat.mod_lt _ (by omega))]
      simp

theorem putU_eq (n : Nat) : putU n = Nat.toDigits 10 n := by
  unfold putU Nat.toDigits
  rw [toDigitsCore_eq 10 (.inl rfl) _ _ _ (by omega), List.append_nil]

theorem putX_eq (n : Nat) : putX n = Nat.toDigits 16 n := by
  unfold putX Nat.toDigits
  rw [toDigitsCore_eq 16 (.inr rfl) _ _ _ (by omega), List.append_nil]

theorem putU_decimal (n : Nat) : putU n = decimal n := by
  rw [putU_eq]; unfold decimal
  show _ = (Int.repr (n : Int)).toList
  unfold Int.repr
  simp [Nat.repr]

theorem putD_decimal (n : Int) : putD n = decimal n := by
  unfold putD
  split
  · rename_i h
    rw [putU_eq]; unfold decimal
    show _ = (Int.repr n).toList
    cases n with
    | ofNat m => exact absurd h (by simp)
    | negSucc m => simp [Int.repr, Nat.repr, Int.neg_negSucc]
  · rename_i h
    rw [putU_decimal]; congr 1; omega

theorem putI_decimal (n : Nat) : putI n = decimal (int32 n) := by
  unfold putI; rw [putD_decimal]; rfl

theorem putX0_hex (w n : Nat) : putX0 w n = hexadecimal w n := by
  unfold putX0 zeroPad hexadecimal; rw [putX_eq]

theorem putF_fraction (d n : Nat) : putF d n = fraction d n := by
  unfold putF zeroPad fraction
  rw [putU_decimal, putU_decimal]; rfl

/-! ### Words -/

/-- no blanks -/
def Solid (w : List Char) : Prop := w ≠ [] ∧ ∀ c ∈ w, blank c = false

theorem Word.solid {w : List Char} (h : Word w) : Solid w :=
  ⟨h.ne, fun c hc => by
    have := h.plain c hc
    simp [blank, this.1, this.2.1]⟩

theorem wordsFrom_solid {w : List Char} (h : ∀ c ∈ w, blank c = false) (cur t : List Char) : wordsFrom cur (w ++ t) = wordsFrom (cur ++ w) t := by
  induction w generalizing cur with
  | nil => simp
  | cons c w ih =>
    simp only [List.cons_append, wordsFrom]
    rw [h c (by simp)]
    simp only [Bool.false_eq_true, if_false]
    rw [ih (fun c hc => h c (by simp [hc]))]; simp

theorem words_solid {w : List Char} (h : Solid w) : words w = [w] := by
  have := wordsFrom_solid h.2 [] []
  simp only [List.append_nil, List.nil_append] at this
  unfold words
  rw [this]; simp [wordsFrom, h.1]

theorem wordsFrom_sep (a : List Char) : ∀ (cur b : List Char), Sep b → wordsFrom cur (a ++ b) = wordsFrom cur a ++ words b := by
  induction a with
  | nil =>
    intro cur b hb
    rcases hb with rfl | ⟨t, rfl⟩ | ⟨t, rfl⟩
    · simp [words, wordsFrom]
    · have h1 := wordsFrom_blank cur [' '] (by simp) (by simp [blank]) t
      have h2 := wordsFrom_blank [] [' '] (by simp) (by simp [blank]) t
      simp only [List.cons_append, List.nil_append] at h1 h2 ⊢
      rw [h1, words, h2]; simp [wordsFrom]
    · have h1 := wordsFrom_blank cur ['\n'] (by simp) (by simp [blank]) t
      have h2 := wordsFrom_blank [] ['\n'] (by simp) (by simp [blank]) t
      simp only [List.cons_append, List.nil_append] at h1 h2 ⊢
      rw [h1, words, h2]; simp [wordsFrom]
  | cons c a ih =>
    intro cur b hb
    simp only [List.cons_append, wordsFrom]
    split
    · split
      · exact ih _ _ hb
      · rw [ih _ _ hb]; rfl
    · exact ih _ _ hb

theorem words_sep (a : List Char) {b : List Char} (h : Sep b) : words (a ++ b) = words a ++ words b := wordsFrom_sep a [] b h

theorem words_space (t : List Char) : words (' ' :: t) = words t := by
  have := wordsFrom_blank [] [' '] (by simp) (by simp [blank]) t
  simpa [words] using this

theorem words_nil : words [] = [] := rfl

/-- the words of a statement -/
def Says (x : Dump) (ws : Text) : Prop := ∀ d, x = .ok d → words (d.render (-1)) = ws

/-- a sequence of statements -/
structure Lists (l : List Dump) (ts : List Text) : Prop where
  spaced : ∀ x ∈ l, Spaced x
  says : Says (Dump.seq l) ts.flatten

/-- a statement inside a structure -/
structure Line (x : Dump) (ws : Text) : Prop where
  spaced : Spaced x
  says : Says x ws

theorem Lists.nil : Lists [] [] := ⟨by simp, by intro d hd; cases hd; rfl⟩

theorem Lists.cons {x : Dump} {l : List Dump} {t : Text} {ts : List Text} (h : Line x t) (hl : Lists l ts) : Lists (x :: l) (t :: ts) := by
  refine ⟨fun y hy => ?_, fun d hd => ?_⟩
  · rcases List.mem_cons.1 hy with rfl | hy
    · exact h.spaced
    · exact hl.spaced y hy
  · obtain ⟨a, b, ha, hb, rfl⟩ := seq_cons_ok hd
    have hs := Spaced.seq hl.spaced b (-1) [] hb Sep.nil
    rw [List.append_nil] at hs
    simp only [Doc.render, List.flatten_cons]
    rw [words_sep _ hs, h.says a ha, hl.says b hb]

theorem Lists.append {l l' : List Dump} {ts ts' : List Text} (h : Lists l ts) (h' : Lists l' ts') : Lists (l ++ l') (ts ++ ts') := by
  have e : ∀ (l : List Dump), Dump.seq (l ++ l') = (match Dump.seq l with
    | .error k => .error k
    | .ok a => match Dump.seq l' with | .error k => .error k | .ok b => Dump.seq (l ++ l')) := by
    intro l
    induction l with
    | nil => simp only [List.nil_append, Dump.seq]; cases Dump.seq l' <;> rfl
    | cons x l ih =>
      simp only [List.cons_append, Dump.seq]
      cases x with
      | error k => rfl
      | ok a =>
        simp only
        cases hl : Dump.seq l with
        | error k => rw [hl] at ih; simp only at ih; rw [ih]
        | ok b =>
          rw [hl] at ih; simp only at ih
          cases hl' : Dump.seq l' with
          | error k => rw [hl'] at ih; simp only at ih; rw [ih]
          | ok c => rfl
  have r : ∀ (l : List Dump) d, Dump.seq (l ++ l') = .ok d → ∃ a b, Dump.seq l = .ok a ∧ Dump.seq l' = .ok b ∧ ∀ lvl, d.render lvl = a.render lvl ++ b.render lvl := by
    intro l
    induction l with
    | nil => intro d hd; exact ⟨.nil, d, rfl, hd, fun _ => rfl⟩
    | cons x l ih =>
      intro d hd
      rw [List.cons_append] at hd
      obtain ⟨a, b, ha, hb, rfl⟩ := seq_cons_ok hd
      obtain ⟨a', b', h1, h2, h3⟩ := ih b hb
      refine ⟨.cat a a', b', ?_, h2, fun lvl => ?_⟩
      · simp [Dump.seq, ha, h1]
      · simp [Doc.render, h3]
  refine ⟨fun y hy => ?_, fun d hd => ?_⟩
  · rcases List.mem_append.1 hy with hy | hy
    · exact h.spaced y hy
    · exact h'.spaced y hy
  · obtain ⟨a, b, h1, h2, h3⟩ := r l d hd
    have hs := Spaced.seq h'.spaced b (-1) [] h2 Sep.nil
    rw [List.append_nil] at hs
    rw [h3, words_sep _ hs, h.says a h1, h'.says b h2, List.flatten_append]

/-- a label without blanks -/
structure NameSolid (s : String) : Prop where
  solid : Solid s.toList

def solidText (l : List Char) : Bool := !l.isEmpty && l.all fun c => !blank c

theorem NameSolid.lit {s : String} (l : List Char) (h : String.ofList l = s) (hp : solidText l = true) : NameSolid s := by
  subst h
  refine ⟨?_⟩
  rw [String.toList_ofList]
  unfold solidText at hp
  simp only [Bool.and_eq_true, List.all_eq_true, Bool.not_eq_true'] at hp
  exact ⟨by rintro rfl; simp at hp, fun c hc => hp.2 c hc⟩

theorem words_colon {name v : List Char} (h : Solid name) : words (name ++ ": ".toList ++ v) = (name ++ [':']) :: words v := by
  have e : name ++ ": ".toList ++ v = (name ++ [':']) ++ (' ' :: v) := by simp
  rw [e, words_sep _ (Sep.space v), words_space, words_solid ⟨by simp, ?_⟩]; rfl
  intro c hc
  rcases List.mem_append.1 hc with hc | hc
  · exact h.2 c hc
  · simp at hc; subst hc; rfl

theorem Says.line {s : List Char} {ws : Text} (h : words s = ws) : Says (.ok (.cat .ind (.put s))) ws := by
  intro d hd; cases hd
  have : (Doc.cat .ind (.put s)).render (-1) = ' ' :: s := rfl
  rw [this, words_space, h]

theorem Line.fldText {name : String} {v : List Char} {ws : Text} (hn : NameSolid name) (hv : words v = ws) : Line (Dump.fld name v) (entry name ws) :=
  ⟨Spaced.fld _ _, Says.line (by rw [words_colon hn.solid, hv]; rfl)⟩

theorem Line.fldI {name : String} {v : Nat} (hn : NameSolid name) : Line (Dump.fld name (putI v)) (u32 name v) :=
  Line.fldText hn (by rw [words_solid (putI_word v).solid, putI_decimal])
theorem Line.fldU {name : String} {v : Nat} (hn : NameSolid name) : Line (Dump.fld name (putU v)) (num name v) :=
  Line.fldText hn (by rw [words_solid (putU_word v).solid, putU_decimal])
theorem Line.fldD {name : String} {v : Int} (hn : NameSolid name) : Line (Dump.fld name (putD v)) (num name v) :=
  Line.fldText hn (by rw [words_solid (putD_word v).solid, putD_decimal])

/-- the element of a list: begins with a space -/
structure ItemSays {α : Type} (f : α → List Char) (g : α → Text) : Prop where
  space : ∀ a, ∃ t, f a = ' ' :: t
  says : ∀ a, words (f a) = g a

theorem ItemSays.item {α : Type} {p : α → List Char} {g : α → Text} (h : ∀ a, words (p a) = g a) : ItemSays (Dump.item p) g :=
  ⟨fun a => ⟨_, rfl⟩, fun a => by rw [Dump.item, words_space, h]⟩
theorem ItemSays.itemGap {α : Type} {p : α → List Char} {g : α → Text} (h : ∀ a, words (p a) = g a) : ItemSays (Dump.itemGap p) g :=
  ⟨fun a => ⟨_, rfl⟩, fun a => by
    rw [Dump.itemGap, words_space, words_sep _ (Sep.space []), h]; simp [words, wordsFrom, blank]⟩

theorem items_space {α : Type} {f : α → List Char} {g : α → Text} (h : ItemSays f g) (l : List α) : ∃ t, Dump.items f l = ' ' :: t := by
  unfold Dump.items
  cases l with
  | nil => exact ⟨_, rfl⟩
  | cons a l => obtain ⟨t, ht⟩ := h.space a; exact ⟨_, by rw [List.flatMap_cons, ht]; rfl⟩

theorem words_items {α : Type} {f : α → List Char} {g : α → Text} (h : ItemSays f g) (l : List α) :
    words (Dump.items f l) = l.flatMap g ++ ["}".toList] := by
  induction l with
  | nil =>
    have : words " }".toList = ["}".toList] := by decide
    simpa [Dump.items] using this
  | cons a l ih =>
    have e : Dump.items f (a :: l) = f a ++ Dump.items f l := by simp [Dump.items]
    obtain ⟨t, ht⟩ := items_space h l
    have hs : Sep (Dump.items f l) := by rw [ht]; exact Sep.space _
    rw [e, words_sep _ hs, h.says, ih]; simp

theorem ItemSays.sub {α : Type} {f : α → List Char} {g : α → Text} (h : ItemSays f g) : ItemSays (Dump.sub f) (row g) := by
  refine ⟨fun l => ⟨_, rfl⟩, fun l => ?_⟩
  unfold Dump.sub
  obtain ⟨t, ht⟩ := items_space h l
  have hs : Sep (Dump.items f l) := by rw [ht]; exact Sep.space _
  rw [words_sep _ hs, words_items h]
  have : words " {".toList = ["{".toList] := by decide
  rw [this]; simp [row, braces]

theorem itemI : ItemSays (Dump.item putI) one32 := ItemSays.item (fun v => by rw [words_solid (putI_word v).solid, putI_decimal]; rfl)
theorem gapI : ItemSays (Dump.itemGap putI) one32 := ItemSays.itemGap (fun v => by rw [words_solid (putI_word v).solid, putI_decimal]; rfl)
theorem itemU : ItemSays (Dump.item putU) (fun v => one (v : Nat)) := ItemSays.item (fun v => by rw [words_solid (putU_word v).solid, putU_decimal]; rfl)
theorem itemD : ItemSays (Dump.item putD) one := ItemSays.item (fun v => by rw [words_solid (putD_word v).solid, putD_decimal]; rfl)

theorem Line.lst {α : Type} {name : String} {f : α → List Char} {g : α → Text} {l : List α} (hn : NameSolid name) (hf : ItemSays f g) :
    Line (Dump.lst name f l) (listed name g l) := by
  refine ⟨Spaced.lst _ _ _, Says.line ?_⟩
  obtain ⟨t, ht⟩ := items_space hf l
  have hs : Sep (Dump.items f l) := by rw [ht]; exact Sep.space _
  have e : name.toList ++ " {".toList = name.toList ++ (' ' :: ['{']) := rfl
  rw [words_sep _ hs, words_items hf, e, words_sep _ (Sep.space _), words_solid hn.solid, words_space]
  have : words ['{'] = ["{".toList] := by decide
  rw [this]; simp [listed, braces]

theorem Says.on {x : Dump} {ws : Text} (h : Says x ws) : Says (Dump.on x) ws := by
  intro d hd
  unfold Dump.on at hd
  obtain ⟨a, b, ha, hb, rfl⟩ := seq_cons_ok hd
  obtain ⟨c, e, hc, he, rfl⟩ := seq_cons_ok hb
  cases ha; cases he
  simp only [Doc.render, indentText, if_true, List.append_nil, List.cons_append, List.nil_append]
  rw [words_space]; exact h c hc

theorem Line.on {x : Dump} {ws : Text} (h : Says x ws) : Line (Dump.on x) ws := ⟨Spaced.on _, Says.on h⟩

theorem Line.seq {l : List Dump} {ts : List Text} (h : Lists l ts) : Line (Dump.seq l) ts.flatten := ⟨Spaced.seq h.spaced, h.says⟩

theorem Line.nil : Line (.ok .nil) [] := ⟨Spaced.nil, by intro d hd; cases hd; rfl⟩

theorem Line.cond {c : Prop} [Decidable c] {l : List Dump} {ts : List Text} (h : Lists l ts) : Line (Dump.cond c l) (opt c ts) := by
  unfold Dump.cond opt; split
  · exact Line.seq h
  · exact Line.nil

theorem Says.deref {α : Type} {o : Option α} {f : α → Dump} {g : α → Text} (h : ∀ a, Says (f a) (g a)) :
    Says (Dump.deref o f) (o.toList.flatMap g) := by
  cases o with
  | none => intro d hd; cases hd
  | some a => simpa [Dump.deref] using h a
theorem Says.ifSome {α : Type} {o : Option α} {f : α → Dump} {g : α → Text} (h : ∀ a, Says (f a) (g a)) :
    Says (Dump.ifSome o f) (o.toList.flatMap g) := by
  cases o with
  | none => intro d hd; cases hd; rfl
  | some a => simpa [Dump.ifSome] using h a
theorem Line.ifSome {α : Type} {o : Option α} {f : α → Dump} {g : α → Text} (h : ∀ a, Line (f a) (g a)) :
    Line (Dump.ifSome o f) (o.toList.flatMap g) := ⟨Spaced.ifSome (fun a => (h a).spaced), Says.ifSome (fun a => (h a).says)⟩
theorem Line.deref {α : Type} {o : Option α} {f : α → Dump} {g : α → Text} (h : ∀ a, Line (f a) (g a)) :
    Line (Dump.deref o f) (o.toList.flatMap g) := ⟨Spaced.deref (fun a => (h a).spaced), Says.deref (fun a => (h a).says)⟩

theorem Line.elem {α : Type} {l : List α} {i : Nat} {f : α → Dump} {g : α → Text} (h : ∀ a, Line (f a) (g a)) :
    Line (Dump.elem l i f) (l[i]?.toList.flatMap g) := by
  refine ⟨Spaced.elem (fun a => (h a).spaced), ?_⟩
  unfold Dump.elem; split
  · intro d hd; cases hd
  · rename_i hl; rw [hl]; simpa using (h _).says

theorem Line.each {α : Type} {l : List α} {f : α → Dump} {g : α → Text} (h : ∀ a, Line (f a) (g a)) : Line (Dump.each l f) (l.flatMap g) := by
  have : Lists (l.map f) (l.map g) := by
    induction l with
    | nil => exact Lists.nil
    | cons a l ih => exact Lists.cons (h a) ih
  exact Line.seq this

theorem Line.upTo {α : Type} {n : Nat} {l : List α} {f : Nat → α → Dump} {g : Nat → α → Text} (h : ∀ i a, Line (f i a) (g i a)) :
    Line (Dump.upTo n l f) ((l.take n).mapIdx g).flatten := by
  unfold Dump.upTo; split
  · have : ∀ (l : List α) (f : Nat → α → Dump) (g : Nat → α → Text), (∀ i a, Line (f i a) (g i a)) → Lists (l.mapIdx f) (l.mapIdx g) := by
      intro l
      induction l with
      | nil => intro f g _; exact Lists.nil
      | cons a l ih => intro f g h; rw [List.mapIdx_cons, List.mapIdx_cons]; exact Lists.cons (h 0 a) (ih _ _ (fun i a => h (i + 1) a))
    exact Line.seq (this _ f g h)
  · exact ⟨(by intro d lvl r hd; cases hd), (by intro d hd; cases hd)⟩

theorem Says.blk {name : String} {body : List Dump} {ts : List Text} (h : Lists body ts) : Says (Dump.blk name body) (block name ts) := by
  intro d hd
  unfold Dump.blk at hd
  cases hb : Dump.seq body with
  | error k => simp [hb] at hd
  | ok b =>
    simp only [hb, Except.ok.injEq] at hd; subst hd
    have hw := h.says b hb
    have hs : Sep (b.render (-1) ++ [' ', '}']) := Spaced.seq h.spaced b (-1) _ hb (Sep.space _)
    have e : (Doc.cat (.put (name.toList ++ " {".toList)) (.cat (.nest b) (.cat .ind (.put ['}'])))).render (-1) =
      name.toList ++ (' ' :: (['{'] ++ (b.render (-1) ++ [' ', '}']))) := by
      simp [Doc.render, indentIncr, indentText]
    rw [e, words_sep _ (Sep.space _), words_space, words_sep _ hs, words_sep _ (Sep.space _), hw]
    have h1 : words ['{'] = ["{".toList] := by decide
    have h2 : words [' ', '}'] = ["}".toList] := by decide
    rw [h1, h2]; simp [block, braces]

end H265
