/-
Layout of dumps: braces are balanced, level -1 writes a single line, the words do not depend on the level.
-/
import Verif.Model.DumpNal
import Verif.Proof.Dump

set_option autoImplicit false

namespace H265
open Spec

/-! ### Words do not depend on the level -/

theorem wordsFrom_blank (cur : List Char) (b : List Char) (hb : b ≠ []) (hbl : ∀ c ∈ b, blank c = true) (t : List Char) :
    wordsFrom cur (b ++ t) = (if cur = [] then [] else [cur]) ++ wordsFrom [] t := by
  induction b generalizing cur with
  | nil => exact absurd rfl hb
  | cons c b ih =>
    have hc := hbl c (by simp)
    cases b with
    | nil =>
      simp only [List.cons_append, List.nil_append, wordsFrom, hc, if_true]
      split <;> simp
    | cons c' b' =>
      have := ih [] (by simp) (fun c hc => hbl c (by simp [hc]))
      simp only [List.cons_append] at this ⊢
      rw [wordsFrom.eq_2, if_pos hc, this]
      split <;> simp

theorem indentText_blank (lvl : Int) : indentText lvl ≠ [] ∧ ∀ c ∈ indentText lvl, blank c = true := by
  unfold indentText; split
  · exact ⟨by simp, by intro c hc; simp at hc; subst hc; decide⟩
  · refine ⟨by simp, fun c hc => ?_⟩
    rcases List.mem_cons.1 hc with rfl | hc
    · decide
    · rw [List.eq_of_mem_replicate hc]; decide

theorem wordsFrom_put (s : List Char) : ∀ (cur t t' : List Char), (∀ cur, wordsFrom cur t = wordsFrom cur t') →
    wordsFrom cur (s ++ t) = wordsFrom cur (s ++ t') := by
  induction s with
  | nil => intro cur t t' h; exact h cur
  | cons c s ih =>
    intro cur t t' h
    simp only [List.cons_append, wordsFrom]
    split
    · split
      · exact ih _ _ _ h
      · rw [ih _ _ _ h]
    · exact ih _ _ _ h

theorem words_level (d : Doc) : ∀ (l l' : Int) (cur t t' : List Char), (∀ cur, wordsFrom cur t = wordsFrom cur t') →
    wordsFrom cur (d.render l ++ t) = wordsFrom cur (d.render l' ++ t') := by
  induction d with
  | nil => intro l l' cur t t' h; exact h cur
  | cat a b iha ihb =>
    intro l l' cur t t' h
    simp only [Doc.render, List.append_assoc]
    exact iha l l' cur _ _ (fun cur => ihb l l' cur _ _ h)
  | ind =>
    intro l l' cur t t' h
    simp only [Doc.render]
    rw [wordsFrom_blank _ _ (indentText_blank l).1 (indentText_blank l).2, wordsFrom_blank _ _ (indentText_blank l').1 (indentText_blank l').2, h]
  | put s =>
    intro l l' cur t t' h
    exact wordsFrom_put s cur t t' h
  | nest d ih =>
    intro l l' cur t t' h
    exact ih _ _ cur t t' h

theorem words_render (d : Doc) (l l' : Int) : words (d.render l) = words (d.render l') := by
  have := words_level d l l' [] [] [] (fun _ => rfl)
  simpa [words] using this

/-! ### Braces and lines -/

/-- a text with balanced braces and no line break -/
structure Neutral (s : List Char) : Prop where
  braces : ∀ k t, braceDepth k (s ++ t) = braceDepth k t
  line : '\n' ∉ s

/-- no braces, no line break -/
def plainText (s : List Char) : Bool := s.all fun c => c != '{' && c != '}' && c != '\n'

theorem braceDepth_skip {s : List Char} (h : ∀ c ∈ s, c ≠ '{' ∧ c ≠ '}') (k : Nat) (t : List Char) : braceDepth k (s ++ t) = braceDepth k t := by
  induction s with
  | nil => rfl
  | cons c s ih =>
    have := h c (by simp)
    simp only [List.cons_append, braceDepth, if_neg this.1, if_neg this.2]
    exact ih (fun c hc => h c (by simp [hc]))

theorem Neutral.of {s : List Char} (h : ∀ c ∈ s, c ≠ '{' ∧ c ≠ '}' ∧ c ≠ '\n') : Neutral s :=
  ⟨braceDepth_skip (fun c hc => ⟨(h c hc).1, (h c hc).2.1⟩), fun hn => (h _ hn).2.2 rfl⟩

theorem Neutral.lit {s : List Char} (h : plainText s = true) : Neutral s := by
  refine Neutral.of (fun c hc => ?_)
  have := List.all_eq_true.1 h c hc
  simpa [and_assoc] using this

theorem Neutral.word {w : List Char} (h : Word w) : Neutral w :=
  Neutral.of (fun c hc => ⟨(h.plain c hc).2.2.1, (h.plain c hc).2.2.2, (h.plain c hc).2.1⟩)

theorem Neutral.nil : Neutral [] := Neutral.lit rfl
theorem Neutral.append {a b : List Char} (ha : Neutral a) (hb : Neutral b) : Neutral (a ++ b) :=
  ⟨fun k t => by rw [List.append_assoc, ha.braces, hb.braces], by simp [ha.line, hb.line]⟩
theorem Neutral.cons {c : Char} {b : List Char} (hc : c ≠ '{' ∧ c ≠ '}' ∧ c ≠ '\n') (hb : Neutral b) : Neutral (c :: b) :=
  Neutral.append (a := [c]) (Neutral.of (by simpa using hc)) hb
theorem Neutral.flatMap {α : Type} {f : α → List Char} {l : List α} (h : ∀ a, Neutral (f a)) : Neutral (l.flatMap f) := by
  induction l with
  | nil => exact Neutral.nil
  | cons a l ih => rw [List.flatMap_cons]; exact (h a).append ih

theorem Neutral.open_close {a b : List Char} (ha : Neutral a) (hb : Neutral b) : Neutral (a ++ '{' :: (b ++ ['}'])) := by
  refine ⟨fun k t => ?_, by simp [ha.line, hb.line]⟩
  simp only [List.append_assoc, List.cons_append, List.nil_append]
  rw [ha.braces]
  simp only [braceDepth, if_true]
  rw [hb.braces]
  simp [braceDepth]

/-- `a {b }` -/
theorem Neutral.items {α : Type} {f : α → List Char} {l : List α} {a : List Char} (ha : Neutral a) (h : ∀ x, Neutral (f x)) :
    Neutral (a ++ " {".toList ++ Dump.items f l) := by
  have : a ++ " {".toList ++ Dump.items f l = (a ++ [' ']) ++ '{' :: ((l.flatMap f ++ [' ']) ++ ['}']) := by simp [Dump.items]
  rw [this]
  exact Neutral.open_close (ha.append (Neutral.lit rfl)) ((Neutral.flatMap h).append (Neutral.lit rfl))

theorem Neutral.item {α : Type} {p : α → List Char} (h : ∀ x, Neutral (p x)) (x : α) : Neutral (Dump.item p x) := (h x).cons (by decide)
theorem Neutral.itemGap {α : Type} {p : α → List Char} (h : ∀ x, Neutral (p x)) (x : α) : Neutral (Dump.itemGap p x) :=
  ((h x).append (Neutral.lit rfl)).cons (by decide)
theorem Neutral.sub {α : Type} {f : α → List Char} (h : ∀ x, Neutral (f x)) (l : List α) : Neutral (Dump.sub f l) := by
  have := Neutral.items (l := l) Neutral.nil h
  simpa [Dump.sub] using this

theorem neutral_putU (n : Nat) : Neutral (putU n) := Neutral.word (putU_word n)
theorem neutral_putD (n : Int) : Neutral (putD n) := Neutral.word (putD_word n)
theorem neutral_putI (n : Nat) : Neutral (putI n) := Neutral.word (putI_word n)
theorem neutral_putX (n : Nat) : Neutral (putX n) := Neutral.word (putX_word n)
theorem neutral_putX0 (w n : Nat) : Neutral (putX0 w n) := Neutral.word (putX0_word w n)
theorem neutral_putF (d n : Nat) : Neutral (putF d n) := Neutral.word (putF_word d n)

/-- a label without braces and line breaks -/
structure NameOk (s : String) : Prop where
  neutral : Neutral s.toList

theorem NameOk.lit {s : String} (l : List Char) (h : String.ofList l = s) (hp : plainText l = true) : NameOk s := by
  subst h; exact ⟨by rw [String.toList_ofList]; exact Neutral.lit hp⟩

/-- the layout of a dump: balanced, one line at level -1 -/
def Lay (x : Dump) : Prop :=
  ∀ d, x = .ok d → (∀ lvl k t, braceDepth k (d.render lvl ++ t) = braceDepth k t) ∧ '\n' ∉ d.render (-1)

def LayAll (l : List Dump) : Prop := ∀ x ∈ l, Lay x

theorem LayAll.nil : LayAll [] := by intro x hx; cases hx
theorem LayAll.cons {x : Dump} {l : List Dump} (h : Lay x) (hl : LayAll l) : LayAll (x :: l) := by
  intro y hy
  rcases List.mem_cons.1 hy with rfl | hy
  · exact h
  · exact hl y hy
theorem LayAll.append {l m : List Dump} (h : LayAll l) (hl : LayAll m) : LayAll (l ++ m) := by
  intro y hy
  rcases List.mem_append.1 hy with hy | hy
  · exact h y hy
  · exact hl y hy

theorem Lay.put {s : List Char} (h : Neutral s) : Lay (.ok (.put s)) := by
  intro d hd; cases hd; exact ⟨fun _ k t => h.braces k t, h.line⟩

theorem indent_braces (lvl : Int) (k : Nat) (t : List Char) : braceDepth k (indentText lvl ++ t) = braceDepth k t := by
  refine braceDepth_skip (fun c hc => ?_) k t
  have := (indentText_blank lvl).2 c hc
  constructor <;> (intro h; subst h; exact absurd this (by decide))

theorem Lay.ind : Lay (.ok .ind) := by
  intro d hd; cases hd
  exact ⟨fun lvl k t => indent_braces lvl k t, by decide⟩

theorem Lay.nil : Lay (.ok .nil) := by intro d hd; cases hd; exact ⟨fun _ _ _ => rfl, by simp [Doc.render]⟩

theorem Lay.seq {l : List Dump} (h : LayAll l) : Lay (Dump.seq l) := by
  induction l with
  | nil => exact Lay.nil
  | cons x l ih =>
    intro d hd
    obtain ⟨a, b, ha, hb, rfl⟩ := seq_cons_ok hd
    have h1 := h x (by simp) a ha
    have h2 := ih (fun y hy => h y (by simp [hy])) b hb
    refine ⟨fun lvl k t => ?_, by simp [Doc.render, h1.2, h2.2]⟩
    simp only [Doc.render, List.append_assoc]; rw [h1.1, h2.1]

theorem Lay.line {s : List Char} (h : Neutral s) : Lay (.ok (.cat .ind (.put s))) := by
  intro d hd; cases hd
  refine ⟨fun lvl k t => ?_, by simp [Doc.render, indentText, h.line]⟩
  simp only [Doc.render, List.append_assoc]; rw [indent_braces, h.braces]

theorem Lay.fld {name : String} {v : List Char} (hn : NameOk name) (hv : Neutral v) : Lay (Dump.fld name v) :=
  Lay.line ((hn.neutral.append (Neutral.lit rfl)).append hv)

theorem Lay.lst {α : Type} {name : String} {f : α → List Char} {l : List α} (hn : NameOk name) (hf : ∀ x, Neutral (f x)) :
    Lay (Dump.lst name f l) := Lay.line (Neutral.items hn.neutral hf)

theorem Lay.on {x : Dump} (h : Lay x) : Lay (Dump.on x) := Lay.seq (LayAll.cons Lay.ind (LayAll.cons h LayAll.nil))

theorem Lay.cond {c : Prop} [Decidable c] {l : List Dump} (h : LayAll l) : Lay (Dump.cond c l) := by
  unfold Dump.cond; split
  · exact Lay.seq h
  · exact Lay.nil

theorem Lay.error (k : Bad) : Lay (.error k) := by intro d hd; cases hd

theorem Lay.deref {α : Type} {o : Option α} {f : α → Dump} (h : ∀ a, Lay (f a)) : Lay (Dump.deref o f) := by
  cases o with
  | none => exact Lay.error _
  | some a => exact h a
theorem Lay.ifSome {α : Type} {o : Option α} {f : α → Dump} (h : ∀ a, Lay (f a)) : Lay (Dump.ifSome o f) := by
  cases o with
  | none => exact Lay.nil
  | some a => exact h a
theorem Lay.elem {α : Type} {l : List α} {i : Nat} {f : α → Dump} (h : ∀ a, Lay (f a)) : Lay (Dump.elem l i f) := by
  unfold Dump.elem; split
  · exact Lay.error _
  · exact h _
theorem Lay.each {α : Type} {l : List α} {f : α → Dump} (h : ∀ a, Lay (f a)) : Lay (Dump.each l f) :=
  Lay.seq (fun x hx => by obtain ⟨a, _, rfl⟩ := List.mem_map.1 hx; exact h a)
theorem Lay.upTo {α : Type} {n : Nat} {l : List α} {f : Nat → α → Dump} (h : ∀ i a, Lay (f i a)) : Lay (Dump.upTo n l f) := by
  unfold Dump.upTo; split
  · refine Lay.seq (fun x hx => ?_)
    obtain ⟨i, hi, rfl⟩ := List.mem_mapIdx.1 hx; exact h _ _
  · exact Lay.error _

theorem Lay.blk {name : String} {body : List Dump} (hn : NameOk name) (h : LayAll body) : Lay (Dump.blk name body) := by
  intro d hd
  unfold Dump.blk at hd
  cases hb : Dump.seq body with
  | error k => simp [hb] at hd
  | ok b =>
    simp only [hb, Except.ok.injEq] at hd; subst hd
    have hb' := Lay.seq h b hb
    refine ⟨fun lvl k t => ?_, ?_⟩
    · simp only [Doc.render, List.append_assoc, List.cons_append, List.nil_append]
      rw [hn.neutral.braces, show (" {".toList : List Char) = [' ', '{'] from rfl]
      simp only [List.cons_append, List.nil_append]
      rw [braceDepth.eq_2, if_neg (by decide), if_neg (by decide), braceDepth.eq_2, if_pos rfl, hb'.1, indent_braces]
      simp [braceDepth]
    · have h2 := hb'.2
      have h3 := hn.neutral.line
      simp only [Doc.render, indentIncr, if_true, indentText, List.mem_append, not_or] at h2 ⊢
      exact ⟨⟨h3, by decide⟩, h2, by decide, by decide⟩

theorem Spaced.elem {α : Type} {l : List α} {i : Nat} {f : α → Dump} (h : ∀ a, Spaced (f a)) : Spaced (Dump.elem l i f) := by
  unfold Dump.elem; split
  · intro d lvl r hd; cases hd
  · exact h _

theorem neutral_profileType (p : ProfileType) : Neutral (profileTypeToString p).toList := by
  cases p <;> exact Neutral.lit (by decide)

theorem neutral_putUuid (a b : Nat) : Neutral (putUuid a b) := by
  unfold putUuid
  repeat' first | exact neutral_putX0 _ _ | apply Neutral.append | apply Neutral.cons (by decide)
theorem neutral_putChroma (v : Nat) : Neutral (putChroma v) := by
  unfold putChroma
  repeat' first | exact neutral_putU _ | exact neutral_putF _ _ | exact Neutral.lit rfl | apply Neutral.append
theorem neutral_putCandela (v : Nat) : Neutral (putCandela v) := by
  unfold putCandela
  repeat' first | exact neutral_putU _ | exact neutral_putF _ _ | exact Neutral.lit rfl | apply Neutral.append
theorem neutral_checksum (l : List UInt8) : Neutral ("0x".toList ++ dumpChecksum l) :=
  (Neutral.lit rfl).append (Neutral.flatMap fun _ => neutral_putX0 _ _)
theorem nameOk_indexed {name : String} (h : NameOk name) (j : Nat) : NameOk (indexed name j) := by
  unfold indexed
  refine ⟨?_⟩
  simp only [String.toList_append, String.toList_ofList]
  exact ((h.neutral.append (Neutral.lit rfl)).append (neutral_putI _)).append (Neutral.lit rfl)

end H265
