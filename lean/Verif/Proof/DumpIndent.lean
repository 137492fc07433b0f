/-
Indentation of dumps: every line but the first begins with two blanks per level and open brace.
-/
import Verif.Proof.DumpLayout

set_option autoImplicit false

namespace H265
open Spec

/-! ### A recursive form of `Spec.Indented` -/

/-- the text `s`, found at brace depth `d`, is indented -/
def IndentedFrom (base : Nat) : Nat → List Char → Prop
  | _, [] => True
  | d, c :: s =>
    if c = '\n' then LineStart base d s ∧ IndentedFrom base d s
    else IndentedFrom base (if c = '{' then d + 1 else if c = '}' then d - 1 else d) s

theorem indentedFrom_split {base : Nat} : ∀ (a b : List Char) (k d : Nat), IndentedFrom base k (a ++ '\n' :: b) → braceDepth k a = some d → LineStart base d b
  | [], b, k, d, h, hd => by
    cases hd
    simp only [List.nil_append, IndentedFrom, if_true] at h
    exact h.1
  | c :: a, b, k, d, h, hd => by
    simp only [List.cons_append, IndentedFrom] at h
    rw [braceDepth.eq_2] at hd
    by_cases hn : c = '\n'
    · subst hn
      rw [if_pos rfl] at h
      rw [if_neg (by decide), if_neg (by decide)] at hd
      exact indentedFrom_split a b k d h.2 hd
    · rw [if_neg hn] at h
      by_cases h1 : c = '{'
      · rw [if_pos h1] at h hd; exact indentedFrom_split a b _ d h hd
      · rw [if_neg h1] at h hd
        by_cases h2 : c = '}'
        · rw [if_pos h2] at h hd
          by_cases hk : k = 0
          · rw [if_pos hk] at hd; cases hd
          · rw [if_neg hk] at hd; exact indentedFrom_split a b _ d h hd
        · rw [if_neg h2] at h hd; exact indentedFrom_split a b _ d h hd

theorem indented_of {base : Nat} {s : List Char} (h : IndentedFrom base 0 s) : Indented base s := by
  intro a b d hs hd
  subst hs
  exact indentedFrom_split a b 0 d h hd

/-- passing over a text without line break -/
theorem indentedFrom_line {base : Nat} : ∀ (s : List Char) (k d : Nat) (t : List Char), '\n' ∉ s → braceDepth k s = some d →
    IndentedFrom base d t → IndentedFrom base k (s ++ t)
  | [], k, d, t, _, hd, h => by cases hd; exact h
  | c :: s, k, d, t, hn, hd, h => by
    have hc : c ≠ '\n' := fun he => hn (by simp [he])
    have hs : '\n' ∉ s := fun he => hn (by simp [he])
    rw [List.cons_append, IndentedFrom, if_neg hc]
    rw [braceDepth.eq_2] at hd
    by_cases h1 : c = '{'
    · rw [if_pos h1] at hd ⊢; exact indentedFrom_line s _ d t hs hd h
    · rw [if_neg h1] at hd ⊢
      by_cases h2 : c = '}'
      · rw [if_pos h2] at hd ⊢
        by_cases hk : k = 0
        · rw [if_pos hk] at hd; cases hd
        · rw [if_neg hk] at hd; exact indentedFrom_line s _ d t hs hd h
      · rw [if_neg h2] at hd ⊢; exact indentedFrom_line s _ d t hs hd h

theorem Neutral.depth {s : List Char} (h : Neutral s) (k : Nat) : braceDepth k s = some k := by
  have := h.braces k []
  simpa [braceDepth] using this

theorem indentedFrom_neutral {base k : Nat} {s t : List Char} (h : Neutral s) (ht : IndentedFrom base k t) : IndentedFrom base k (s ++ t) :=
  indentedFrom_line s k k t h.line (h.depth k) ht

/-! ### Beginnings -/

/-- a character that begins a line with content -/
def goodChar (c : Char) : Bool := c != ' ' && c != '\n' && c != '}'

/-- nothing, or a line break -/
def Ends (t : List Char) : Prop := t = [] ∨ ∃ r, t = '\n' :: r

/-- nothing, or a character that begins a line -/
def Begins (s : List Char) : Prop := s = [] ∨ ∃ c r, s = c :: r ∧ goodChar c = true

theorem lineStart_spaces {base d n : Nat} {c : Char} {r : List Char} (hc : c ≠ ' ') (h : c = '\n' ∨ n = 2 * (base + if c = '}' then d - 1 else d)) :
    LineStart base d (List.replicate n ' ' ++ c :: r) := by
  have e1 : (List.replicate n ' ' ++ c :: r).dropWhile (· == ' ') = c :: r := by
    induction n with
    | zero => simp [hc]
    | succ n ih =>
      rw [List.replicate_succ, List.cons_append, List.dropWhile_cons, if_pos (by decide)]
      have : (List.replicate n ' ' ++ c :: r).dropWhile (· == ' ') = c :: r := by
        clear ih h
        induction n with
        | zero => simp [hc]
        | succ n ih => rw [List.replicate_succ, List.cons_append, List.dropWhile_cons, if_pos (by decide), ih]
      exact this
  have e2 : (List.replicate n ' ' ++ c :: r).takeWhile (· == ' ') = List.replicate n ' ' := by
    clear e1 h
    induction n with
    | zero => simp [hc]
    | succ n ih => rw [List.replicate_succ, List.cons_append, List.takeWhile_cons, if_pos (by decide), ih]
  unfold LineStart
  rw [e1, e2]
  simpa using h

theorem lineStart_blank {base d n : Nat} : LineStart base d (List.replicate n ' ') := by
  have e1 : (List.replicate n ' ').dropWhile (· == ' ') = [] := by
    induction n with
    | zero => rfl
    | succ n ih => rw [List.replicate_succ, List.dropWhile_cons, if_pos (by decide), ih]
  unfold LineStart
  rw [e1]; trivial

/-- an indentation in front of a text -/
theorem indentedFrom_ind {base k l : Nat} {s : List Char} (hl : LineStart base k (List.replicate (2 * l) ' ' ++ s)) (hs : IndentedFrom base k s) :
    IndentedFrom base k (indentText l ++ s) := by
  unfold indentText
  rw [if_neg (by omega), show (2 * (l : Int)).toNat = 2 * l by omega, List.cons_append, IndentedFrom, if_pos rfl]
  refine ⟨hl, indentedFrom_neutral (Neutral.of ?_) hs⟩
  intro c hc
  rw [List.eq_of_mem_replicate hc]; decide

theorem ends_ind (l : Nat) (s : List Char) : Ends (indentText l ++ s) := by
  unfold indentText
  rw [if_neg (by omega)]
  exact .inr ⟨_, rfl⟩

/-! ### Dumps -/

/-- statements: each begins with an indentation -/
def IndS (x : Dump) : Prop :=
  ∀ d, x = .ok d → ∀ (l base k : Nat) (t : List Char), l = base + k → Ends t → IndentedFrom base k t →
    Ends (d.render l ++ t) ∧ IndentedFrom base k (d.render l ++ t)

/-- what is written behind an indentation -/
def IndB (x : Dump) : Prop :=
  ∀ d, x = .ok d → ∀ (l base k : Nat) (t : List Char), l = base + k → Ends t → IndentedFrom base k t →
    Begins (d.render l) ∧ IndentedFrom base k (d.render l ++ t)

def IndAll (l : List Dump) : Prop := ∀ x ∈ l, IndS x

theorem IndAll.nil : IndAll [] := by intro x hx; cases hx
theorem IndAll.cons {x : Dump} {l : List Dump} (h : IndS x) (hl : IndAll l) : IndAll (x :: l) := by
  intro y hy
  rcases List.mem_cons.1 hy with rfl | hy
  · exact h
  · exact hl y hy
theorem IndAll.append {l m : List Dump} (h : IndAll l) (hl : IndAll m) : IndAll (l ++ m) := by
  intro y hy
  rcases List.mem_append.1 hy with hy | hy
  · exact h y hy
  · exact hl y hy

theorem IndS.nil : IndS (.ok .nil) := by intro d hd l base k t _ he ht; cases hd; exact ⟨he, ht⟩
theorem IndB.nil : IndB (.ok .nil) := by intro d hd l base k t _ he ht; cases hd; exact ⟨.inl rfl, ht⟩
theorem IndS.error (k : Bad) : IndS (.error k) := by intro d hd; cases hd
theorem IndB.error (k : Bad) : IndB (.error k) := by intro d hd; cases hd

theorem IndS.seq {l : List Dump} (h : IndAll l) : IndS (Dump.seq l) := by
  induction l with
  | nil => exact IndS.nil
  | cons x l ih =>
    intro d hd lv base k t hl he ht
    obtain ⟨a, b, ha, hb, rfl⟩ := seq_cons_ok hd
    have h2 := ih (fun y hy => h y (by simp [hy])) b hb lv base k t hl he ht
    have h1 := h x (by simp) a ha lv base k _ hl h2.1 h2.2
    simpa only [Doc.render, List.append_assoc] using h1

theorem IndS.on {x : Dump} (h : IndB x) : IndS (Dump.on x) := by
  intro d hd lv base k t hl he ht
  unfold Dump.on at hd
  obtain ⟨a, b, ha, hb, rfl⟩ := seq_cons_ok hd
  obtain ⟨b1, b2, hb1, hb2, rfl⟩ := seq_cons_ok hb
  cases ha; cases hb2
  obtain ⟨h1, h2⟩ := h b1 hb1 lv base k t hl he ht
  simp only [Doc.render, List.append_assoc, List.append_nil]
  refine ⟨ends_ind _ _, indentedFrom_ind ?_ h2⟩
  rcases h1 with h1 | ⟨c, r, h1, hc⟩
  · rw [h1, List.nil_append]
    rcases he with rfl | ⟨r, rfl⟩
    · rw [List.append_nil]; exact lineStart_blank
    · exact lineStart_spaces (by decide) (.inl rfl)
  · rw [h1, List.cons_append]
    simp only [goodChar, Bool.and_eq_true, bne_iff_ne] at hc
    refine lineStart_spaces hc.1.1 (.inr ?_)
    rw [if_neg hc.2]; omega

/-- a label that begins with a character of a line -/
structure StartOk (s : String) : Prop where
  start : ∃ c r, s.toList = c :: r ∧ goodChar c = true

/-- the first character begins a line -/
def startText : List Char → Bool
  | [] => false
  | c :: _ => goodChar c

theorem StartOk.lit {s : String} (l : List Char) (h : String.ofList l = s) (hp : startText l = true) : StartOk s := by
  subst h
  cases l with
  | nil => cases hp
  | cons c r => exact ⟨c, r, by rw [String.toList_ofList], hp⟩

theorem IndS.line {s : List Char} (h : Neutral s) (hs : ∃ c r, s = c :: r ∧ goodChar c = true) : IndS (.ok (.cat .ind (.put s))) := by
  intro d hd l base k t hl he ht
  cases hd
  simp only [Doc.render, List.append_assoc]
  refine ⟨ends_ind _ _, indentedFrom_ind ?_ (indentedFrom_neutral h ht)⟩
  obtain ⟨c, r, rfl, hc⟩ := hs
  simp only [goodChar, Bool.and_eq_true, bne_iff_ne] at hc
  refine lineStart_spaces hc.1.1 (.inr ?_)
  rw [if_neg hc.2]; omega

theorem IndS.fld {name : String} {v : List Char} (hs : StartOk name) (hn : NameOk name) (hv : Neutral v) : IndS (Dump.fld name v) := by
  refine IndS.line ((hn.neutral.append (Neutral.lit rfl)).append hv) ?_
  obtain ⟨c, r, h, hc⟩ := hs.start
  exact ⟨c, _, by rw [h]; rfl, hc⟩

theorem IndS.lst {α : Type} {name : String} {f : α → List Char} {l : List α} (hs : StartOk name) (hn : NameOk name) (hf : ∀ x, Neutral (f x)) :
    IndS (Dump.lst name f l) := by
  refine IndS.line (Neutral.items hn.neutral hf) ?_
  obtain ⟨c, r, h, hc⟩ := hs.start
  exact ⟨c, _, by rw [h]; rfl, hc⟩

theorem IndS.cond {c : Prop} [Decidable c] {l : List Dump} (h : IndAll l) : IndS (Dump.cond c l) := by
  unfold Dump.cond; split
  · exact IndS.seq h
  · exact IndS.nil

theorem IndS.deref {α : Type} {o : Option α} {f : α → Dump} (h : ∀ a, IndS (f a)) : IndS (Dump.deref o f) := by
  cases o with
  | none => exact IndS.error _
  | some a => exact h a
theorem IndB.deref {α : Type} {o : Option α} {f : α → Dump} (h : ∀ a, IndB (f a)) : IndB (Dump.deref o f) := by
  cases o with
  | none => exact IndB.error _
  | some a => exact h a
theorem IndS.ifSome {α : Type} {o : Option α} {f : α → Dump} (h : ∀ a, IndS (f a)) : IndS (Dump.ifSome o f) := by
  cases o with
  | none => exact IndS.nil
  | some a => exact h a
theorem IndB.ifSome {α : Type} {o : Option α} {f : α → Dump} (h : ∀ a, IndB (f a)) : IndB (Dump.ifSome o f) := by
  cases o with
  | none => exact IndB.nil
  | some a => exact h a
theorem IndS.elem {α : Type} {l : List α} {i : Nat} {f : α → Dump} (h : ∀ a, IndS (f a)) : IndS (Dump.elem l i f) := by
  unfold Dump.elem; split
  · exact IndS.error _
  · exact h _
theorem IndB.elem {α : Type} {l : List α} {i : Nat} {f : α → Dump} (h : ∀ a, IndB (f a)) : IndB (Dump.elem l i f) := by
  unfold Dump.elem; split
  · exact IndB.error _
  · exact h _
theorem IndS.each {α : Type} {l : List α} {f : α → Dump} (h : ∀ a, IndS (f a)) : IndS (Dump.each l f) :=
  IndS.seq (fun x hx => by obtain ⟨a, _, rfl⟩ := List.mem_map.1 hx; exact h a)
theorem IndS.upTo {α : Type} {n : Nat} {l : List α} {f : Nat → α → Dump} (h : ∀ i a, IndS (f i a)) : IndS (Dump.upTo n l f) := by
  unfold Dump.upTo; split
  · refine IndS.seq (fun x hx => ?_)
    obtain ⟨i, hi, rfl⟩ := List.mem_mapIdx.1 hx; exact h _ _
  · exact IndS.error _

/-- a body of a block -/
def IndBody (x : Dump) : Prop :=
  ∀ d, x = .ok d → ∀ (l base k : Nat) (t : List Char), l = base + k → Ends t → IndentedFrom base k t → IndentedFrom base k (d.render l ++ t)

/-- a block: what follows it may be anything -/
def IndBlk (x : Dump) : Prop :=
  ∀ d, x = .ok d → ∀ (l base k : Nat) (t : List Char), l = base + k → IndentedFrom base k t →
    (∃ c r, d.render l = c :: r ∧ goodChar c = true) ∧ IndentedFrom base k (d.render l ++ t)

theorem IndBlk.blkBody {name : String} {body : List Dump} (hs : StartOk name) (hn : NameOk name) (h : IndBody (Dump.seq body)) :
    IndBlk (Dump.blk name body) := by
  intro d hd l base k t hl ht
  unfold Dump.blk at hd
  cases hb : Dump.seq body with
  | error k => simp [hb] at hd
  | ok b =>
    simp only [hb, Except.ok.injEq] at hd; subst hd
    obtain ⟨c, r, hc1, hc⟩ := hs.start
    simp only [Doc.render, List.append_assoc]
    refine ⟨⟨c, _, by rw [hc1]; rfl, hc⟩, ?_⟩
    have hclose : IndentedFrom base (k + 1) (indentText l ++ (['}'] ++ t)) := by
      refine indentedFrom_ind (lineStart_spaces (by decide) (.inr ?_)) ?_
      · rw [if_pos rfl]; omega
      · exact indentedFrom_line ['}'] (k + 1) k t (by decide) (by simp [braceDepth]) ht
    have hbody := h b hb (l + 1) base (k + 1) _ (by omega) (ends_ind _ _) hclose
    have hi : indentIncr (l : Int) = ((l + 1 : Nat) : Int) := by unfold indentIncr; rw [if_neg (by omega)]; omega
    rw [hi]
    refine indentedFrom_neutral hn.neutral ?_
    exact indentedFrom_line " {".toList k (k + 1) _ (by decide) (by simp [braceDepth]) hbody

theorem IndBlk.indB {x : Dump} (h : IndBlk x) : IndB x :=
  fun d hd l base k t hl _ ht => ⟨.inr (h d hd l base k t hl ht).1, (h d hd l base k t hl ht).2⟩

theorem IndBody.all {body : List Dump} (h : IndAll body) : IndBody (Dump.seq body) :=
  fun d hd l base k t hl he ht => (IndS.seq h d hd l base k t hl he ht).2

theorem IndB.blk {name : String} {body : List Dump} (hs : StartOk name) (hn : NameOk name) (h : IndAll body) : IndB (Dump.blk name body) :=
  (IndBlk.blkBody hs hn (IndBody.all h)).indB

/-- a block on a line of its own and then a text that follows it on the same line -/
theorem IndBody.glue {x y : Dump} (hx : IndBlk x) (hy : IndB y) : IndBody (Dump.seq [Dump.on x, y]) := by
  intro d hd l base k t hl he ht
  obtain ⟨a, b, ha, hb, rfl⟩ := seq_cons_ok hd
  obtain ⟨b1, b2, hb1, hb2, rfl⟩ := seq_cons_ok hb
  cases hb2
  unfold Dump.on at ha
  obtain ⟨a0, a1, ha0, ha1, rfl⟩ := seq_cons_ok ha
  obtain ⟨a2, a3, ha2, ha3, rfl⟩ := seq_cons_ok ha1
  cases ha0; cases ha3
  have h1 := (hy b1 hb1 l base k t hl he ht).2
  obtain ⟨⟨c, r, hc1, hc⟩, h2⟩ := hx a2 ha2 l base k _ hl h1
  simp only [Doc.render, List.append_assoc, List.append_nil, List.nil_append]
  refine indentedFrom_ind ?_ h2
  rw [hc1, List.cons_append]
  simp only [goodChar, Bool.and_eq_true, bne_iff_ne] at hc
  refine lineStart_spaces hc.1.1 (.inr ?_)
  rw [if_neg hc.2]; omega

theorem startOk_indexed {name : String} (h : StartOk name) (j : Nat) : StartOk (indexed name j) := by
  obtain ⟨c, r, h, hc⟩ := h.start
  unfold indexed
  exact ⟨⟨c, _, by simp only [String.toList_append, h]; rfl, hc⟩⟩

/-- a text that begins a block is indented -/
theorem IndB.indented {x : Dump} (h : IndB x) {lvl : Nat} {d : Doc} (hd : x = .ok d) : Indented lvl (d.render lvl) := by
  have := (h d hd lvl lvl 0 [] rfl (.inl rfl) trivial).2
  rw [List.append_nil] at this
  exact indented_of this

/-! ### Every dump function -/

attribute [local irreducible] putI putU putD putX putX0 putF putUuid putChroma putCandela profileTypeToString Dump.item Dump.itemGap Dump.sub
  Dump.fld Dump.lst Dump.on Dump.cond Dump.deref Dump.ifSome Dump.elem Dump.each Dump.upTo Dump.blk Dump.seq IndS IndB IndAll IndBody IndBlk

/-- one step -/
macro "ind1" : tactic => `(tactic| first
  | exact IndAll.nil | apply IndAll.cons
  | apply IndS.fld | refine IndS.lst ?_ ?_ (fun _ => ?_) | apply IndS.on | apply IndS.cond | refine IndS.deref (fun _ => ?_) | refine IndS.ifSome (fun _ => ?_)
  | refine IndS.elem (fun _ => ?_) | refine IndS.each (fun _ => ?_) | refine IndS.upTo (fun _ _ => ?_) | apply IndS.seq | exact IndS.nil
  | apply IndB.blk | refine IndB.deref (fun _ => ?_) | refine IndB.ifSome (fun _ => ?_) | refine IndB.elem (fun _ => ?_) | exact IndB.nil
  | exact neutral_putI _ | exact neutral_putU _ | exact neutral_putD _ | exact neutral_putX _ | exact neutral_putX0 _ _
  | exact neutral_putUuid _ _ | exact neutral_putChroma _ | exact neutral_putCandela _ | exact neutral_profileType _
  | exact NameOk.lit _ rfl rfl | exact StartOk.lit _ rfl rfl
  | refine Neutral.item (fun _ => ?_) _ | refine Neutral.itemGap (fun _ => ?_) _ | refine Neutral.sub (fun _ => ?_) _
  | apply Neutral.append | exact Neutral.lit rfl)

/-- proves `IndS` and `IndB` -/
macro "indent" : tactic => `(tactic| repeat' ind1)

theorem ind_profileInfo (s : ProfileInfo) : IndAll (profileInfoItems s) := by unfold profileInfoItems; indent

theorem ind_dumpPtl (present : Bool) (n : Nat) (s : ProfileTierLevel) : IndB (dumpPtl present n s) := by
  unfold dumpPtl dumpPtl.items
  repeat' first | exact ind_profileInfo _ | ind1

theorem ind_dumpResolution (s : SpsBody) : IndS (dumpResolution s) := by
  unfold dumpResolution
  split
  · exact IndS.error _
  · indent

theorem indBlk_dumpNalUnitHeader (s : NalUnitHeader) : IndBlk (dumpNalUnitHeader s) := by
  unfold dumpNalUnitHeader dumpNalUnitHeader.items
  refine IndBlk.blkBody (StartOk.lit _ rfl rfl) (NameOk.lit _ rfl rfl) (IndBody.all ?_)
  indent

theorem ind_dumpNalUnitHeader (s : NalUnitHeader) : IndB (dumpNalUnitHeader s) := (indBlk_dumpNalUnitHeader s).indB

theorem ind_dumpAud (s : Aud) : IndB (dumpAud s) := by
  unfold dumpAud dumpAud.items
  indent

theorem ind_dumpSubLayerHrd (s : List SubLayerHrdEntry) : IndB (dumpSubLayerHrd s) := by
  unfold dumpSubLayerHrd dumpSubLayerHrd.items
  indent

theorem ind_dumpHrd (common : Nat) (s : HrdParameters) : IndB (dumpHrd common s) := by
  unfold dumpHrd dumpHrd.items
  repeat' first | exact ind_dumpSubLayerHrd _ | ind1

theorem ind_dumpVui (s : VuiParameters) : IndB (dumpVui s) := by
  unfold dumpVui dumpVui.items
  repeat' first | exact ind_dumpHrd _ _ | ind1

theorem ind_dumpVps (v : Vps) : IndB (dumpVps v) := by
  unfold dumpVps dumpVps.items
  repeat' first | exact ind_dumpPtl _ _ _ | exact ind_dumpHrd _ _ | ind1

theorem ind_dumpStRefPicSet (idx num : Nat) (s : StRefPicSet) : IndB (dumpStRefPicSet idx num s) := by
  unfold dumpStRefPicSet dumpStRefPicSet.items
  indent

theorem ind_dumpScalingListData (s : ScalingListData) : IndB (dumpScalingListData s) := by
  unfold dumpScalingListData dumpScalingListData.items
  indent

theorem ind_dumpSpsRangeExtension (s : SpsRangeExtension) : IndB (dumpSpsRangeExtension s) := by
  unfold dumpSpsRangeExtension dumpSpsRangeExtension.items
  indent

theorem ind_dumpSpsMultilayerExtension (s : SpsMultilayerExtension) : IndB (dumpSpsMultilayerExtension s) := by
  unfold dumpSpsMultilayerExtension dumpSpsMultilayerExtension.items
  indent

theorem ind_dumpSps3dExtension (s : Sps3dExtension) : IndB (dumpSps3dExtension s) := by
  unfold dumpSps3dExtension dumpSps3dExtension.items
  indent

theorem ind_dumpSpsSccExtension (s : SpsSccExtension) : IndB (dumpSpsSccExtension s) := by
  unfold dumpSpsSccExtension dumpSpsSccExtension.items
  indent

theorem ind_dumpSps (add_resolution : Bool) (v : Sps) : IndB (dumpSps add_resolution v) := by
  unfold dumpSps dumpSps.items
  repeat' first | exact ind_dumpPtl _ _ _ | exact ind_dumpResolution _ | exact ind_dumpVui _ | exact ind_dumpStRefPicSet _ _ _ | exact ind_dumpScalingListData _ | exact ind_dumpSpsRangeExtension _ | exact ind_dumpSpsMultilayerExtension _ | exact ind_dumpSps3dExtension _ | exact ind_dumpSpsSccExtension _ | ind1

theorem ind_dumpPpsMultilayerExtension (s : PpsMultilayerExtension) : IndB (dumpPpsMultilayerExtension s) := by
  unfold dumpPpsMultilayerExtension dumpPpsMultilayerExtension.items
  indent

theorem ind_dumpPpsSccExtension (s : PpsSccExtension) : IndB (dumpPpsSccExtension s) := by
  unfold dumpPpsSccExtension dumpPpsSccExtension.items
  indent

theorem ind_dumpPps (v : Pps) : IndB (dumpPps v) := by
  unfold dumpPps dumpPps.items
  repeat' first | exact ind_dumpScalingListData _ | exact ind_dumpPpsMultilayerExtension _ | exact ind_dumpPpsSccExtension _ | ind1

theorem ind_dumpLtRefPic (S : SpsBody) (s : SliceBody) (i : Nat) : IndS (dumpLtRefPic S s i) := by
  unfold dumpLtRefPic
  indent

theorem ind_dumpPredWeightTable (chroma : Nat) (s : PredWeightTable) : IndB (dumpPredWeightTable chroma s) := by
  unfold dumpPredWeightTable dumpPredWeightTable.items
  indent

theorem ind_dumpSliceSegmentHeader (P : PpsBody) (S : SpsBody) (h : SliceSegmentHeader) : IndB (dumpSliceSegmentHeader P S h) := by
  unfold dumpSliceSegmentHeader dumpSliceSegmentHeader.items
  repeat' first | exact ind_dumpStRefPicSet _ _ _ | exact ind_dumpLtRefPic _ _ _ | exact ind_dumpPredWeightTable _ _ | ind1

theorem ind_dumpSliceSegmentLayer (P : PpsBody) (S : SpsBody) (h : SliceSegmentHeader) : IndB (dumpSliceSegmentLayer P S h) := by
  unfold dumpSliceSegmentLayer dumpSliceSegmentLayer.items
  repeat' first | exact ind_dumpSliceSegmentHeader _ _ _ | ind1

theorem ind_dumpSeiUserDataRegistered (s : SeiUserDataRegistered) : IndB (dumpSeiUserDataRegistered s) := by
  unfold dumpSeiUserDataRegistered dumpSeiUserDataRegistered.items
  indent

theorem ind_dumpSeiUserDataUnregistered (s : SeiUserDataUnregistered) : IndB (dumpSeiUserDataUnregistered s) := by
  unfold dumpSeiUserDataUnregistered dumpSeiUserDataUnregistered.items
  indent

theorem ind_dumpSeiAlphaChannelInfo (s : SeiAlphaChannelInfo) : IndB (dumpSeiAlphaChannelInfo s) := by
  unfold dumpSeiAlphaChannelInfo dumpSeiAlphaChannelInfo.items
  indent

theorem ind_dumpSeiMasteringDisplay (s : SeiMasteringDisplay) : IndB (dumpSeiMasteringDisplay s) := by
  unfold dumpSeiMasteringDisplay dumpSeiMasteringDisplay.items
  indent

theorem ind_dumpSeiContentLightLevel (s : SeiContentLightLevel) : IndB (dumpSeiContentLightLevel s) := by
  unfold dumpSeiContentLightLevel dumpSeiContentLightLevel.items
  indent

theorem ind_dumpSeiKneeFunction (s : SeiKneeFunction) : IndB (dumpSeiKneeFunction s) := by
  unfold dumpSeiKneeFunction dumpSeiKneeFunction.items
  indent

theorem ind_dumpSeiColourRemapping (s : SeiColourRemapping) : IndB (dumpSeiColourRemapping s) := by
  unfold dumpSeiColourRemapping dumpSeiColourRemapping.items
  indent

theorem ind_dumpSeiContentColourVolume (s : SeiContentColourVolume) : IndB (dumpSeiContentColourVolume s) := by
  unfold dumpSeiContentColourVolume dumpSeiContentColourVolume.items
  indent

theorem ind_dumpSeiAlternativeTransfer (s : SeiAlternativeTransfer) : IndB (dumpSeiAlternativeTransfer s) := by
  unfold dumpSeiAlternativeTransfer dumpSeiAlternativeTransfer.items
  indent

theorem ind_dumpSeiAmbientViewing (s : SeiAmbientViewing) : IndB (dumpSeiAmbientViewing s) := by
  unfold dumpSeiAmbientViewing dumpSeiAmbientViewing.items
  indent

theorem ind_dumpSeiUnknown (s : SeiUnknown) : IndB (dumpSeiUnknown s) := by
  unfold dumpSeiUnknown dumpSeiUnknown.items
  indent

theorem ind_dumpSeiPayload (s : SeiPayload) : IndB (dumpSeiPayload s) := by
  unfold dumpSeiPayload
  cases s
  · exact ind_dumpSeiUserDataRegistered _
  · exact ind_dumpSeiUserDataUnregistered _
  · exact ind_dumpSeiMasteringDisplay _
  · exact ind_dumpSeiContentLightLevel _
  · exact ind_dumpSeiKneeFunction _
  · exact ind_dumpSeiColourRemapping _
  · exact ind_dumpSeiContentColourVolume _
  · exact ind_dumpSeiAlternativeTransfer _
  · exact ind_dumpSeiAmbientViewing _
  · exact ind_dumpSeiAlphaChannelInfo _
  · exact ind_dumpSeiUnknown _

theorem ind_dumpSei (s : SeiMessage) : IndB (dumpSei s) := by
  unfold dumpSei dumpSei.items
  repeat' first | exact ind_dumpSeiPayload _ | ind1

theorem ind_dumpSlice (st : ParserState) (h : SliceSegmentHeader) : IndB (dumpSlice st h) := by
  unfold dumpSlice
  repeat' first | exact ind_dumpSliceSegmentLayer _ _ _ | ind1

theorem ind_dumpNalUnitPayload (o : ParsingOptions) (st : ParserState) (t : Nat) (p : NalUnitPayload) : IndB (dumpNalUnitPayload o st t p) := by
  unfold dumpNalUnitPayload dumpNalUnitPayload.items
  refine IndB.blk (StartOk.lit _ rfl rfl) (NameOk.lit _ rfl rfl) (IndAll.cons (IndS.on ?_) IndAll.nil)
  repeat' first
    | exact ind_dumpSlice _ _ | exact ind_dumpVps _ | exact ind_dumpSps _ _ | exact ind_dumpPps _ | exact ind_dumpAud _ | exact ind_dumpSei _
    | split | ind1

theorem ind_dumpNalUnit (o : ParsingOptions) (st : ParserState) (n : NalUnit) : IndB (dumpNalUnit o st n) := by
  unfold dumpNalUnit dumpNalUnit.items
  repeat' first | exact ind_dumpNalUnitHeader _ | exact ind_dumpNalUnitPayload _ _ _ _ | exact neutral_checksum _ | ind1

theorem ind_dumpHvccUnit (o : ParsingOptions) (j i : Nat) (x : ParserState × HvccUnit) : IndS (dumpHvccUnit o j i x) := by
  unfold dumpHvccUnit
  exact IndS.seq (IndAll.cons (IndS.fld (startOk_indexed (startOk_indexed (StartOk.lit _ rfl rfl) j) i) (nameOk_indexed (nameOk_indexed (NameOk.lit _ rfl rfl) j) i) (neutral_putI _))
    (IndAll.cons (IndS.on (IndB.deref (fun n => ind_dumpNalUnit o x.1 n))) IndAll.nil))

theorem ind_dumpHvccArray (o : ParsingOptions) (j : Nat) (x : ParserState × HvccArray) : IndS (dumpHvccArray o j x) := by
  unfold dumpHvccArray
  have f : ∀ (n : String) (v : Nat), StartOk n → NameOk n → IndS (Dump.fld (indexed n j) (putI v)) := fun n v hs h => IndS.fld (startOk_indexed hs j) (nameOk_indexed h j) (neutral_putI v)
  exact IndS.seq (IndAll.cons (f _ _ (StartOk.lit _ rfl rfl) (NameOk.lit _ rfl rfl)) (IndAll.cons (f _ _ (StartOk.lit _ rfl rfl) (NameOk.lit _ rfl rfl)) (IndAll.cons (f _ _ (StartOk.lit _ rfl rfl) (NameOk.lit _ rfl rfl))
    (IndAll.cons (f _ _ (StartOk.lit _ rfl rfl) (NameOk.lit _ rfl rfl)) (IndAll.cons (IndS.upTo (fun i x => ind_dumpHvccUnit o j i x)) IndAll.nil)))))

theorem ind_dumpConfigurationBox (o : ParsingOptions) (st : ParserState) (b : ConfigurationBox) : IndB (dumpConfigurationBox o st b) := by
  unfold dumpConfigurationBox dumpHvccHeader.items
  refine IndB.blk (StartOk.lit _ rfl rfl) (NameOk.lit _ rfl rfl) (IndAll.append ?_ ?_)
  · indent
  · repeat' first | exact ind_dumpHvccArray _ _ _ | ind1

theorem ind_dumpRtpSingle (o : ParsingOptions) (st : ParserState) (r : RtpSingle) : IndB (dumpRtpSingle o st r) := by
  unfold dumpRtpSingle
  repeat' first | exact ind_dumpNalUnitHeader _ | exact ind_dumpNalUnitPayload _ _ _ _ | ind1

theorem ind_dumpRtpApUnit (o : ParsingOptions) (x : ParserState × RtpApUnit) : IndS (dumpRtpApUnit o x) := by
  unfold dumpRtpApUnit
  repeat' first | exact ind_dumpNalUnitHeader _ | exact ind_dumpNalUnitPayload _ _ _ _ | ind1

theorem ind_dumpRtpAp (o : ParsingOptions) (st : ParserState) (r : RtpAp) : IndB (dumpRtpAp o st r) := by
  unfold dumpRtpAp
  repeat' first | exact ind_dumpNalUnitHeader _ | exact ind_dumpRtpApUnit _ _ | ind1

theorem ind_dumpRtpFu (o : ParsingOptions) (st : ParserState) (r : RtpFu) : IndB (dumpRtpFu o st r) := by
  unfold dumpRtpFu
  repeat' first | exact ind_dumpNalUnitHeader _ | exact ind_dumpNalUnitPayload _ _ _ _ | ind1

theorem ind_dumpRtp (o : ParsingOptions) (st : ParserState) (r : Rtp) : IndB (dumpRtp o st r) := by
  unfold dumpRtp
  refine (IndBlk.blkBody (StartOk.lit _ rfl rfl) (NameOk.lit _ rfl rfl) (IndBody.glue (indBlk_dumpNalUnitHeader _) ?_)).indB
  repeat' first | exact ind_dumpRtpSingle _ _ _ | exact ind_dumpRtpAp _ _ _ | exact ind_dumpRtpFu _ _ _ | split | ind1

end H265
