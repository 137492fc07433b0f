/-
C74: the command line as typed.
-/
import Verif.Spec.CommandLine
import Verif.Props.Tool

set_option autoImplicit false

namespace H265
open Spec

/-! ### Names of options -/

/-- an option with its argument, as `getopt_long` returns it -/
def optEvent (x : OptCode × List Char) : GetoptEvent := .opt x.1 x.2

theorem longopts_all (o : OptCode) : (optionName o, hasArgument o, o) ∈ longopts := by cases o <;> decide

theorem longopts_only : ∀ e ∈ longopts, e = (optionName e.2.2, hasArgument e.2.2, e.2.2) := by decide +kernel

theorem longopts_nodup : longopts.Nodup := by decide +kernel

theorem optionName_inj {o o' : OptCode} (h : (optionName o).toList = (optionName o').toList) : o = o' := by
  have key : ∀ e ∈ longopts, ∀ e' ∈ longopts, e.1.toList = e'.1.toList → e.2.2 = e'.2.2 := by decide +kernel
  exact key _ (longopts_all o) _ (longopts_all o') h

theorem optionName_no_eq (o : OptCode) : '=' ∉ (optionName o).toList := by
  have key : ∀ e ∈ longopts, '=' ∉ e.1.toList := by decide +kernel
  exact key _ (longopts_all o)

theorem Spec.Means.no_eq {name : List Char} {o : OptCode} (h : Means name o) : '=' ∉ name := by
  rcases h with h | ⟨h, _⟩
  · rw [h]; exact optionName_no_eq o
  · exact fun hm => optionName_no_eq o (h.subset hm)

theorem Spec.Means.ne_nil {name : List Char} {o : OptCode} (h : Means name o) : name ≠ [] := by
  rintro rfl
  rcases h with h | ⟨_, h⟩
  · cases o <;> exact absurd h (by decide)
  · have h1 := h .debug List.nil_prefix
    have h2 := h .infile List.nil_prefix
    rw [← h2] at h1; cases h1

theorem filter_unique {α : Type} {p : α → Bool} {a : α} : ∀ {l : List α}, l.Nodup → a ∈ l → p a = true → (∀ b ∈ l, p b = true → b = a) → l.filter p = [a]
  | [], _, h, _, _ => by cases h
  | b :: l, hn, hm, hp, hu => by
    have hn' := List.nodup_cons.1 hn
    by_cases hb : p b = true
    · have hba := hu b (by simp) hb
      subst hba
      rw [List.filter_cons_of_pos hb]
      congr 1
      rw [List.filter_eq_nil_iff]
      intro c hc hpc
      exact hn'.1 ((hu c (List.mem_cons_of_mem _ hc) hpc) ▸ hc)
    · rw [List.filter_cons_of_neg hb]
      have hm' : a ∈ l := by
        rcases List.mem_cons.1 hm with h | h
        · subst h; exact absurd hp hb
        · exact h
      exact filter_unique hn'.2 hm' hp (fun c hc => hu c (List.mem_cons_of_mem _ hc))

theorem findLong_iff {name : List Char} {b : Bool} {o : OptCode} : findLong name = some (b, o) ↔ Means name o ∧ b = hasArgument o := by
  unfold findLong
  cases hf : longopts.find? (fun e => e.1.toList == name) with
  | some e =>
    dsimp only
    have hm := List.mem_of_find?_eq_some hf
    have he := longopts_only e hm
    have hp : e.1.toList = name := by simpa using List.find?_some hf
    have hn : name = (optionName e.2.2).toList := by rw [← hp]; exact congrArg (fun x => x.1.toList) he
    constructor
    · intro h
      have h2 : e.2 = (b, o) := by injection h
      have h3 : e.2.2 = o := by rw [h2]
      have h4 : e.2.1 = b := by rw [h2]
      refine ⟨.inl (by rw [← h3]; exact hn), ?_⟩
      rw [← h4, ← h3]; exact congrArg (fun x => x.2.1) he
    · rintro ⟨hmn, hb⟩
      have ho : e.2.2 = o := by
        rcases hmn with h | ⟨_, h⟩
        · exact optionName_inj (hn.symm.trans h)
        · exact h _ (by rw [hn]; exact List.prefix_rfl)
      have : e.2 = (b, o) := by
        rw [hb, ← ho]; exact congrArg Prod.snd he
      rw [this]
  | none =>
    dsimp only
    have hnone : ∀ o', name ≠ (optionName o').toList := by
      intro o' h
      have := List.find?_eq_none.1 hf _ (longopts_all o')
      simp [h] at this
    constructor
    · intro h
      split at h
      · rename_i e hfl
        have hme : e ∈ longopts.filter (fun e => name.isPrefixOf e.1.toList) := by rw [hfl]; simp
        have he := longopts_only e (List.mem_filter.1 hme).1
        have h2 : e.2 = (b, o) := by injection h
        have h3 : e.2.2 = o := by rw [h2]
        have h4 : e.2.1 = b := by rw [h2]
        have hpre : name <+: e.1.toList := List.isPrefixOf_iff_prefix.1 (List.mem_filter.1 hme).2
        refine ⟨.inr ⟨?_, ?_⟩, ?_⟩
        · rw [← h3]
          have : (optionName e.2.2) = e.1 := (congrArg Prod.fst he).symm
          rw [this]; exact hpre
        · intro o' ho'
          have : (optionName o', hasArgument o', o') ∈ longopts.filter (fun e => name.isPrefixOf e.1.toList) :=
            List.mem_filter.2 ⟨longopts_all o', List.isPrefixOf_iff_prefix.2 ho'⟩
          rw [hfl] at this
          have := List.mem_singleton.1 this
          rw [← h3, ← this]
        · rw [← h4, ← h3]; exact congrArg (fun x => x.2.1) he
      · cases h
    · rintro ⟨hmn, hb⟩
      rcases hmn with h | ⟨hp, hu⟩
      · exact absurd h (hnone o)
      · have : longopts.filter (fun e => name.isPrefixOf e.1.toList) = [(optionName o, hasArgument o, o)] := by
          refine filter_unique longopts_nodup (longopts_all o) (List.isPrefixOf_iff_prefix.2 hp) ?_
          intro e hm he
          have h1 := longopts_only e hm
          have h2 : e.2.2 = o := hu _ (by
            have : (optionName e.2.2) = e.1 := (congrArg Prod.fst h1).symm
            rw [this]; exact List.isPrefixOf_iff_prefix.1 he)
          rw [h1, h2]
        rw [this, hb]

theorem shortopt_iff {c : Char} {b : Bool} {o : OptCode} : shortopt c = some (b, o) ↔ optionLetter o = some c ∧ b = hasArgument o := by
  unfold shortopt
  constructor
  · intro h
    split at h
    · rename_i hc; cases h; exact ⟨by rw [hc]; rfl, rfl⟩
    split at h
    · rename_i hc; cases h; exact ⟨by rw [hc]; rfl, rfl⟩
    split at h
    · rename_i hc; cases h; exact ⟨by rw [hc]; rfl, rfl⟩
    split at h
    · rename_i hc; cases h; exact ⟨by rw [hc]; rfl, rfl⟩
    cases h
  · rintro ⟨h, hb⟩
    subst hb
    cases o <;> cases h <;> rfl

theorem letter_ne_dash {c : Char} {o : OptCode} (h : optionLetter o = some c) : c ≠ '-' := by
  cases o <;> cases h <;> decide

/-! ### Long options -/

theorem splitLong_none {cs name : List Char} : splitLong cs = (name, none) ↔ cs = name ∧ '=' ∉ name := by
  induction cs generalizing name with
  | nil =>
    unfold splitLong
    constructor
    · intro h; cases h; exact ⟨rfl, by simp⟩
    · rintro ⟨h, _⟩; rw [← h]
  | cons c cs ih =>
    unfold splitLong
    by_cases hc : c = '='
    · rw [if_pos hc]
      constructor
      · intro h; cases h
      · rintro ⟨h, h2⟩; exact absurd (by rw [← h, hc]; simp) h2
    · rw [if_neg hc]
      constructor
      · intro h
        have h1 : (splitLong cs).2 = none := congrArg Prod.snd h
        have h0 : c :: (splitLong cs).1 = name := congrArg Prod.fst h
        have := (ih (name := (splitLong cs).1)).1 (Prod.ext rfl h1)
        refine ⟨by rw [← h0, ← this.1], ?_⟩
        rw [← h0]
        simp only [List.mem_cons, not_or]
        exact ⟨fun h => hc h.symm, this.2⟩
      · rintro ⟨h, h2⟩
        subst h
        simp only [List.mem_cons, not_or] at h2
        have := ih.2 ⟨rfl, h2.2⟩
        rw [this]

theorem splitLong_some {cs name v : List Char} : splitLong cs = (name, some v) ↔ cs = name ++ '=' :: v ∧ '=' ∉ name := by
  induction cs generalizing name with
  | nil =>
    unfold splitLong
    constructor
    · intro h; cases h
    · rintro ⟨h, _⟩; cases name <;> cases h
  | cons c cs ih =>
    unfold splitLong
    by_cases hc : c = '='
    · rw [if_pos hc]
      constructor
      · intro h; cases h; exact ⟨by rw [hc]; rfl, by simp⟩
      · rintro ⟨h, h2⟩
        cases name with
        | nil => cases h; rfl
        | cons d name => cases h; exact absurd (by rw [hc]; simp) h2
    · rw [if_neg hc]
      constructor
      · intro h
        have h1 : (splitLong cs).2 = some v := congrArg Prod.snd h
        have h0 : c :: (splitLong cs).1 = name := congrArg Prod.fst h
        have := (ih (name := (splitLong cs).1)).1 (Prod.ext rfl h1)
        refine ⟨by rw [← h0]; exact congrArg _ this.1, ?_⟩
        rw [← h0]
        simp only [List.mem_cons, not_or]
        exact ⟨fun h => hc h.symm, this.2⟩
      · rintro ⟨h, h2⟩
        cases name with
        | nil => cases h; exact absurd rfl hc
        | cons d name =>
          cases h
          simp only [List.mem_cons, not_or] at h2
          have := ih.2 ⟨rfl, h2.2⟩
          rw [this]

/-! ### One argument -/

theorem getoptLong_nil : getoptLong [] = [] := by rw [getoptLong]

theorem getoptLong_stop (l : List (List Char)) : getoptLong (['-', '-'] :: l) = [] := by rw [getoptLong]

theorem getoptLong_other {a : List Char} (l : List (List Char)) (ha : a = ['-'] ∨ a.head? ≠ some '-') : getoptLong (a :: l) = getoptLong l := by
  rw [getoptLong]
  all_goals
    intros
    rename_i h
    subst h
    rcases ha with h | h <;> simp at h

/-- what a long option is -/
def longStep (cs : List Char) (l : List (List Char)) : List GetoptEvent :=
  match findLong (splitLong cs).1 with
  | none => [.unknown]
  | some (false, o) =>
    match (splitLong cs).2 with
    | some _ => [.unknown]
    | none => .opt o [] :: getoptLong l
  | some (true, o) =>
    match (splitLong cs).2 with
    | some v => .opt o v :: getoptLong l
    | none =>
      match l with
      | [] => [.unknown]
      | v :: l' => .opt o v :: getoptLong l'

theorem getoptLong_long {cs : List Char} (l : List (List Char)) (hcs : cs ≠ []) : getoptLong (('-' :: '-' :: cs) :: l) = longStep cs l := by
  rw [getoptLong]
  · unfold longStep
    cases cs with
    | nil => exact absurd rfl hcs
    | cons c cs => rfl
  · exact hcs

/-- what a group of short options is -/
def shortStep (cs : List Char) (l : List (List Char)) : List GetoptEvent :=
  match shortGroup cs with
  | (es, none) => es ++ getoptLong l
  | (es, some o) =>
    match l with
    | [] => es ++ [.unknown]
    | v :: l' => es ++ .opt o v :: getoptLong l'

theorem getoptLong_short {c : Char} {cs : List Char} (l : List (List Char)) (hc : c ≠ '-') : getoptLong (('-' :: c :: cs) :: l) = shortStep (c :: cs) l := by
  rw [getoptLong]
  · rfl
  · exact fun h _ => hc h
  · exact fun h => hc h

theorem shortStep_flag {c : Char} {cs : List Char} {o : OptCode} (l : List (List Char)) (h : shortopt c = some (false, o)) :
    shortStep (c :: cs) l = .opt o [] :: shortStep cs l := by
  unfold shortStep
  conv => lhs; unfold shortGroup
  rw [h]
  dsimp only
  cases hs : (shortGroup cs).2 with
  | none =>
    have : shortGroup cs = ((shortGroup cs).1, none) := Prod.ext rfl hs
    rw [this]; rfl
  | some o' =>
    have : shortGroup cs = ((shortGroup cs).1, some o') := Prod.ext rfl hs
    rw [this]
    cases l <;> rfl

theorem shortStep_nil (l : List (List Char)) : shortStep [] l = getoptLong l := rfl

/-! ### All arguments -/

/-- C74: what the user typed is what the program sees -/
theorem typed_getopt {args : List (List Char)} {os : List (OptCode × List Char)} (h : Typed args os) : getoptLong args = os.map optEvent := by
  induction h with
  | nil => exact getoptLong_nil
  | stop l => exact getoptLong_stop l
  | other ha _ ih => rw [getoptLong_other _ ha, ih]
  | @long name o l os hn ho _ ih =>
    rw [getoptLong_long _ hn.ne_nil]
    unfold longStep
    rw [splitLong_none.2 ⟨rfl, hn.no_eq⟩]
    dsimp only
    rw [findLong_iff.2 ⟨hn, rfl⟩, ho]
    dsimp only
    rw [ih]; rfl
  | @longNext name v o l os hn ho _ ih =>
    rw [getoptLong_long _ hn.ne_nil]
    unfold longStep
    rw [splitLong_none.2 ⟨rfl, hn.no_eq⟩]
    dsimp only
    rw [findLong_iff.2 ⟨hn, rfl⟩, ho]
    dsimp only
    rw [ih]; rfl
  | @longEq name v o l os hn ho _ ih =>
    rw [getoptLong_long _ (by simp)]
    unfold longStep
    rw [splitLong_some.2 ⟨rfl, hn.no_eq⟩]
    dsimp only
    rw [findLong_iff.2 ⟨hn, rfl⟩, ho]
    dsimp only
    rw [ih]; rfl
  | @short c o l os hc ho _ ih =>
    rw [getoptLong_short _ (letter_ne_dash hc), shortStep_flag (o := o) _ (shortopt_iff.2 ⟨hc, ho.symm⟩), shortStep_nil, ih]; rfl
  | @group c c' cs o l os hc ho hd _ ih =>
    rw [getoptLong_short _ (letter_ne_dash hc), shortStep_flag (o := o) _ (shortopt_iff.2 ⟨hc, ho.symm⟩), ← getoptLong_short _ hd, ih]; rfl
  | @shortNext c v o l os hc ho _ ih =>
    rw [getoptLong_short _ (letter_ne_dash hc)]
    unfold shortStep shortGroup
    rw [shortopt_iff.2 ⟨hc, ho.symm⟩]
    dsimp only
    rw [if_pos rfl]
    dsimp only
    rw [ih]; rfl
  | @shortArg c v o l os hc ho hv _ ih =>
    rw [getoptLong_short _ (letter_ne_dash hc)]
    unfold shortStep shortGroup
    rw [shortopt_iff.2 ⟨hc, ho.symm⟩]
    dsimp only
    rw [if_neg hv]
    dsimp only
    rw [ih]; rfl

theorem map_event_cons {os : List (OptCode × List Char)} {o : OptCode} {v : List Char} {es : List GetoptEvent} (h : .opt o v :: es = os.map optEvent) :
    ∃ os', os = (o, v) :: os' ∧ es = os'.map optEvent := by
  cases os with
  | nil => cases h
  | cons x os' =>
    obtain ⟨a, b⟩ := x
    have h1 : GetoptEvent.opt o v = .opt a b := (List.cons.inj h).1
    cases h1
    exact ⟨os', rfl, (List.cons.inj h).2⟩

theorem map_event_unknown {os : List (OptCode × List Char)} {es : List GetoptEvent} (h : .unknown :: es = os.map optEvent) : False := by
  cases os with
  | nil => cases h
  | cons x os' => have := (List.cons.inj h).1; unfold optEvent at this; cases this

theorem short_typed {l : List (List Char)} (ih : ∀ l', l'.length ≤ l.length → ∀ os, getoptLong l' = os.map optEvent → Typed l' os) :
    ∀ (cs : List Char) (c : Char) (os : List (OptCode × List Char)), c ≠ '-' → shortStep (c :: cs) l = os.map optEvent → Typed (('-' :: c :: cs) :: l) os := by
  intro cs
  induction cs with
  | nil =>
    intro c os hc h
    cases hs : shortopt c with
    | none =>
      unfold shortStep shortGroup at h
      rw [hs] at h
      exact (map_event_unknown h).elim
    | some x =>
      obtain ⟨b, o⟩ := x
      have hx := shortopt_iff.1 hs
      cases b with
      | false =>
        rw [shortStep_flag _ hs, shortStep_nil] at h
        obtain ⟨os', rfl, h'⟩ := map_event_cons h
        exact .short hx.1 hx.2.symm (ih l (Nat.le_refl _) _ h')
      | true =>
        unfold shortStep shortGroup at h
        rw [hs] at h
        dsimp only at h
        rw [if_pos rfl] at h
        cases l with
        | nil => exact (map_event_unknown h).elim
        | cons v l =>
          obtain ⟨os', rfl, h'⟩ := map_event_cons h
          exact .shortNext hx.1 hx.2.symm (ih l (by simp) _ h')
  | cons c' cs ihc =>
    intro c os hc h
    cases hs : shortopt c with
    | none =>
      unfold shortStep shortGroup at h
      rw [hs] at h
      exact (map_event_unknown h).elim
    | some x =>
      obtain ⟨b, o⟩ := x
      have hx := shortopt_iff.1 hs
      cases b with
      | false =>
        rw [shortStep_flag _ hs] at h
        obtain ⟨os', rfl, h'⟩ := map_event_cons h
        by_cases hd : c' = '-'
        · subst hd
          unfold shortStep shortGroup at h'
          have : shortopt '-' = none := rfl
          rw [this] at h'
          exact (map_event_unknown h').elim
        · exact .group hx.1 hx.2.symm hd (ihc c' os' hd h')
      | true =>
        unfold shortStep shortGroup at h
        rw [hs] at h
        dsimp only at h
        rw [if_neg (by simp)] at h
        obtain ⟨os', rfl, h'⟩ := map_event_cons h
        exact .shortArg hx.1 hx.2.symm (by simp) (ih l (Nat.le_refl _) _ h')

theorem getopt_typed : ∀ (n : Nat) (args : List (List Char)) (os : List (OptCode × List Char)), args.length ≤ n → getoptLong args = os.map optEvent → Typed args os := by
  intro n
  induction n with
  | zero =>
    intro args os hn h
    cases args with
    | nil =>
      rw [getoptLong_nil] at h
      cases os with
      | nil => exact .nil
      | cons => cases h
    | cons => simp at hn
  | succ n ih =>
    intro args os hn h
    cases args with
    | nil =>
      rw [getoptLong_nil] at h
      cases os with
      | nil => exact .nil
      | cons => cases h
    | cons a l =>
      have hl : l.length ≤ n := by simpa using hn
      have ihl : ∀ l', l'.length ≤ l.length → ∀ os, getoptLong l' = os.map optEvent → Typed l' os := fun l' h' os h => ih l' os (by omega) h
      by_cases ha : a = ['-'] ∨ a.head? ≠ some '-'
      · rw [getoptLong_other _ ha] at h
        exact .other ha (ih l os hl h)
      · obtain ⟨ha1, ha2⟩ := not_or.1 ha
        cases a with
        | nil => simp at ha2
        | cons d a =>
          have hd : d = '-' := by simpa using ha2
          subst hd
          cases a with
          | nil => exact absurd rfl ha1
          | cons c cs =>
            by_cases hc : c = '-'
            · subst hc
              cases cs with
              | nil =>
                rw [getoptLong_stop] at h
                cases os with
                | nil => exact .stop l
                | cons => cases h
              | cons c' cs =>
                rw [getoptLong_long _ (by simp)] at h
                unfold longStep at h
                cases hf : findLong (splitLong (c' :: cs)).1 with
                | none => rw [hf] at h; exact (map_event_unknown h).elim
                | some x =>
                  obtain ⟨b, o⟩ := x
                  rw [hf] at h
                  have hx := findLong_iff.1 hf
                  cases b with
                  | false =>
                    dsimp only at h
                    cases hv : (splitLong (c' :: cs)).2 with
                    | some v => rw [hv] at h; exact (map_event_unknown h).elim
                    | none =>
                      rw [hv] at h
                      obtain ⟨os', rfl, h'⟩ := map_event_cons h
                      have hsp := (splitLong_none (cs := c' :: cs) (name := (splitLong (c' :: cs)).1)).1 (Prod.ext rfl hv)
                      rw [hsp.1]
                      exact .long hx.1 hx.2.symm (ih l os' hl h')
                  | true =>
                    dsimp only at h
                    cases hv : (splitLong (c' :: cs)).2 with
                    | some v =>
                      rw [hv] at h
                      obtain ⟨os', rfl, h'⟩ := map_event_cons h
                      have hsp := (splitLong_some (cs := c' :: cs) (name := (splitLong (c' :: cs)).1) (v := v)).1 (Prod.ext rfl hv)
                      rw [hsp.1]
                      exact .longEq hx.1 hx.2.symm (ih l os' hl h')
                    | none =>
                      rw [hv] at h
                      have hsp := (splitLong_none (cs := c' :: cs) (name := (splitLong (c' :: cs)).1)).1 (Prod.ext rfl hv)
                      cases l with
                      | nil => exact (map_event_unknown h).elim
                      | cons v l =>
                        obtain ⟨os', rfl, h'⟩ := map_event_cons h
                        rw [hsp.1]
                        exact .longNext hx.1 hx.2.symm (ih l os' (by simp at hl; omega) h')
            · rw [getoptLong_short _ hc] at h
              exact short_typed ihl cs c os hc h

/-- C74: the options the program sees are exactly those the user typed -/
theorem C74_seen (args : List (List Char)) (os : List (OptCode × List Char)) : getoptLong args = os.map optEvent ↔ Typed args os :=
  ⟨fun h => getopt_typed args.length args os (Nat.le_refl _) h, typed_getopt⟩

/-! ### Numbers -/

theorem char_of_toNat {c : Char} {n : Nat} (h : c.toNat = n) : c = Char.ofNat n := by rw [← h, Char.ofNat_toNat]

theorem isSpace_iff (c : Char) : isSpace c = true ↔ c ∈ whiteSpace := by
  constructor
  · intro h
    unfold isSpace at h
    simp only [Bool.or_eq_true, beq_iff_eq, Bool.and_eq_true, decide_eq_true_eq] at h
    rcases h with rfl | ⟨h1, h2⟩
    · decide
    · have : c.toNat = 9 ∨ c.toNat = 10 ∨ c.toNat = 11 ∨ c.toNat = 12 ∨ c.toNat = 13 := by omega
      rcases this with h | h | h | h | h <;> rw [char_of_toNat h] <;> decide
  · intro h
    have key : ∀ c ∈ whiteSpace, isSpace c = true := by decide
    exact key c h

theorem isDigit10_iff (c : Char) : isDigit10 c = true ↔ c ∈ digits := by
  constructor
  · intro h
    unfold isDigit10 at h
    simp only [Bool.and_eq_true, decide_eq_true_eq] at h
    have : c.toNat = 48 ∨ c.toNat = 49 ∨ c.toNat = 50 ∨ c.toNat = 51 ∨ c.toNat = 52 ∨ c.toNat = 53 ∨ c.toNat = 54 ∨ c.toNat = 55 ∨ c.toNat = 56 ∨ c.toNat = 57 := by
      omega
    rcases this with h | h | h | h | h | h | h | h | h | h <;> rw [char_of_toNat h] <;> decide
  · intro h
    have key : ∀ c ∈ digits, isDigit10 c = true := by decide
    exact key c h

theorem digitsValue_append (ds : List Char) : ∀ n, ds.foldl (fun n c => n * 10 + (c.toNat - 48)) n = n * 10 ^ ds.length + digitsValue ds := by
  induction ds with
  | nil => intro n; simp [digitsValue]
  | cons c ds ih =>
    intro n
    unfold digitsValue
    simp only [List.foldl_cons, List.length_cons]
    rw [ih, ih]
    rw [Nat.zero_mul, Nat.zero_add, Nat.add_mul, Nat.mul_assoc, ← Nat.pow_succ', Nat.add_assoc]

theorem digitsValue_eq {ds : List Char} (h : ∀ c ∈ ds, c ∈ digits) : digitsValue ds = decimalValue ds := by
  induction ds with
  | nil => rfl
  | cons c ds ih =>
    have h1 : digitsValue (c :: ds) = (c.toNat - 48) * 10 ^ ds.length + digitsValue ds := by
      conv => lhs; unfold digitsValue
      simp only [List.foldl_cons]
      rw [digitsValue_append]; simp
    have h2 : c.toNat - 48 = digits.idxOf c := by
      have key : ∀ c ∈ digits, c.toNat - 48 = digits.idxOf c := by decide +kernel
      exact key c (h c (by simp))
    rw [h1, h2, ih (fun c hc => h c (by simp [hc]))]
    rfl

theorem dropWhile_all_append {p : Char → Bool} : ∀ {ws r : List Char}, (∀ c ∈ ws, p c = true) → (∀ c, r.head? = some c → p c = false) → (ws ++ r).dropWhile p = r
  | [], r, _, hr => by
    cases r with
    | nil => rfl
    | cons c r => rw [List.nil_append, List.dropWhile_cons_of_neg]; rw [hr c rfl]; simp
  | c :: ws, r, hw, hr => by
    rw [List.cons_append, List.dropWhile_cons_of_pos (hw c (by simp))]
    exact dropWhile_all_append (fun d hd => hw d (by simp [hd])) hr

theorem mem_takeWhile_true {p : Char → Bool} : ∀ {l : List Char} {c : Char}, c ∈ l.takeWhile p → p c = true
  | [], c, h => by cases h
  | a :: l, c, h => by
    by_cases ha : p a = true
    · rw [List.takeWhile_cons_of_pos ha] at h
      rcases List.mem_cons.1 h with rfl | h
      · exact ha
      · exact mem_takeWhile_true h
    · rw [List.takeWhile_cons_of_neg ha] at h; cases h

theorem takeWhile_all {p : Char → Bool} : ∀ {ds : List Char}, (∀ c ∈ ds, p c = true) → ds.takeWhile p = ds
  | [], _ => rfl
  | c :: ds, h => by
    rw [List.takeWhile_cons_of_pos (h c (by simp)), takeWhile_all (fun d hd => h d (by simp [hd]))]

/-- which numbers `strtol` and the checks after it accept -/
theorem number_iff (s : List Char) (x : Int) : toolNumber (argNumber s) = some x ↔ ∃ n : Nat, x = n ∧ n < 2 ^ 31 ∧ NumberText s n := by
  have hp31 : (2 : Int) ^ 31 - 1 = 2147483647 := by decide
  have hn31 : (2 : Nat) ^ 31 = 2147483648 := by decide
  have hp63 : (2 : Int) ^ 63 - 1 = 9223372036854775807 := by decide
  have hm63 : - (2 : Int) ^ 63 = -9223372036854775808 := by decide
  constructor
  · intro h
    unfold toolNumber at h
    cases ha : argNumber s with
    | none => rw [ha] at h; cases h
    | some v =>
      rw [ha] at h
      dsimp only at h
      split at h
      · cases h
      rename_i hv
      have hvx : v = x := by injection h
      subst hvx
      have hv0 : 0 ≤ v ∧ v ≤ 2147483647 := by rw [hp31] at hv; omega
      refine ⟨v.toNat, by omega, by omega, ?_⟩
      unfold argNumber strtol at ha
      dsimp only at ha
      generalize hu : (if ((s.dropWhile isSpace).head? == some '-' || (s.dropWhile isSpace).head? == some '+') = true then (s.dropWhile isSpace).drop 1 else s.dropWhile isSpace) = u at ha
      by_cases hds : u.takeWhile isDigit10 = []
      · rw [if_pos hds] at ha
        dsimp only at ha
        split at ha
        · cases ha
        · rename_i hr
          obtain ⟨_, hr⟩ := not_or.1 hr
          cases ha
          left
          exact ⟨Decidable.not_not.1 hr, rfl⟩
      · rw [if_neg hds] at ha
        generalize hneg : ((s.dropWhile isSpace).head? == some '-') = neg at ha
        generalize hvv : (if neg = true then -(digitsValue (u.takeWhile isDigit10) : Int) else digitsValue (u.takeWhile isDigit10)) = vv at ha
        have hrest : u.drop (u.takeWhile isDigit10).length = [] ∧ v = vv := by
          split at ha
          · dsimp only at ha; simp at ha
          split at ha
          · dsimp only at ha; simp at ha
          · dsimp only at ha
            split at ha
            · cases ha
            · rename_i hr
              obtain ⟨_, hr⟩ := not_or.1 hr
              cases ha
              exact ⟨Decidable.not_not.1 hr, rfl⟩
        have hud : u.takeWhile isDigit10 = u := by
          have h1 := List.takeWhile_append_dropWhile (p := isDigit10) (l := u)
          have h2 : (u.takeWhile isDigit10).length ≥ u.length := by
            have := List.drop_eq_nil_iff.1 hrest.1; omega
          have h3 : (u.takeWhile isDigit10).length + (u.dropWhile isDigit10).length = u.length := by
            rw [← List.length_append, h1]
          have h4 : u.dropWhile isDigit10 = [] := List.length_eq_zero_iff.1 (by omega)
          rw [h4, List.append_nil] at h1; exact h1
        rw [hud] at hvv
        rw [hud] at hds
        have hdig : ∀ c ∈ u, c ∈ digits := fun c hc => by
          rw [← isDigit10_iff]
          rw [← hud] at hc
          exact (mem_takeWhile_true hc)
        have hws : ∀ c ∈ s.takeWhile isSpace, c ∈ whiteSpace := fun c hc => (isSpace_iff c).1 (mem_takeWhile_true hc)
        have hs := List.takeWhile_append_dropWhile (p := isSpace) (l := s)
        right
        cases ht : s.dropWhile isSpace with
        | nil =>
          rw [ht] at hu
          exact absurd hu.symm (by simpa using hds)
        | cons c t =>
          rw [ht] at hu hneg hs
          by_cases hc1 : c = '-'
          · subst hc1
            have hu' : t = u := by simpa using hu
            have hnt : neg = true := by simpa using hneg.symm
            rw [if_pos hnt] at hvv
            have hzero : digitsValue u = 0 := by omega
            refine ⟨s.takeWhile isSpace, ['-'], u, ?_, hws, .inr (.inr ⟨rfl, by omega⟩), hds, hdig, ?_⟩
            · rw [← hu']; simpa using hs.symm
            · rw [← digitsValue_eq hdig]; omega
          · have hnf : neg = false := by rw [← hneg]; simp [hc1]
            rw [if_neg (by rw [hnf]; simp)] at hvv
            by_cases hc2 : c = '+'
            · subst hc2
              have hu' : t = u := by simpa using hu
              refine ⟨s.takeWhile isSpace, ['+'], u, ?_, hws, .inr (.inl rfl), hds, hdig, ?_⟩
              · rw [← hu']; simpa using hs.symm
              · rw [← digitsValue_eq hdig]; omega
            · have hu' : c :: t = u := by simpa [hc1, hc2] using hu
              refine ⟨s.takeWhile isSpace, [], u, ?_, hws, .inl rfl, hds, hdig, ?_⟩
              · rw [← hu']; simpa using hs.symm
              · rw [← digitsValue_eq hdig]; omega
  · rintro ⟨n, rfl, hn, hN⟩
    suffices hs : argNumber s = some (n : Int) by
      rw [hs]
      unfold toolNumber
      dsimp only
      rw [if_neg (by rw [hp31]; omega)]
    rcases hN with ⟨rfl, rfl⟩ | ⟨ws, sign, ds, rfl, hws, hsign, hne, hdig, hval⟩
    · rfl
    · have hd : ∀ c ∈ ds, isDigit10 c = true := fun c hc => (isDigit10_iff c).2 (hdig c hc)
      obtain ⟨d0, ds', hds⟩ : ∃ d ds', ds = d :: ds' := by
        cases ds with
        | nil => exact absurd rfl hne
        | cons d ds' => exact ⟨d, ds', rfl⟩
      have hd0 : isSpace d0 = false ∧ d0 ≠ '-' ∧ d0 ≠ '+' := by
        have key : ∀ c ∈ digits, isSpace c = false ∧ c ≠ '-' ∧ c ≠ '+' := by decide
        exact key d0 (hdig d0 (by rw [hds]; simp))
      have hdrop : (ws ++ sign ++ ds).dropWhile isSpace = sign ++ ds := by
        rw [List.append_assoc]
        refine dropWhile_all_append (fun c hc => (isSpace_iff c).2 (hws c hc)) ?_
        intro c hc
        rcases hsign with rfl | rfl | ⟨rfl, _⟩
        · rw [hds] at hc; simp at hc; rw [← hc]; exact hd0.1
        · simp at hc; rw [← hc]; decide
        · simp at hc; rw [← hc]; decide
      have hu : (if ((sign ++ ds).head? == some '-' || (sign ++ ds).head? == some '+') = true then (sign ++ ds).drop 1 else sign ++ ds) = ds := by
        rcases hsign with rfl | rfl | ⟨rfl, _⟩
        · rw [hds]; simp [hd0.2]
        · simp
        · simp
      have hv : (if ((sign ++ ds).head? == some '-') = true then -(digitsValue ds : Int) else digitsValue ds) = (n : Int) := by
        rw [digitsValue_eq hdig, hval]
        rcases hsign with rfl | rfl | ⟨rfl, h0⟩
        · rw [hds]; simp [hd0.2]
        · simp
        · rw [h0]; simp
      unfold argNumber strtol
      dsimp only
      have h1 : ¬ ((n : Int) < -2 ^ 63) := by rw [hm63]; omega
      have h2 : ¬ ((n : Int) > 2 ^ 63 - 1) := by rw [hp63]; omega
      rw [hdrop, hu, takeWhile_all hd, if_neg hne, hv, if_neg h1, if_neg h2]
      simp
/-! ### Settings -/

/-- C74: a number option is accepted exactly with the text of a number below 2³¹ -/
theorem C74_numbers (s : List Char) (x : Int) : toolNumber (argNumber s) = some x ↔ ∃ n : Nat, x = n ∧ n < 2 ^ 31 ∧ NumberText s n := number_iff s x

theorem number_none (s : List Char) : toolNumber (argNumber s) = none ↔ ∀ n, n < 2 ^ 31 → ¬ NumberText s n := by
  constructor
  · intro h n hn ht
    rw [(number_iff s n).2 ⟨n, rfl, hn, ht⟩] at h; cases h
  · intro h
    cases hs : toolNumber (argNumber s) with
    | none => rfl
    | some x =>
      obtain ⟨n, _, hn, ht⟩ := (number_iff s x).1 hs
      exact absurd ht (h n hn)

/-- the two settings that are numbers, when the last text given for them is `d` -/
def Spec.IsNumber (default : Int) (d : Option (List Char)) (x : Int) : Prop :=
  match d with
  | none => x = default
  | some t => ∃ n : Nat, NumberText t n ∧ x = n

/-- what one option does to the settings -/
structure StepOf (x : OptCode × List Char) (s s' : Settings) : Prop where
  infile : s'.infile = ((argOf .infile x).map some).getD s.infile
  outfile : s'.outfile = ((argOf .outfile x).map some).getD s.outfile
  hvcc_file : s'.hvcc_file = ((argOf .hvccFile x).map some).getD s.hvcc_file
  debug : s'.debug = if x.1 = .quiet then 0 else if x.1 = .debug then s.debug + 1 else s.debug
  dump_length : s'.opts.dump_length = (flagOf .dumpLength .dumpAll x).getD s.opts.dump_length
  as_one_line : s'.opts.as_one_line = (flagOf .asOneLine .noAsOneLine x).getD s.opts.as_one_line
  add_offset : s'.opts.add_offset = (flagOf .addOffset .noAddOffset x).getD s.opts.add_offset
  add_length : s'.opts.add_length = (flagOf .addLength .noAddLength x).getD s.opts.add_length
  add_parsed_length : s'.opts.add_parsed_length = (flagOf .addParsedLength .noAddParsedLength x).getD s.opts.add_parsed_length
  add_checksum : s'.opts.add_checksum = (flagOf .addChecksum .noAddChecksum x).getD s.opts.add_checksum
  add_resolution : s'.opts.add_resolution = (flagOf .addResolution .noAddResolution x).getD s.opts.add_resolution
  add_contents : s'.opts.add_contents = (flagOf .addContents .noAddContents x).getD s.opts.add_contents
  nalu_length_bytes : match argOf .naluLengthBytes x with
    | none => s'.opts.nalu_length_bytes = s.opts.nalu_length_bytes
    | some t => ∃ n : Nat, NumberText t n ∧ s'.opts.nalu_length_bytes = n
  frames_per_second : match argOf .framesPerSecond x with
    | none => s'.opts.frames_per_second = s.opts.frames_per_second
    | some t => ∃ n : Nat, NumberText t n ∧ s'.opts.frames_per_second = n

theorem argStep_go {v : List Char} {s s' : Settings} {x : OptCode × List Char} (h : argStep v s (optEvent x) = .go s') : StepOf x s s' := by
  obtain ⟨o, a⟩ := x
  unfold optEvent argStep at h
  cases o with
  | naluLengthBytes =>
    dsimp only at h
    unfold toolArg at h
    dsimp only at h
    cases hn : toolNumber (argNumber a) with
    | none => rw [hn] at h; cases h
    | some y =>
      rw [hn] at h
      cases h
      obtain ⟨n, rfl, _, ht⟩ := (number_iff a y).1 hn
      exact ⟨rfl, rfl, rfl, rfl, rfl, rfl, rfl, rfl, rfl, rfl, rfl, rfl, ⟨n, ht, rfl⟩, rfl⟩
  | framesPerSecond =>
    dsimp only at h
    unfold toolArg at h
    dsimp only at h
    cases hn : toolNumber (argNumber a) with
    | none => rw [hn] at h; cases h
    | some y =>
      rw [hn] at h
      cases h
      obtain ⟨n, rfl, _, ht⟩ := (number_iff a y).1 hn
      exact ⟨rfl, rfl, rfl, rfl, rfl, rfl, rfl, rfl, rfl, rfl, rfl, rfl, rfl, ⟨n, ht, rfl⟩⟩
  | _ =>
    first
    | (cases h; done)
    | (dsimp only [toolArg] at h
       cases h
       exact ⟨rfl, rfl, rfl, rfl, rfl, rfl, rfl, rfl, rfl, rfl, rfl, rfl, rfl, rfl⟩)

theorem argStep_exit {v : List Char} {s : Settings} {x : OptCode × List Char} {c : Nat} {t : List Char} (h : argStep v s (optEvent x) = .exit c t) :
    EndsProgram x ∧ ((c = 255 ∧ t = []) ∨ (c = 0 ∧ t = versionText v ∧ x.1 = .version)) := by
  obtain ⟨o, a⟩ := x
  unfold optEvent argStep at h
  cases o with
  | naluLengthBytes =>
    dsimp only at h
    unfold toolArg at h
    dsimp only at h
    cases hn : toolNumber (argNumber a) with
    | none => rw [hn] at h; cases h; exact ⟨.inr (.inr ⟨.inl rfl, (number_none a).1 hn⟩), .inl ⟨rfl, rfl⟩⟩
    | some y => rw [hn] at h; cases h
  | framesPerSecond =>
    dsimp only at h
    unfold toolArg at h
    dsimp only at h
    cases hn : toolNumber (argNumber a) with
    | none => rw [hn] at h; cases h; exact ⟨.inr (.inr ⟨.inr rfl, (number_none a).1 hn⟩), .inl ⟨rfl, rfl⟩⟩
    | some y => rw [hn] at h; cases h
  | version => cases h; exact ⟨.inr (.inl rfl), .inr ⟨rfl, rfl, rfl⟩⟩
  | help => cases h; exact ⟨.inl rfl, .inl ⟨rfl, rfl⟩⟩
  | _ =>
    dsimp only [toolArg] at h
    cases h

theorem argStep_ends {v : List Char} {s s' : Settings} {x : OptCode × List Char} (h : argStep v s (optEvent x) = .go s') : ¬ EndsProgram x := by
  obtain ⟨o, a⟩ := x
  rintro (h1 | h1 | ⟨h1, h2⟩)
  · cases h1; cases h
  · cases h1; cases h
  · have hn := (number_none a).2 h2
    unfold optEvent argStep at h
    rcases h1 with h1 | h1
    · cases h1
      dsimp only [toolArg] at h
      rw [hn] at h; cases h
    · cases h1
      dsimp only [toolArg] at h
      rw [hn] at h; cases h

theorem takeWhile_append_ite {α : Type} (p : α → Bool) (l m : List α) :
    (l ++ m).takeWhile p = if l.all p = true then l ++ m.takeWhile p else l.takeWhile p := by
  induction l with
  | nil => simp
  | cons a l ih =>
    by_cases ha : p a = true
    · rw [List.cons_append, List.takeWhile_cons_of_pos ha, List.takeWhile_cons_of_pos ha, ih]
      simp only [List.all_cons, ha, Bool.true_and]
      split <;> rfl
    · rw [List.cons_append, List.takeWhile_cons_of_neg ha, List.takeWhile_cons_of_neg ha]
      simp [ha]

theorem verbosity_cons (x : OptCode × List Char) (os : List (OptCode × List Char)) :
    verbosity (x :: os) = if (∃ y ∈ os, y.1 = .quiet) then verbosity os else verbosity os + if x.1 = .debug then 1 else 0 := by
  unfold verbosity
  rw [List.reverse_cons, takeWhile_append_ite]
  by_cases hq : ∃ y ∈ os, y.1 = .quiet
  · rw [if_pos hq, if_neg]
    simp only [List.all_reverse, List.all_eq_true, decide_eq_true_eq]
    obtain ⟨y, hy, h⟩ := hq
    exact fun hall => by simpa [h] using hall y hy
  · rw [if_neg hq]
    have hall : os.reverse.all (fun x => decide (x.1 ≠ .quiet)) = true := by
      simp only [List.all_reverse, List.all_eq_true, decide_eq_true_eq]
      exact fun y hy h => hq ⟨y, hy, h⟩
    rw [if_pos hall, List.countP_append]
    have h2 : os.reverse.takeWhile (fun x => decide (x.1 ≠ .quiet)) = os.reverse := by
      have := takeWhile_append_ite (fun x : OptCode × List Char => decide (x.1 ≠ .quiet)) os.reverse []
      rw [if_pos hall] at this
      simpa using this
    rw [h2]
    congr 1
    by_cases hd : x.1 = .debug
    · rw [if_pos hd, List.takeWhile_cons_of_pos (by rw [hd]; decide)]
      simp [hd]
    · rw [if_neg hd]
      by_cases hx : x.1 = .quiet
      · rw [List.takeWhile_cons_of_neg (by simp [hx])]; rfl
      · rw [List.takeWhile_cons_of_pos (by simp [hx])]
        simp [hd]

/-- what the options do to the settings -/
structure RunOf (os : List (OptCode × List Char)) (s s' : Settings) : Prop where
  infile : s'.infile = lastOf (fun x => (argOf .infile x).map some) s.infile os
  outfile : s'.outfile = lastOf (fun x => (argOf .outfile x).map some) s.outfile os
  hvcc_file : s'.hvcc_file = lastOf (fun x => (argOf .hvccFile x).map some) s.hvcc_file os
  debug : s'.debug = if (∃ y ∈ os, y.1 = .quiet) then verbosity os else s.debug + verbosity os
  dump_length : s'.opts.dump_length = lastOf (flagOf .dumpLength .dumpAll) s.opts.dump_length os
  as_one_line : s'.opts.as_one_line = lastOf (flagOf .asOneLine .noAsOneLine) s.opts.as_one_line os
  add_offset : s'.opts.add_offset = lastOf (flagOf .addOffset .noAddOffset) s.opts.add_offset os
  add_length : s'.opts.add_length = lastOf (flagOf .addLength .noAddLength) s.opts.add_length os
  add_parsed_length : s'.opts.add_parsed_length = lastOf (flagOf .addParsedLength .noAddParsedLength) s.opts.add_parsed_length os
  add_checksum : s'.opts.add_checksum = lastOf (flagOf .addChecksum .noAddChecksum) s.opts.add_checksum os
  add_resolution : s'.opts.add_resolution = lastOf (flagOf .addResolution .noAddResolution) s.opts.add_resolution os
  add_contents : s'.opts.add_contents = lastOf (flagOf .addContents .noAddContents) s.opts.add_contents os
  nalu_length_bytes : ∀ b d, IsNumber b d s.opts.nalu_length_bytes →
    IsNumber b (lastOf (fun x => (argOf .naluLengthBytes x).map some) d os) s'.opts.nalu_length_bytes
  frames_per_second : ∀ b d, IsNumber b d s.opts.frames_per_second →
    IsNumber b (lastOf (fun x => (argOf .framesPerSecond x).map some) d os) s'.opts.frames_per_second

theorem number_step {b : Int} {d : Option (List Char)} {o : OptCode} {x : OptCode × List Char} {i j : Int} (hi : IsNumber b d i)
    (hx : match argOf o x with | none => j = i | some t => ∃ n : Nat, NumberText t n ∧ j = n) : IsNumber b (((argOf o x).map some).getD d) j := by
  cases ha : argOf o x with
  | none => rw [ha] at hx; dsimp only at hx; subst hx; exact hi
  | some t => rw [ha] at hx; exact hx

theorem argLoop_go {v : List Char} : ∀ {os : List (OptCode × List Char)} {s s' : Settings}, argLoop v s (os.map optEvent) = .go s' →
    RunOf os s s' ∧ (∀ x ∈ os, ¬ EndsProgram x) ∧ ¬ (s'.infile = none ∧ s'.hvcc_file = none)
  | [], s, s', h => by
    unfold argLoop at h
    simp only [List.map_nil] at h
    split at h
    · cases h
    · rename_i hn
      cases h
      exact ⟨⟨rfl, rfl, rfl, by simp [verbosity], rfl, rfl, rfl, rfl, rfl, rfl, rfl, rfl, fun _ _ h => h, fun _ _ h => h⟩, by simp, hn⟩
  | x :: os, s, s', h => by
    rw [List.map_cons, argLoop] at h
    cases hs : argStep v s (optEvent x) with
    | exit c t => rw [hs] at h; cases h
    | go s1 =>
      rw [hs] at h
      obtain ⟨r, he, hn⟩ := argLoop_go h
      have st := argStep_go hs
      refine ⟨⟨?_, ?_, ?_, ?_, ?_, ?_, ?_, ?_, ?_, ?_, ?_, ?_, ?_, ?_⟩, ?_, hn⟩
      · rw [lastOf_cons, ← st.infile]; exact r.infile
      · rw [lastOf_cons, ← st.outfile]; exact r.outfile
      · rw [lastOf_cons, ← st.hvcc_file]; exact r.hvcc_file
      · rw [r.debug, verbosity_cons, st.debug]
        by_cases hq : ∃ y ∈ os, y.1 = .quiet
        · rw [if_pos hq, if_pos hq, if_pos]
          obtain ⟨y, hy, h⟩ := hq
          exact ⟨y, by simp [hy], h⟩
        · rw [if_neg hq, if_neg hq]
          by_cases hx : x.1 = .quiet
          · rw [if_pos hx, if_pos ⟨x, by simp, hx⟩, if_neg (by rw [hx]; decide)]; omega
          · have : ¬ ∃ y ∈ x :: os, y.1 = .quiet := by
              rintro ⟨y, hy, h⟩
              rcases List.mem_cons.1 hy with rfl | hy
              · exact hx h
              · exact hq ⟨y, hy, h⟩
            rw [if_neg hx, if_neg this]
            split <;> omega
      · rw [lastOf_cons, ← st.dump_length]; exact r.dump_length
      · rw [lastOf_cons, ← st.as_one_line]; exact r.as_one_line
      · rw [lastOf_cons, ← st.add_offset]; exact r.add_offset
      · rw [lastOf_cons, ← st.add_length]; exact r.add_length
      · rw [lastOf_cons, ← st.add_parsed_length]; exact r.add_parsed_length
      · rw [lastOf_cons, ← st.add_checksum]; exact r.add_checksum
      · rw [lastOf_cons, ← st.add_resolution]; exact r.add_resolution
      · rw [lastOf_cons, ← st.add_contents]; exact r.add_contents
      · intro b d hi
        rw [lastOf_cons]
        exact r.nalu_length_bytes b _ (number_step hi st.nalu_length_bytes)
      · intro b d hi
        rw [lastOf_cons]
        exact r.frames_per_second b _ (number_step hi st.frames_per_second)
      · intro y hy
        rcases List.mem_cons.1 hy with rfl | hy
        · exact argStep_ends hs
        · exact he y hy

theorem lastOf_none {α β : Type} {f : α → Option β} {l : List α} (h : ∀ x ∈ l, f x = none) (d : β) : lastOf f d l = d := by
  induction l generalizing d with
  | nil => rfl
  | cons a l ih => rw [lastOf_cons, h a (by simp)]; exact ih (fun x hx => h x (by simp [hx])) d

theorem lastOf_some_ne {α β : Type} {f : α → Option (Option β)} {l : List α} (hf : ∀ x, f x ≠ some none) {d : Option β}
    (h : d ≠ none ∨ ∃ x ∈ l, f x ≠ none) : lastOf f d l ≠ none := by
  induction l generalizing d with
  | nil =>
    rcases h with h | ⟨x, hx, _⟩
    · exact h
    · cases hx
  | cons a l ih =>
    rw [lastOf_cons]
    refine ih ?_
    cases ha : f a with
    | some y =>
      left
      cases y with
      | none => exact absurd ha (hf a)
      | some z => simp
    | none =>
      rcases h with h | ⟨x, hx, hx2⟩
      · exact .inl h
      · rcases List.mem_cons.1 hx with rfl | hx
        · exact absurd ha hx2
        · exact .inr ⟨x, hx, hx2⟩

theorem argLoop_exit {v : List Char} : ∀ {es : List GetoptEvent} {s : Settings} {c : Nat} {t : List Char}, argLoop v s es = .exit c t →
    (c = 255 ∧ t = []) ∨ (c = 0 ∧ t = versionText v ∧ ∃ a, .opt .version a ∈ es)
  | [], s, c, t, h => by
    unfold argLoop at h
    split at h
    · cases h; exact .inl ⟨rfl, rfl⟩
    · cases h
  | .unknown :: es, s, c, t, h => by
    unfold argLoop argStep at h
    cases h; exact .inl ⟨rfl, rfl⟩
  | .opt o a :: es, s, c, t, h => by
    rw [argLoop] at h
    cases hs : argStep v s (.opt o a) with
    | exit c' t' =>
      rw [hs] at h
      cases h
      rcases (argStep_exit (x := (o, a)) hs).2 with h | ⟨h1, h2, h3⟩
      · exact .inl h
      · cases h3; exact .inr ⟨h1, h2, a, by simp⟩
    | go s1 =>
      rw [hs] at h
      rcases argLoop_exit h with h | ⟨h1, h2, a', h3⟩
      · exact .inl h
      · exact .inr ⟨h1, h2, a', by simp [h3]⟩

theorem argLoop_exit_ends {v : List Char} : ∀ {os : List (OptCode × List Char)} {s : Settings} {c : Nat} {t : List Char}, argLoop v s (os.map optEvent) = .exit c t →
    (∃ x ∈ os, EndsProgram x) ∨ (lastOf (fun x => (argOf .infile x).map some) s.infile os = none ∧ lastOf (fun x => (argOf .hvccFile x).map some) s.hvcc_file os = none)
  | [], s, c, t, h => by
    unfold argLoop at h
    simp only [List.map_nil] at h
    split at h
    · rename_i hn; exact .inr hn
    · cases h
  | x :: os, s, c, t, h => by
    rw [List.map_cons, argLoop] at h
    cases hs : argStep v s (optEvent x) with
    | exit c' t' => exact .inl ⟨x, by simp, (argStep_exit hs).1⟩
    | go s1 =>
      rw [hs] at h
      have st := argStep_go hs
      rcases argLoop_exit_ends h with ⟨y, hy, h⟩ | ⟨h1, h2⟩
      · exact .inl ⟨y, by simp [hy], h⟩
      · right
        rw [lastOf_cons, lastOf_cons, ← st.infile, ← st.hvcc_file]
        exact ⟨h1, h2⟩

/-- C74: the settings of an accepted command line are those of the options as typed: the last one counts, what is not given keeps its default. -/
theorem C74_settings {v : List Char} {args : List (List Char)} {os : List (OptCode × List Char)} {s : Settings} (ht : Typed args os)
    (h : parseArgs v args = .go s) : SettingsOf os s := by
  unfold parseArgs at h
  rw [typed_getopt ht] at h
  obtain ⟨r, _, _⟩ := argLoop_go h
  refine ⟨r.infile, r.outfile, r.hvcc_file, ?_, r.dump_length, r.as_one_line, r.add_offset, r.add_length, r.add_parsed_length, r.add_checksum, r.add_resolution,
    r.add_contents, r.nalu_length_bytes (-1) none rfl, r.frames_per_second 30 none rfl⟩
  rw [r.debug]
  split
  · rfl
  · exact Nat.zero_add _

/-- C74: which command lines are accepted: those typed correctly, without `--help` and `--version`, with numbers below 2³¹, and with some input. -/
theorem C74_accepted (v : List Char) (args : List (List Char)) :
    (∃ s, parseArgs v args = .go s) ↔
    ∃ os, Typed args os ∧ (∀ x ∈ os, x.1 ≠ .help ∧ x.1 ≠ .version ∧ ¬ BadArgument x) ∧ ∃ x ∈ os, x.1 = .infile ∨ x.1 = .hvccFile := by
  constructor
  · rintro ⟨s, h⟩
    have hos : ∃ os : List (OptCode × List Char), getoptLong args = os.map optEvent := by
      unfold parseArgs at h
      generalize getoptLong args = es at h
      generalize ({} : Settings) = s0 at h
      clear args
      induction es generalizing s0 with
      | nil => exact ⟨[], rfl⟩
      | cons e es ih =>
        rw [argLoop] at h
        cases e with
        | unknown => cases h
        | opt o a =>
          cases hs : argStep v s0 (.opt o a) with
          | exit c t => rw [hs] at h; cases h
          | go s1 =>
            rw [hs] at h
            obtain ⟨os, hos⟩ := ih s1 h
            exact ⟨(o, a) :: os, by rw [hos]; rfl⟩
    obtain ⟨os, hos⟩ := hos
    refine ⟨os, (C74_seen _ _).1 hos, ?_⟩
    unfold parseArgs at h
    rw [hos] at h
    obtain ⟨r, he, hn⟩ := argLoop_go h
    refine ⟨fun x hx => ⟨fun h => he x hx (.inl h), fun h => he x hx (.inr (.inl h)), fun h => he x hx (.inr (.inr h))⟩, ?_⟩
    refine Classical.byContradiction fun hno => hn ?_
    rw [r.infile, r.hvcc_file]
    constructor
    · refine lastOf_none (fun x hx => ?_) _
      unfold argOf
      rw [if_neg (fun h => hno ⟨x, hx, .inl h⟩)]; rfl
    · refine lastOf_none (fun x hx => ?_) _
      unfold argOf
      rw [if_neg (fun h => hno ⟨x, hx, .inr h⟩)]; rfl
  · rintro ⟨os, ht, he, x, hx, hin⟩
    unfold parseArgs
    rw [typed_getopt ht]
    cases hr : argLoop v {} (os.map optEvent) with
    | go s => exact ⟨s, rfl⟩
    | exit c t =>
      exfalso
      rcases argLoop_exit_ends hr with ⟨y, hy, h⟩ | ⟨h1, h2⟩
      · obtain ⟨a, b, c⟩ := he y hy
        rcases h with h | h | h
        · exact a h
        · exact b h
        · exact c h
      · have key : ∀ (o : OptCode) (x : OptCode × List Char), (argOf o x).map some ≠ some none := by
          intro o x; cases argOf o x <;> simp
        rcases hin with hin | hin
        · exact lastOf_some_ne (key .infile) (.inr ⟨x, hx, by unfold argOf; rw [if_pos hin]; simp⟩) h1
        · exact lastOf_some_ne (key .hvccFile) (.inr ⟨x, hx, by unfold argOf; rw [if_pos hin]; simp⟩) h2

theorem argLoop_first {v : List Char} {x : OptCode × List Char} {post : List (OptCode × List Char)} (hx : EndsProgram x) :
    ∀ {pre : List (OptCode × List Char)} {s : Settings}, (∀ y ∈ pre, ¬ EndsProgram y) →
      argLoop v s ((pre ++ x :: post).map optEvent) = if x.1 = .version then .exit 0 (versionText v) else .exit 255 []
  | [], s, _ => by
    rw [List.nil_append, List.map_cons, argLoop]
    cases hs : argStep v s (optEvent x) with
    | go s' => exact absurd hx (argStep_ends hs)
    | exit c t =>
      dsimp only
      by_cases hv : x.1 = .version
      · rw [if_pos hv, ← hs]
        obtain ⟨o, a⟩ := x
        cases hv; rfl
      · rw [if_neg hv]
        rcases (argStep_exit hs).2 with ⟨rfl, rfl⟩ | ⟨_, _, h⟩
        · rfl
        · exact absurd h hv
  | y :: pre, s, h => by
    rw [List.cons_append, List.map_cons, argLoop]
    cases hs : argStep v s (optEvent y) with
    | exit c t => exact absurd (argStep_exit hs).1 (h y (by simp))
    | go s' =>
      dsimp only
      exact argLoop_first hx (fun z hz => h z (by simp [hz]))

/-- C74: the first option that ends the program decides how: `--version` with its text and status 0, `--help` and wrong numbers with status 255. -/
theorem C74_ends {v : List Char} {args : List (List Char)} {pre post : List (OptCode × List Char)} {x : OptCode × List Char} (ht : Typed args (pre ++ x :: post))
    (hpre : ∀ y ∈ pre, ¬ EndsProgram y) (hx : EndsProgram x) :
    parseArgs v args = if x.1 = .version then .exit 0 (versionText v) else .exit 255 [] := by
  unfold parseArgs
  rw [typed_getopt ht]
  exact argLoop_first hx hpre

/-- C74: a command line that is not accepted ends the program with status 255; only `--version` writes its text and ends it with 0. -/
theorem C74_refused {v : List Char} {args : List (List Char)} {c : Nat} {t : List Char} (h : parseArgs v args = .exit c t) :
    (c = 255 ∧ t = []) ∨ (c = 0 ∧ t = versionText v ∧ ∃ a, .opt .version a ∈ getoptLong args) := argLoop_exit h

/-! ### Examples -/

/-- arguments as typed in a shell -/
def words (l : List String) : List (List Char) := l.map String.toList

/-- options, shortened, grouped, with arguments in all forms, and an ignored word -/
example : Typed (words ["-dd", "--add-o", "word", "-ifile", "--nalu=4", "--frames-per-second", "25", "-o", "-x", "--", "-h"])
    [(.debug, []), (.debug, []), (.addOffset, []), (.infile, "file".toList), (.naluLengthBytes, "4".toList), (.framesPerSecond, "25".toList), (.outfile, "-x".toList)] :=
  (C74_seen _ _).1 (by decide +kernel)

/-- C74: its settings -/
example : parseArgs [] (words ["-dd", "--add-o", "word", "-ifile", "--nalu=4", "--frames-per-second", "25", "-o", "-x", "--", "-h"]) =
    .go { debug := 2, opts := { add_offset := true, nalu_length_bytes := 4, frames_per_second := 25 }, infile := some "file".toList, outfile := some "-x".toList } := by
  decide +kernel

/-- C74: options that are not accepted: an ambiguous one; `-q`, which the help text offers; `--nalu-length-bytes -1`, the documented default; no input, although
the help text says that it defaults to stdin; an option without its argument; one with an argument it does not have -/
theorem C74_examples : ∀ l ∈ [["--add", "-ix"], ["-q", "-ix"], ["--nalu-length-bytes", "-1", "-ix"], ["--add-offset"], ["x"], ["-i"], ["--quiet=1", "-ix"], ["-d-", "-ix"],
    ["../media/foo.265"]],
    parseArgs [] (words l) = .exit 255 [] := by decide +kernel

/-- C74: numbers: the empty text and `-0` are accepted -/
example : argNumber "".toList = some 0 ∧ argNumber " +12".toList = some 12 ∧ argNumber "-0".toList = some 0 ∧ argNumber "12 ".toList = none ∧
    argNumber "0x10".toList = none ∧ argNumber "99999999999999999999".toList = none := by decide +kernel
example : NumberText "-0".toList 0 := .inr ⟨[], ['-'], ['0'], rfl, by simp, .inr (.inr ⟨rfl, rfl⟩), by simp, by decide, by decide⟩

end H265
