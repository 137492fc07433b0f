import Verif.Model.Common
import Verif.Spec.ByteStream

namespace H265
open Spec

/-- List-level form of `UnescapeRbsp`. -/
def unesc : List UInt8 → List UInt8
  | [] => []
  | [a] => [a]
  | [a, b] => [a, b]
  | a :: b :: c :: rest =>
    if a = 0 ∧ b = 0 ∧ c = 3 then a :: b :: unesc rest else a :: unesc (b :: c :: rest)

theorem unesc_emu (rest : List UInt8) : unesc (0 :: 0 :: 3 :: rest) = 0 :: 0 :: unesc rest := by
  simp [unesc]

theorem unesc_cons (a : UInt8) (l : List UInt8) (h : ¬ ∃ rest, a :: l = 0 :: 0 :: 3 :: rest) :
    unesc (a :: l) = a :: unesc l := by
  match l with
  | [] => rfl
  | [b] => rfl
  | b :: c :: rest =>
    rw [unesc, if_neg]
    rintro ⟨h1, h2, h3⟩
    exact h ⟨rest, by rw [h1, h2, h3]⟩

theorem rd_ok {data : List UInt8} {i : Nat} (h : i < data.length) : rd data i = .ok data[i] := by
  unfold rd; rw [List.getElem?_eq_getElem h]

theorem unescapeLoop_eq (data : List UInt8) : ∀ fuel i, data.length - i < fuel →
    unescapeLoop data fuel i = .ok (unesc (data.drop i)) := by
  intro fuel
  induction fuel with
  | zero => intro i h; omega
  | succ fuel ih =>
    intro i hf
    unfold unescapeLoop
    by_cases hi : i < data.length
    · rw [if_pos hi]
      have hd : data.drop i = data[i] :: data.drop (i + 1) := (List.getElem_cons_drop (h := hi)).symm
      by_cases h3 : data.length - i ≥ 3
      · have hd1 : data.drop (i + 1) = data[i + 1] :: data.drop (i + 2) := (List.getElem_cons_drop (h := by omega)).symm
        have hd2 : data.drop (i + 2) = data[i + 2] :: data.drop (i + 3) := (List.getElem_cons_drop (h := by omega)).symm
        rw [if_pos h3, rd_ok hi, rd_ok (show i + 1 < data.length by omega), rd_ok (show i + 2 < data.length by omega),
          ih (i + 3) (by omega), ih (i + 1) (by omega)]
        by_cases he : data[i] = 0 ∧ data[i + 1] = 0 ∧ data[i + 2] = 3
        · obtain ⟨e1, e2, e3⟩ := he
          rw [hd, hd1, hd2, e1, e2, e3, unesc_emu]
          rfl
        · have hu : unesc (data.drop i) = data[i] :: unesc (data.drop (i + 1)) := by
            rw [hd]
            apply unesc_cons
            rintro ⟨rest, hr⟩
            rw [hd1, hd2] at hr
            simp only [List.cons.injEq] at hr
            exact he ⟨hr.1, hr.2.1, hr.2.2.1⟩
          rw [hu]
          simp only [bind, Except.bind, pure, Except.pure]
          by_cases e1 : data[i] = 0
          · by_cases e2 : data[i + 1] = 0
            · have e3 : data[i + 2] ≠ 3 := fun e3 => he ⟨e1, e2, e3⟩
              simp [e1, e2, e3]
            · simp [e1, e2]
          · simp [e1]
      · rw [if_neg h3, rd_ok hi, ih (i + 1) (by omega)]
        have hu : unesc (data.drop i) = data[i] :: unesc (data.drop (i + 1)) := by
          rw [hd]
          apply unesc_cons
          rintro ⟨rest, hr⟩
          have := congrArg List.length hr
          simp at this
          omega
        rw [hu]
        rfl
    · rw [if_neg hi, List.drop_of_length_le (by omega)]
      rfl

theorem unescapeRbsp_eq (data : List UInt8) : unescapeRbsp data = .ok (unesc data) := by
  unfold unescapeRbsp
  rw [unescapeLoop_eq _ _ _ (by omega), List.drop_zero]

/-! ### inverse of `escape` -/

theorem unesc_nz {a : UInt8} (h : a ≠ 0) (l : List UInt8) : unesc (a :: l) = a :: unesc l :=
  unesc_cons a l (by rintro ⟨r, hr⟩; simp at hr; exact h hr.1)

theorem unesc_0nz {b : UInt8} (h : b ≠ 0) (l : List UInt8) : unesc (0 :: b :: l) = 0 :: b :: unesc l := by
  rw [unesc_cons 0 (b :: l) (by rintro ⟨r, hr⟩; simp at hr; exact h hr.1), unesc_nz h]

theorem unesc_00n3 {c : UInt8} (h : c ≠ 3) (l : List UInt8) : unesc (0 :: 0 :: c :: l) = 0 :: unesc (0 :: c :: l) :=
  unesc_cons 0 _ (by rintro ⟨r, hr⟩; simp at hr; exact h hr.1)

theorem unesc_escapeFrom (l : List UInt8) :
    unesc (escapeFrom 0 l) = l ∧ unesc (0 :: escapeFrom 1 l) = 0 :: l ∧
    unesc (0 :: 0 :: escapeFrom 2 l) = 0 :: 0 :: l := by
  induction l with
  | nil => refine ⟨rfl, rfl, rfl⟩
  | cons b l ih =>
    obtain ⟨i0, i1, i2⟩ := ih
    refine ⟨?_, ?_, ?_⟩
    · rw [escapeFrom, if_neg (by omega)]
      by_cases hb : b = 0
      · subst hb; simpa using i1
      · rw [if_neg hb, unesc_nz hb, i0]
    · rw [escapeFrom, if_neg (by omega)]
      by_cases hb : b = 0
      · subst hb; simpa using i2
      · rw [if_neg hb, unesc_0nz hb, i0]
    · rw [escapeFrom]
      by_cases hb3 : b ≤ 3
      · rw [if_pos ⟨by omega, hb3⟩, unesc_emu]
        by_cases hb : b = 0
        · subst hb; simpa using i1
        · rw [if_neg hb, unesc_nz hb, i0]
      · have hb : b ≠ 0 := by rintro rfl; exact hb3 (by decide)
        have hb' : b ≠ 3 := by rintro rfl; exact hb3 (by decide)
        rw [if_neg (by simp [hb3]), if_neg hb, unesc_00n3 hb', unesc_0nz hb, i0]

/-- no `00 00 x` with `x ≤ 2` -/
def noEmu : List UInt8 → Prop
  | [] => True
  | [_] => True
  | [_, _] => True
  | a :: b :: c :: rest => (a = 0 → b = 0 → 3 ≤ c) ∧ noEmu (b :: c :: rest)

theorem noEmu_cons {a : UInt8} {l : List UInt8} (h : a ≠ 0 ∨ (∀ r, l ≠ 0 :: r)) (hl : noEmu l) : noEmu (a :: l) := by
  match l with
  | [] => trivial
  | [b] => trivial
  | b :: c :: r =>
    refine ⟨fun ha hb => ?_, hl⟩
    rcases h with h | h
    · exact absurd ha h
    · exact absurd (by rw [hb]) (h (c :: r))

theorem noEmu_00 {l : List UInt8} (h : ∀ c r, l = c :: r → 3 ≤ c) (hl : noEmu (0 :: l)) : noEmu (0 :: 0 :: l) := by
  match l with
  | [] => trivial
  | c :: r => exact ⟨fun _ _ => h c r rfl, hl⟩

theorem noEmu_escapeFrom (l : List UInt8) :
    noEmu (escapeFrom 0 l) ∧ noEmu (0 :: escapeFrom 1 l) ∧ noEmu (0 :: 0 :: escapeFrom 2 l) := by
  induction l with
  | nil => refine ⟨trivial, trivial, ?_⟩; exact ⟨fun _ _ => by decide, trivial⟩
  | cons b l ih =>
    obtain ⟨i0, i1, i2⟩ := ih
    refine ⟨?_, ?_, ?_⟩
    · rw [escapeFrom, if_neg (by omega)]
      by_cases hb : b = 0
      · subst hb; simpa using i1
      · rw [if_neg hb]; exact noEmu_cons (Or.inl hb) i0
    · rw [escapeFrom, if_neg (by omega)]
      by_cases hb : b = 0
      · subst hb; simpa using i2
      · rw [if_neg hb]
        refine noEmu_cons (Or.inr ?_) (noEmu_cons (Or.inl hb) i0)
        intro r hr; simp at hr; exact hb hr.1
    · rw [escapeFrom]
      by_cases hb3 : b ≤ 3
      · rw [if_pos ⟨by omega, hb3⟩]
        refine ⟨fun _ _ => by decide, ?_⟩
        refine noEmu_cons (Or.inr (by intro r hr; simp at hr)) ?_
        refine noEmu_cons (Or.inl (by decide)) ?_
        by_cases hb : b = 0
        · subst hb; simpa using i1
        · rw [if_neg hb]; exact noEmu_cons (Or.inl hb) i0
      · have hb : b ≠ 0 := by rintro rfl; exact hb3 (by decide)
        rw [if_neg (by simp [hb3]), if_neg hb]
        refine ⟨fun _ _ => ?_, ?_⟩
        · rw [UInt8.not_le] at hb3; exact UInt8.le_of_lt hb3
        · refine noEmu_cons (Or.inr ?_) (noEmu_cons (Or.inl hb) i0)
          intro r hr; simp at hr; exact hb hr.1

theorem noEmu_infix {l : List UInt8} (h : noEmu l) {c : UInt8} (hi : [0, 0, c] <:+: l) : 3 ≤ c := by
  obtain ⟨pre, post, hp⟩ := hi
  induction pre generalizing l with
  | nil =>
    simp only [List.nil_append] at hp
    rw [← hp] at h
    exact h.1 rfl rfl
  | cons a pre ih =>
    cases l with
    | nil => simp at hp
    | cons a' l =>
      simp only [List.cons_append, List.cons.injEq] at hp
      refine ih (l := l) ?_ hp.2
      match l, h with
      | [], _ => trivial
      | [_], _ => trivial
      | _ :: _ :: _, h => exact h.2

/-! ### what `unesc` removes -/

/-- `[0,0,3]` nowhere in the list -/
abbrev NoEsc (l : List UInt8) : Prop := ¬ [0, 0, 3] <:+: l

theorem NoEsc_cons {a : UInt8} {l : List UInt8} (h1 : ¬ ∃ r, a :: l = 0 :: 0 :: 3 :: r) (h2 : NoEsc l) : NoEsc (a :: l) := by
  rintro ⟨pre, post, hp⟩
  cases pre with
  | nil => exact h1 ⟨post, by simpa using hp.symm⟩
  | cons x pre =>
    simp only [List.cons_append, List.cons.injEq] at hp
    exact h2 ⟨pre, post, hp.2⟩

theorem unesc_decomp (n : Nat) : ∀ l : List UInt8, l.length ≤ n →
    ∃ (chunks : List (List UInt8)) (last : List UInt8),
      l = (chunks.map (· ++ [0, 0, 3])).flatten ++ last ∧
      unesc l = (chunks.map (· ++ [0, 0])).flatten ++ last ∧
      (∀ c ∈ chunks, NoEsc (c ++ [0, 0])) ∧ NoEsc last := by
  induction n with
  | zero =>
    intro l hl
    have : l = [] := List.length_eq_zero_iff.mp (by omega)
    subst this
    exact ⟨[], [], rfl, rfl, by simp, by simp [NoEsc]⟩
  | succ n ih =>
    intro l hl
    cases l with
    | nil => exact ⟨[], [], rfl, rfl, by simp, by simp [NoEsc]⟩
    | cons a l =>
      by_cases he : ∃ r, a :: l = 0 :: 0 :: 3 :: r
      · obtain ⟨r, hr⟩ := he
        have hlen : r.length ≤ n := by
          have := congrArg List.length hr
          simp at this hl; omega
        obtain ⟨ch, la, h1, h2, h3, h4⟩ := ih r hlen
        refine ⟨[] :: ch, la, ?_, ?_, ?_, h4⟩
        · rw [hr]; conv => lhs; rw [h1]
          simp
        · rw [hr, unesc_emu, h2]; simp
        · intro c hc
          cases hc with
          | head => intro h; have := h.length_le; simp at this
          | tail _ hc => exact h3 c hc
      · obtain ⟨ch, la, h1, h2, h3, h4⟩ := ih l (by simp at hl; omega)
        have hu := unesc_cons a l he
        cases ch with
        | nil =>
          simp only [List.map_nil, List.flatten_nil, List.nil_append] at h1 h2
          refine ⟨[], a :: la, ?_, ?_, by simp, ?_⟩
          · simp [h1]
          · simp [hu, h2]
          · refine NoEsc_cons ?_ h4
            rw [← h1]; exact he
        | cons c ch =>
          refine ⟨(a :: c) :: ch, la, ?_, ?_, ?_, h4⟩
          · conv => lhs; rw [h1]
            simp
          · rw [hu, h2]; simp
          · intro x hx
            cases hx with
            | head =>
              rw [List.cons_append]
              refine NoEsc_cons ?_ (h3 c (by simp))
              rintro ⟨r, hr⟩
              apply he
              refine ⟨r ++ [3] ++ ((ch.map (· ++ [0, 0, 3])).flatten ++ la), ?_⟩
              rw [h1]
              have : a :: (c ++ [0, 0, 3]) = (a :: (c ++ [0, 0])) ++ [3] := by simp
              simp only [List.map_cons, List.flatten_cons, List.append_assoc]
              have e2 : a :: (c ++ ([0, 0, 3] ++ ((ch.map (· ++ [0, 0, 3])).flatten ++ la)))
                  = (a :: (c ++ [0, 0])) ++ ([3] ++ ((ch.map (· ++ [0, 0, 3])).flatten ++ la)) := by simp
              rw [e2, hr]; simp
            | tail _ hx => exact h3 x (List.mem_cons_of_mem _ hx)

end H265
