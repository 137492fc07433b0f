/- `FindNaluIndices` against the start code positions. -/
import Verif.Model.NaluIndex
import Verif.Proof.Unescape

namespace H265
open Spec

/-- The start codes below `k`, in order. -/
def startsBelow (data : List UInt8) (k : Nat) : List Nat := (List.range k).filter (fun p => startCodeAt data p)

/-- All start codes (followed by a byte), in order. -/
def starts (data : List UInt8) : List Nat := startsBelow data data.length

theorem startsBelow_succ (data : List UInt8) (k : Nat) :
    startsBelow data (k + 1) = startsBelow data k ++ (if startCodeAt data k then [k] else []) := by
  unfold startsBelow
  rw [List.range_succ, List.filter_append]
  by_cases h : startCodeAt data k <;> simp [h]

theorem startsBelow_skip {data : List UInt8} {i k : Nat} (h : ∀ p, i ≤ p → p < i + k → ¬ startCodeAt data p) :
    startsBelow data (i + k) = startsBelow data i := by
  induction k with
  | zero => rfl
  | succ k ih =>
    rw [← Nat.add_assoc, startsBelow_succ, if_neg (h (i + k) (by omega) (by omega)), List.append_nil]
    exact ih (fun p h1 h2 => h p h1 (by omega))

theorem startsBelow_end {data : List UInt8} {k : Nat} (h : data.length - 3 ≤ k) :
    startsBelow data k = startsBelow data (data.length - 3) := by
  have : k = data.length - 3 + (k - (data.length - 3)) := by omega
  rw [this]
  apply startsBelow_skip
  intro p h1 _ hs
  have := hs.2.2.2
  omega

/-- Index entries of a list of start codes; the last payload ends at `e`. -/
def entries (data : List UInt8) (e : Nat) : List Nat → List NaluIndex
  | [] => []
  | [p] => [⟨startCodeBegin data p, p + 3, e - (p + 3)⟩]
  | p :: q :: r => ⟨startCodeBegin data p, p + 3, startCodeBegin data q - (p + 3)⟩ :: entries data e (q :: r)

theorem entries_snoc (data : List UInt8) (e : Nat) : ∀ (l : List Nat) (q : Nat),
    entries data e (l ++ [q]) = entries data (startCodeBegin data q) l ++ [⟨startCodeBegin data q, q + 3, e - (q + 3)⟩]
  | [], q => rfl
  | [p], q => rfl
  | p :: p' :: r, q => by
    simp only [List.cons_append, entries]
    rw [← List.cons_append, entries_snoc data e (p' :: r) q]

/-- the last entry only, with its size replaced -/
theorem entries_last_size (data : List UInt8) (e e' : Nat) (l : List Nat) (q : Nat) :
    (entries data e' (l ++ [q])).dropLast ++ [⟨startCodeBegin data q, q + 3, e - (q + 3)⟩] = entries data e (l ++ [q]) := by
  rw [entries_snoc, entries_snoc, List.dropLast_concat]

theorem setLastSize_entries (data : List UInt8) (e : Nat) (l : List Nat)
    (h : ∀ q, l.getLast? = some q → q + 3 ≤ e) (he : e < 2 ^ 64) :
    setLastSize (entries data 0 l) e = entries data e l := by
  rcases List.eq_nil_or_concat l with rfl | ⟨l', q, rfl⟩
  · rfl
  · rw [List.concat_eq_append] at *
    have hq := h q (by simp)
    unfold setLastSize
    rw [entries_snoc, List.getLast?_concat]
    simp only
    rw [List.dropLast_concat, entries_snoc]
    congr 3
    omega

theorem mem_startsBelow {data : List UInt8} {k p : Nat} : p ∈ startsBelow data k ↔ p < k ∧ startCodeAt data p := by
  simp [startsBelow]

theorem getLast_startsBelow {data : List UInt8} {k q : Nat} (h : (startsBelow data k).getLast? = some q) :
    q < k ∧ startCodeAt data q :=
  mem_startsBelow.mp (List.mem_of_getLast? h)

/-- two start codes are at least three bytes apart -/
theorem startCode_apart {data : List UInt8} {p q : Nat} (hp : startCodeAt data p) (hq : startCodeAt data q) (h : p < q) :
    p + 3 ≤ q := by
  by_cases h3 : p + 3 ≤ q
  · exact h3
  · exfalso
    have : q = p + 1 ∨ q = p + 2 := by omega
    rcases this with rfl | rfl
    · have h1 := hp.2.2.1; have h2 := hq.2.1
      rw [show p + 1 + 1 = p + 2 by omega, h1] at h2
      cases h2
    · have h1 := hp.2.2.1; have h2 := hq.1
      rw [h1] at h2; cases h2

theorem startCodeBegin_apart {data : List UInt8} {p q : Nat} (hp : startCodeAt data p) (hq : startCodeAt data q) (h : p < q) :
    p + 3 ≤ startCodeBegin data q := by
  have h3 := startCode_apart hp hq h
  unfold startCodeBegin
  split
  · rename_i hc
    by_cases he : q = p + 3
    · subst he
      have := hp.2.2.1
      rw [show p + 3 - 1 = p + 2 by omega, this] at hc
      exact absurd hc.2 (by decide)
    · omega
  · exact h3

theorem startCodeBegin_le (data : List UInt8) (p : Nat) : startCodeBegin data p ≤ p := by
  unfold startCodeBegin; split <;> omega

theorem isStartCode_eq {data : List UInt8} {i : Nat} (hi : i + 3 < data.length) :
    isStartCode data i = .ok (decide (startCodeAt data i)) := by
  unfold isStartCode
  rw [rd_ok (show i + 2 < data.length by omega), rd_ok (show i + 1 < data.length by omega),
    rd_ok (show i < data.length by omega)]
  have hg0 : data[i]? = some data[i] := List.getElem?_eq_getElem (by omega)
  have hg1 : data[i + 1]? = some data[i + 1] := List.getElem?_eq_getElem (by omega)
  have hg2 : data[i + 2]? = some data[i + 2] := List.getElem?_eq_getElem (by omega)
  simp only [bind, Except.bind, pure, Except.pure, startCodeAt, hg0, hg1, hg2, Option.some.injEq, hi, and_true]
  by_cases e2 : data[i + 2] = 1 <;> by_cases e1 : data[i + 1] = 0 <;> simp [e1, e2]

theorem startOffset_eq {data : List UInt8} {i : Nat} (hi : i < data.length) :
    startOffset data i = .ok (startCodeBegin data i) := by
  unfold startOffset startCodeBegin
  by_cases hi0 : i > 0
  · rw [if_pos hi0, rd_ok (show i - 1 < data.length by omega)]
    have hgm : data[i - 1]? = some data[i - 1] := List.getElem?_eq_getElem (by omega)
    simp only [hgm, hi0, true_and, Option.some.injEq, bind, Except.bind, pure, Except.pure]
    by_cases e : data[i - 1] = 0 <;> simp [e]
  · rw [if_neg hi0, if_neg (by omega)]; rfl

theorem findLoop_eq (data : List UInt8) (hlen : data.length < 2 ^ 64) (h3 : 3 ≤ data.length) : ∀ fuel i, data.length - 3 - i < fuel →
    findLoop data fuel i (entries data 0 (startsBelow data i)) = .ok (entries data 0 (starts data)) := by
  intro fuel
  induction fuel with
  | zero => intro i h; omega
  | succ fuel ih =>
    intro i hf
    unfold findLoop
    by_cases hi : i < data.length - 3
    · rw [if_pos hi, rd_ok (show i + 2 < data.length by omega), isStartCode_eq (by omega), startOffset_eq (by omega)]
      simp only [bind, Except.bind]
      by_cases hc : data[i + 2] > 1
      · rw [if_pos hc]
        have hskip : startsBelow data (i + 3) = startsBelow data i := by
          apply startsBelow_skip
          intro p h1 h2 hs
          have hne0 : data[i + 2] ≠ 0 := by intro h; rw [h] at hc; exact absurd hc (by decide)
          have hne1 : data[i + 2] ≠ 1 := by intro h; rw [h] at hc; exact absurd hc (by decide)
          have hg : data[i + 2]? = some data[i + 2] := List.getElem?_eq_getElem (by omega)
          have : p = i ∨ p = i + 1 ∨ p = i + 2 := by omega
          rcases this with rfl | rfl | rfl
          · have := hs.2.2.1; rw [hg] at this; exact hne1 (Option.some.inj this)
          · have := hs.2.1; rw [show i + 1 + 1 = i + 2 by omega, hg] at this; exact hne0 (Option.some.inj this)
          · have := hs.1; rw [hg] at this; exact hne0 (Option.some.inj this)
        rw [← hskip]
        exact ih (i + 3) (by omega)
      · rw [if_neg hc]
        by_cases hs : startCodeAt data i
        · simp only [hs, decide_true, if_true]
          have hstep : startsBelow data (i + 3) = startsBelow data i ++ [i] := by
            have h1 : startsBelow data (i + 1 + 2) = startsBelow data (i + 1) := by
              apply startsBelow_skip
              intro p hp1 hp2 hps
              have := startCode_apart hs hps (by omega)
              omega
            rw [show i + 3 = i + 1 + 2 by omega, h1, startsBelow_succ, if_pos hs]
          have hent : setLastSize (entries data 0 (startsBelow data i)) (startCodeBegin data i) ++
              [⟨startCodeBegin data i, i + 3, 0⟩] = entries data 0 (startsBelow data (i + 3)) := by
            rw [hstep, entries_snoc, setLastSize_entries]
            · simp
            · intro q hq
              have := getLast_startsBelow hq
              exact startCodeBegin_apart this.2 hs this.1
            · have := startCodeBegin_le data i; omega
          rw [hent]
          exact ih (i + 3) (by omega)
        · have hstep : startsBelow data (i + 1) = startsBelow data i := by
            rw [startsBelow_succ, if_neg hs, List.append_nil]
          simp only [hs, decide_false]
          rw [if_neg (by simp)]
          rw [← hstep]
          exact ih (i + 1) (by omega)
    · rw [if_neg hi]
      unfold starts
      rw [startsBelow_end (show data.length - 3 ≤ i by omega), startsBelow_end (show data.length - 3 ≤ data.length by omega)]

/-- Complete description of `FindNaluIndices`. -/
theorem findNaluIndices_eq (data : List UInt8) (hlen : data.length < 2 ^ 64) :
    findNaluIndices data = .ok (entries data data.length (starts data)) := by
  unfold findNaluIndices
  by_cases h3 : data.length < 3
  · rw [if_pos h3]
    have : starts data = [] := by
      unfold starts startsBelow
      rw [List.filter_eq_nil_iff]
      intro p _ hs
      simp only [decide_eq_true_eq] at hs
      have := hs.2.2.2
      omega
    rw [this]; rfl
  · rw [if_neg h3]
    have := findLoop_eq data hlen (by omega) (data.length + 1) 0 (by omega)
    have h0 : startsBelow data 0 = [] := rfl
    rw [h0] at this
    rw [show entries data 0 [] = [] from rfl] at this
    rw [this]
    simp only
    rw [setLastSize_entries _ _ _ _ hlen]
    intro q hq
    have := (getLast_startsBelow hq).2.2.2.2
    omega

theorem starts_sorted (data : List UInt8) (k : Nat) : (startsBelow data k).Pairwise (· < ·) := by
  unfold startsBelow
  exact List.Pairwise.filter _ List.pairwise_lt_range

end H265
