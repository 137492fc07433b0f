/- Annex B splitting, explicit framing. -/
import Verif.Proof.Scan

namespace H265
open Spec

theorem entries_getElem (data : List UInt8) (e : Nat) : ∀ (l : List Nat) (j : Nat),
    (entries data e l)[j]? = l[j]?.map (fun p => ⟨startCodeBegin data p, p + 3,
      (match l[j + 1]? with | some q => startCodeBegin data q | none => e) - (p + 3)⟩)
  | [], j => by simp [entries]
  | [p], j => by
    cases j with
    | zero => simp [entries]
    | succ j => simp [entries]
  | p :: q :: r, j => by
    cases j with
    | zero => simp [entries]
    | succ j =>
      simp only [entries, List.getElem?_cons_succ]
      exact entries_getElem data e (q :: r) j

theorem sorted_getElem {l : List Nat} (h : l.Pairwise (· < ·)) {i j a b : Nat} (hi : l[i]? = some a) (hj : l[j]? = some b)
    (hij : i < j) : a < b := by
  rw [List.getElem?_eq_some_iff] at hi hj
  obtain ⟨h1, rfl⟩ := hi
  obtain ⟨h2, rfl⟩ := hj
  exact List.pairwise_iff_getElem.mp h i j h1 h2 hij

/-! ### positions in a concatenation -/

/-- start codes of `l` when `l` is placed at offset `off` -/
def startsAt (off : Nat) : List UInt8 → List Nat
  | [] => []
  | a :: l => (if startCodeAt (a :: l) 0 then [off] else []) ++ startsAt (off + 1) l

theorem startCodeAt_drop (data : List UInt8) (p k : Nat) : startCodeAt (data.drop k) p ↔ startCodeAt data (k + p) := by
  unfold startCodeAt
  simp only [List.getElem?_drop, List.length_drop]
  constructor
  · rintro ⟨a, b, c, d⟩; exact ⟨a, b, c, by omega⟩
  · rintro ⟨a, b, c, d⟩; exact ⟨a, b, c, by omega⟩

theorem starts_eq_startsAt (data : List UInt8) : starts data = startsAt 0 data := by
  suffices h : ∀ n off, off + n = data.length →
      (List.range' off n).filter (fun p => startCodeAt data p) = startsAt off (data.drop off) by
    have := h data.length 0 (by omega)
    rw [List.drop_zero] at this
    rw [← this]
    unfold starts startsBelow
    rw [List.range_eq_range']
  intro n
  induction n with
  | zero => intro off h; rw [List.drop_of_length_le (by omega)]; rfl
  | succ n ih =>
    intro off h
    have hd : data.drop off = data[off] :: data.drop (off + 1) := (List.getElem_cons_drop (h := by omega)).symm
    rw [List.range'_succ, hd, startsAt, ← ih (off + 1) (by omega), ← hd]
    have : startCodeAt (data.drop off) 0 ↔ startCodeAt data off := startCodeAt_drop data 0 off
    by_cases hs : startCodeAt data off
    · rw [List.filter_cons_of_pos (by simpa using hs), if_pos (this.mpr hs)]; rfl
    · rw [List.filter_cons_of_neg (by simpa using hs), if_neg (mt this.mp hs)]; rfl

theorem startsAt_append {off : Nat} (n rest : List UInt8)
    (h : ∀ a s, (a :: s) <:+ n → ¬ startCodeAt (a :: s ++ rest) 0) :
    startsAt off (n ++ rest) = startsAt (off + n.length) rest := by
  induction n generalizing off with
  | nil => simp
  | cons a n ih =>
    rw [List.cons_append, startsAt]
    have h1 := h a n (List.suffix_refl _)
    rw [List.cons_append] at h1
    rw [if_neg h1, List.nil_append, ih]
    · congr 1; simp; omega
    · intro b s hs
      exact h b s (hs.trans (List.suffix_cons a n))

/-- a NAL unit contributes no start code, whatever start code follows it -/
theorem nal_no_start {n rest : List UInt8} (hn : NalBytes n) (a : UInt8) (s : List UInt8) (hs : (a :: s) <:+ n) :
    ¬ startCodeAt (a :: s ++ rest) 0 := by
  rintro ⟨h0, h1, h2, h3⟩
  have hlast : (a :: s).getLast? = n.getLast? := by
    obtain ⟨p, hp⟩ := hs
    rw [← hp, List.getLast?_append, List.getLast?_cons]
    rfl
  match s with
  | [] =>
    simp at h0
    apply hn.last_nonzero
    rw [← hlast]; simp [h0]
  | [b] =>
    simp at h0 h1
    apply hn.last_nonzero
    rw [← hlast]; simp [h1]
  | b :: c :: s =>
    simp at h0 h1 h2
    apply hn.no_start_code
    subst h0 h1 h2
    exact List.IsInfix.trans ⟨[], s, rfl⟩ hs.isInfix

theorem startsAt_unit {off : Nat} (long : Bool) {n : List UInt8} (hn : NalBytes n) (rest : List UInt8) :
    startsAt off (annexBUnit long n ++ rest) =
      (off + (if long then 1 else 0)) :: startsAt (off + (annexBUnit long n).length) rest := by
  have key : ∀ off', startsAt off' ([0, 0, 1] ++ n ++ rest) = off' :: startsAt (off' + 3 + n.length) rest := by
    intro off'
    have hpos : startCodeAt ([0, 0, 1] ++ n ++ rest) 0 := by
      refine ⟨rfl, rfl, rfl, ?_⟩
      have : n.length ≠ 0 := by
        intro h; exact hn.nonempty (List.length_eq_zero_iff.mp h)
      simp; omega
    have e : [0, 0, 1] ++ n ++ rest = (0 : UInt8) :: 0 :: 1 :: (n ++ rest) := rfl
    rw [e] at hpos ⊢
    rw [startsAt, if_pos hpos, startsAt, startsAt]
    rw [if_neg (by rintro ⟨_, h, _⟩; simp at h), if_neg (by rintro ⟨h, _⟩; simp at h)]
    simp only [List.nil_append, List.cons_append, List.cons.injEq, true_and]
    rw [startsAt_append n rest (fun a s hs => nal_no_start hn a s hs)]
  cases long with
  | false =>
    have := key off
    unfold annexBUnit
    simp only [Bool.false_eq_true, if_false, Nat.add_zero]
    rw [this]
    congr 2
    simp; omega
  | true =>
    have := key (off + 1)
    unfold annexBUnit
    simp only [if_true]
    have e : ([0, 0, 0, 1] ++ n ++ rest : List UInt8) = 0 :: ([0, 0, 1] ++ n ++ rest) := rfl
    rw [e, startsAt, if_neg, List.nil_append, this]
    · congr 2
      simp; omega
    · rintro ⟨_, _, h, _⟩; simp at h

/-- offsets of the NAL units of a byte stream placed at `off` -/
def nalSpans (off : Nat) : List (Bool × List UInt8) → List NaluIndex
  | [] => []
  | (long, n) :: us =>
    ⟨off, off + (if long then 4 else 3), n.length⟩ :: nalSpans (off + (annexBUnit long n).length) us

theorem entries_annexB (pre : List UInt8) (units : List (Bool × List UInt8)) (hu : ∀ x ∈ units, NalBytes x.2)
    (hpre : pre.getLast? ≠ some 0) :
    entries (pre ++ annexB units) (pre ++ annexB units).length (startsAt pre.length (annexB units)) =
      nalSpans pre.length units := by
  induction units generalizing pre with
  | nil => rfl
  | cons x units ih =>
    obtain ⟨long, n⟩ := x
    have hn : NalBytes n := hu (long, n) (by simp)
    have hb : annexB ((long, n) :: units) = annexBUnit long n ++ annexB units := rfl
    have hnl : n.length ≠ 0 := fun h => hn.nonempty (List.length_eq_zero_iff.mp h)
    have hpre' : (pre ++ annexBUnit long n).getLast? ≠ some 0 := by
      have : (pre ++ annexBUnit long n).getLast? = n.getLast? := by
        have hne : n.getLast? ≠ none := by
          intro h; exact hn.nonempty (List.getLast?_eq_none_iff.mp h)
        unfold annexBUnit
        rw [← List.append_assoc, List.getLast?_append]
        cases hl : n.getLast? with
        | none => exact absurd hl hne
        | some v => rfl
      rw [this]; exact hn.last_nonzero
    have hih := ih (pre ++ annexBUnit long n) (fun x hx => hu x (List.mem_cons_of_mem _ hx)) hpre'
    rw [List.length_append (as := pre), List.append_assoc] at hih
    rw [hb, startsAt_unit long hn]
    rw [nalSpans, ← hih]
    -- the start code of this unit
    have hbegin : startCodeBegin (pre ++ (annexBUnit long n ++ annexB units)) (pre.length + (if long then 1 else 0)) = pre.length := by
      unfold startCodeBegin
      cases long with
      | true =>
        simp only [if_true]
        rw [if_pos]
        · omega
        · refine ⟨by omega, ?_⟩
          rw [show pre.length + 1 - 1 = pre.length + 0 by omega, List.getElem?_append_right (by omega)]
          simp [annexBUnit]
      | false =>
        simp only [Bool.false_eq_true, if_false, Nat.add_zero]
        rw [if_neg]
        rintro ⟨hp, hz⟩
        rw [List.getElem?_append_left (by omega)] at hz
        apply hpre
        rw [List.getLast?_eq_getElem?]; exact hz
    have hulen : (annexBUnit long n).length = (if long then 4 else 3) + n.length := by
      unfold annexBUnit; cases long <;> simp <;> omega
    -- where the payload ends
    cases hunits : units with
    | nil =>
      simp only [annexB, List.map_nil, List.flatten_nil, startsAt, entries]
      rw [hunits] at hbegin
      rw [show annexB [] = [] from rfl] at hbegin
      rw [hbegin]
      simp only [List.append_nil, List.length_append, hulen, List.cons.injEq, NaluIndex.mk.injEq, and_true, true_and]
      cases long <;> simp <;> omega
    | cons y units' =>
      obtain ⟨long', n'⟩ := y
      have hn' : NalBytes n' := hu (long', n') (by simp [hunits])
      have hb' : annexB ((long', n') :: units') = annexBUnit long' n' ++ annexB units' := rfl
      rw [hb', startsAt_unit long' hn', entries]
      have hbegin' : startCodeBegin (pre ++ (annexBUnit long n ++ (annexBUnit long' n' ++ annexB units')))
          (pre.length + (annexBUnit long n).length + (if long' then 1 else 0)) = pre.length + (annexBUnit long n).length := by
        have := hpre'
        unfold startCodeBegin
        cases long' with
        | true =>
          simp only [if_true]
          rw [if_pos]
          · omega
          · refine ⟨by omega, ?_⟩
            rw [← List.append_assoc, show pre.length + (annexBUnit long n).length + 1 - 1 = (pre ++ annexBUnit long n).length + 0 by simp,
              List.getElem?_append_right (by omega)]
            simp [annexBUnit]
        | false =>
          simp only [Bool.false_eq_true, if_false, Nat.add_zero]
          rw [if_neg]
          rintro ⟨hp, hz⟩
          rw [← List.append_assoc, List.getElem?_append_left (by simp; omega)] at hz
          apply hpre'
          rw [List.getLast?_eq_getElem?, List.length_append]; exact hz
      rw [hunits, hb'] at hbegin
      rw [hbegin, hbegin', hulen]
      congr 2
      · cases long <;> simp
      · cases long <;> simp <;> omega

theorem nalSpans_slices (units : List (Bool × List UInt8)) (pre : List UInt8) :
    (nalSpans pre.length units).map (fun x => ((pre ++ annexB units).drop x.payloadStartOffset).take x.payloadSize)
      = units.map (·.2) := by
  induction units generalizing pre with
  | nil => rfl
  | cons x units ih =>
    obtain ⟨long, n⟩ := x
    have hb : annexB ((long, n) :: units) = annexBUnit long n ++ annexB units := rfl
    have := ih (pre ++ annexBUnit long n)
    rw [List.length_append, List.append_assoc] at this
    rw [nalSpans, hb, List.map_cons, List.map_cons, this]
    congr 1
    unfold annexBUnit
    cases long with
    | true =>
      simp only [if_true]
      have e : pre ++ ([0, 0, 0, 1] ++ n ++ annexB units) = (pre ++ [0, 0, 0, 1]) ++ (n ++ annexB units) := by simp
      rw [e, List.drop_append, List.drop_of_length_le (by simp)]
      simp
    | false =>
      simp only [Bool.false_eq_true, if_false]
      have e : pre ++ ([0, 0, 1] ++ n ++ annexB units) = (pre ++ [0, 0, 1]) ++ (n ++ annexB units) := by simp
      rw [e, List.drop_append, List.drop_of_length_le (by simp)]
      simp

/-! ### explicit framing -/

/-- value of the four bytes at `i` -/
def be32At (data : List UInt8) (i : Nat) : Nat :=
  (data.getD i 0).toNat * 2 ^ 24 + (data.getD (i + 1) 0).toNat * 2 ^ 16 + (data.getD (i + 2) 0).toNat * 2 ^ 8 +
    (data.getD (i + 3) 0).toNat

theorem be32At_lt (data : List UInt8) (i : Nat) : be32At data i < 2 ^ 32 := by
  unfold be32At
  have h0 := (data.getD i 0).toNat_lt
  have h1 := (data.getD (i + 1) 0).toNat_lt
  have h2 := (data.getD (i + 2) 0).toNat_lt
  have h3 := (data.getD (i + 3) 0).toNat_lt
  omega

theorem readSize32_eq (data : List UInt8) (i : Nat) (h : i + 4 ≤ data.length) :
    readSize32 data i = .ok (be32At data i) := by
  have hgd : ∀ k (hk : k < data.length), data.getD k 0 = data[k] := by
    intro k hk; simp [List.getElem?_eq_getElem hk]
  unfold readSize32 be32At ntohl
  rw [rd_ok (show i < data.length by omega), rd_ok (show i + 1 < data.length by omega),
    rd_ok (show i + 2 < data.length by omega), rd_ok (show i + 3 < data.length by omega),
    hgd i (by omega), hgd (i + 1) (by omega), hgd (i + 2) (by omega), hgd (i + 3) (by omega)]
  simp only [bind, Except.bind, pure, Except.pure]

theorem explicitLoop_step (data : List UInt8) (fuel i : Nat) (h : i + 4 ≤ data.length) :
    explicitLoop data (fuel + 1) i =
      if be32At data i > data.length - i - 4 then .ok []
      else match explicitLoop data fuel (i + addU32 4 (be32At data i)) with
        | .ok rest => .ok (⟨i, i + 4, be32At data i⟩ :: rest)
        | .error k => .error k := by
  rw [explicitLoop, if_pos (by omega), if_neg (by omega), readSize32_eq data i h]
  simp only
  generalize explicitLoop data fuel (i + addU32 4 (be32At data i)) = r
  cases r with
  | ok a => simp only
  | error k => simp only

theorem explicitLoop_stop (data : List UInt8) (fuel i : Nat) (h : ¬ i + 4 ≤ data.length) :
    explicitLoop data (fuel + 1) i = .ok [] := by
  unfold explicitLoop
  by_cases hi : i < data.length
  · rw [if_pos hi, if_pos (by omega)]
  · rw [if_neg hi]

end H265
