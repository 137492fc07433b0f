/- C71: streams that are cut off at any byte, or received in pieces. -/
import Verif.Props.History

set_option autoImplicit false

namespace H265
open Spec

/-! ### byte streams -/

/-- the start codes of the beginning of a stream are start codes of the stream, in the same places; further ones end behind it -/
theorem starts_prefix (a b : List UInt8) : ∃ r, starts (a ++ b) = starts a ++ r ∧ ∀ q ∈ r, a.length ≤ q + 3 := by
  have hs : startsBelow (a ++ b) (a.length - 3) = startsBelow a (a.length - 3) := by
    unfold startsBelow
    apply List.filter_congr
    intro p hp
    rw [List.mem_range] at hp
    have : startCodeAt (a ++ b) p ↔ startCodeAt a p := by
      unfold startCodeAt
      rw [List.getElem?_append_left (by omega), List.getElem?_append_left (by omega), List.getElem?_append_left (by omega), List.length_append]
      constructor
      · rintro ⟨h0, h1, h2, _⟩; exact ⟨h0, h1, h2, by omega⟩
      · rintro ⟨h0, h1, h2, _⟩; exact ⟨h0, h1, h2, by omega⟩
    simp only [this]
  have ha : starts a = startsBelow a (a.length - 3) := startsBelow_end (by omega)
  refine ⟨((List.range (a.length + b.length - (a.length - 3))).map ((a.length - 3) + ·)).filter (fun p => startCodeAt (a ++ b) p), ?_, ?_⟩
  · rw [ha, ← hs]
    unfold starts startsBelow
    rw [← List.filter_append, ← List.range_add]
    congr 2
    rw [List.length_append]; omega
  · intro q hq
    obtain ⟨hq, _⟩ := List.mem_filter.mp hq
    obtain ⟨i, _, rfl⟩ := List.mem_map.mp hq
    omega

theorem entries_ends (data : List UInt8) (e m : Nat) (he : m ≤ e + 4) : ∀ (q : Nat) (r : List Nat), (∀ x ∈ r, m ≤ x + 3) →
    ∀ x ∈ entries data e (q :: r), m ≤ x.payloadStartOffset + x.payloadSize + 4
  | q, [], _, x, hx => by
    simp only [entries, List.mem_singleton] at hx
    subst hx
    simp only
    omega
  | q, y :: r, h, x, hx => by
    have hy := h y (by simp)
    have hb : y ≤ startCodeBegin data y + 1 := by unfold startCodeBegin; split <;> omega
    simp only [entries, List.mem_cons] at hx
    rcases hx with rfl | hx
    · simp only; omega
    · exact entries_ends data e m he y r (fun z hz => h z (by simp [hz])) x (by simpa [entries] using hx)

theorem parseAll_position {cs : Bool} : ∀ {l : List (Nat × Nat × List UInt8)} {st st' : ParserState} {ns : List NalUnit} {n : NalUnit},
    parseAll cs l st = .ok (ns, st') → n ∈ ns → ∃ x ∈ l, n.offset = x.1 ∧ n.length = x.2.1
  | [], st, st', ns, n, h, hn => by cases h; cases hn
  | (off, len, nal) :: rest, st, st', ns, n, h, hn => by
    simp only [parseAll] at h
    cases hp : parseNalUnit cs st nal with
    | bad k => rw [hp] at h; cases h
    | fail b =>
      rw [hp] at h
      obtain ⟨x, hx, e⟩ := parseAll_position h hn
      exact ⟨x, by simp [hx], e⟩
    | ok x b =>
      obtain ⟨n0, st1⟩ := x
      rw [hp] at h
      dsimp only at h
      cases hr : parseAll cs rest st1 with
      | error k => rw [hr] at h; cases h
      | ok y =>
        obtain ⟨ns', st2⟩ := y
        rw [hr] at h
        cases h
        rcases List.mem_cons.mp hn with rfl | hn
        · exact ⟨(off, len, nal), by simp, rfl, rfl⟩
        · obtain ⟨x, hx, e⟩ := parseAll_position hr hn
          exact ⟨x, by simp [hx], e⟩

theorem parseAll_count {cs : Bool} : ∀ {l : List (Nat × Nat × List UInt8)} {st st' : ParserState} {ns : List NalUnit},
    parseAll cs l st = .ok (ns, st') → ns.length ≤ l.length
  | [], st, st', ns, h => by cases h; simp
  | (off, len, nal) :: rest, st, st', ns, h => by
    simp only [parseAll] at h
    cases hp : parseNalUnit cs st nal with
    | bad k => rw [hp] at h; cases h
    | fail b => rw [hp] at h; have := parseAll_count h; simp only [List.length_cons]; omega
    | ok x b =>
      obtain ⟨n0, st1⟩ := x
      rw [hp] at h
      dsimp only at h
      cases hr : parseAll cs rest st1 with
      | error k => rw [hr] at h; cases h
      | ok y =>
        obtain ⟨ns', st2⟩ := y
        rw [hr] at h
        cases h
        have := parseAll_count hr
        simp only [List.length_cons]; omega

theorem parseAll_append_ok {cs : Bool} {l m : List (Nat × Nat × List UInt8)} {st st' : ParserState} {ns : List NalUnit}
    (h : parseAll cs (l ++ m) st = .ok (ns, st')) :
    ∃ n1 s1 n2, parseAll cs l st = .ok (n1, s1) ∧ parseAll cs m s1 = .ok (n2, st') ∧ ns = n1 ++ n2 := by
  rw [parseAll_append] at h
  cases h1 : parseAll cs l st with
  | error k => rw [h1] at h; cases h
  | ok x =>
    rw [h1] at h
    dsimp only [Except.bind] at h
    cases h2 : parseAll cs m x.2 with
    | error k => rw [h2] at h; cases h
    | ok y => rw [h2] at h; cases h; exact ⟨x.1, x.2, y.1, rfl, h2, rfl⟩

/-- C71: a byte stream `a` and the same stream with more bytes `b` behind it are parsed to lists of units that begin alike: all units reported for `a` but the last one are
reported, in every detail the same, for the whole stream, and all units of the whole stream whose end is followed by a start code and one more byte in `a` (5 bytes) are
reported for `a`. -/
theorem C71_annexB {cs : Bool} {st s1 s2 : ParserState} {a b : List UInt8} {ms ns : List NalUnit} (hlen : (a ++ b).length < 2 ^ 64)
    (ha : parseBitstream cs st a = .ok (ms, s1)) (hab : parseBitstream cs st (a ++ b) = .ok (ns, s2)) :
    ∃ common, common <+: ms ∧ common <+: ns ∧ ms.length ≤ common.length + 1 ∧
      ∀ n ∈ ns, n.offset + n.length + 5 ≤ a.length → n ∈ common := by
  have hla : a.length < 2 ^ 64 := by rw [List.length_append] at hlen; omega
  rw [parseBitstream_eq cs st _ hla] at ha
  rw [parseBitstream_eq cs st _ hlen] at hab
  obtain ⟨r, hr, hb⟩ := starts_prefix a b
  rw [hr] at hab
  rcases List.eq_nil_or_concat (starts a) with h0 | ⟨l, q, hq⟩
  · rw [h0] at ha hab
    cases ha
    refine ⟨[], List.nil_prefix, List.nil_prefix, by simp, fun n hn hl => ?_⟩
    exfalso
    obtain ⟨x, hx, e1, e2⟩ := parseAll_position hab hn
    obtain ⟨e, he, rfl⟩ := List.mem_map.mp hx
    rw [List.nil_append] at he
    cases r with
    | nil => cases he
    | cons q r =>
      have := entries_ends (a ++ b) (a ++ b).length a.length (by rw [List.length_append]; omega) q r (fun x hx => hb x (by simp [hx])) e he
      simp only [spanOf] at e1 e2
      omega
  · rw [List.concat_eq_append] at hq
    rw [hq] at ha hab
    rw [entries_append, List.map_append] at ha
    rw [List.append_assoc, List.singleton_append, entries_append, List.map_append] at hab
    have hmem : ∀ p ∈ starts a, p + 3 ≤ a.length := fun p hp => by
      have := (mem_startsBelow.mp hp).2.2.2.2; omega
    have hql : q + 3 ≤ a.length := hmem q (by rw [hq]; simp)
    have hsb : startCodeBegin (a ++ b) q = startCodeBegin a q := by
      unfold startCodeBegin; rw [List.getElem?_append_left (by omega)]
    rw [hsb, entries_left a b _ (by have := startCodeBegin_le a q; omega) l (fun p hp => hmem p (by rw [hq]; simp [hp]))] at hab
    obtain ⟨m1, t1, m2, e1, e2, rfl⟩ := parseAll_append_ok ha
    obtain ⟨n1, t2, n2, f1, f2, rfl⟩ := parseAll_append_ok hab
    rw [e1] at f1
    cases f1
    refine ⟨m1, List.prefix_append _ _, List.prefix_append _ _, ?_, fun n hn hl => ?_⟩
    · have := parseAll_count e2
      simp only [entries, List.map_cons, List.map_nil, List.length_cons, List.length_nil] at this
      rw [List.length_append]; omega
    · rcases List.mem_append.mp hn with hn | hn
      · exact hn
      · exfalso
        obtain ⟨x, hx, g1, g2⟩ := parseAll_position f2 hn
        obtain ⟨e, he, rfl⟩ := List.mem_map.mp hx
        have := entries_ends (a ++ b) (a ++ b).length a.length (by rw [List.length_append]; omega) q r hb e he
        simp only [spanOf] at g1 g2
        omega

/-- the units reported by a new parser -/
def reported (data : List UInt8) : List NalUnit :=
  match parseBitstream false .empty data with
  | .ok (ns, _) => ns
  | .error _ => []

/-- hypotheses met, and 5 bytes are needed: with the last byte of the stream of h265_bitstream_parser_unittest.cc cut off, with the slice cut off behind its first byte,
and with nothing left of it but its start code: the units before are the same, and the PPS too as long as one byte follows the start code. -/
example : (reported testStream).length = 4 ∧ (reported (testStream.take 99)).dropLast = (reported testStream).dropLast ∧
    reported (testStream.take 86) = (reported testStream).dropLast ∧ (reported (testStream.take 85)).dropLast = (reported testStream).take 2 ∧
    (reported (testStream.take 85)).map (·.length) = [23, 39, 11] := by decide +kernel

/-! ### streams with length fields -/

theorem take_append_length {α : Type} (l m : List α) (k : Nat) (h : l.length ≤ k) : (l ++ m).take k = l ++ m.take (k - l.length) := by
  rw [List.take_append, List.take_of_length_le h]

/-- C71: a stream of NAL units with length fields that is cut off within the unit `x` (in its length field or in its bytes) is parsed to exactly the units before `x`. -/
theorem C71_length_prefixed (cs : Bool) (n : Nat) (st : ParserState) (before behind : List (List UInt8)) (x : List UInt8) (k : Nat) (hn0 : 0 < n) (hn : n ≤ 7)
    (hu : ∀ y ∈ before ++ x :: behind, y ≠ [] ∧ y.length < 256 ^ n) (hlen : (lengthPrefixed n (before ++ x :: behind)).length < 2 ^ 63)
    (h1 : (lengthPrefixed n before).length ≤ k) (h2 : k < (lengthPrefixed n (before ++ [x])).length) :
    parseBitstreamNaluLength cs n st ((lengthPrefixed n (before ++ x :: behind)).take k) = parseBitstreamNaluLength cs n st (lengthPrefixed n before) := by
  have hsplit : ∀ u v : List (List UInt8), lengthPrefixed n (u ++ v) = lengthPrefixed n u ++ lengthPrefixed n v := by
    intro u v; unfold lengthPrefixed; rw [List.map_append, List.flatten_append]
  have hcons : ∀ v : List (List UInt8), lengthPrefixed n (x :: v) = beBytes n x.length ++ (x ++ lengthPrefixed n v) := by
    intro v; simp [lengthPrefixed]
  have hx := hu x (by simp)
  rw [hsplit] at hlen h2 ⊢
  rw [hcons] at h2
  simp only [List.length_append, beBytes_length, show lengthPrefixed n [] = [] from rfl, List.length_nil] at h2
  rw [take_append_length _ _ _ h1]
  have hub : ∀ y ∈ before, y ≠ [] ∧ y.length < 256 ^ n := fun y hy => hu y (by simp [hy])
  have hlb : (lengthPrefixed n before).length < 2 ^ 63 := by rw [List.length_append] at hlen; omega
  rw [lengthStream_eq cs n st before hn0 hn hub hlb]
  refine C15_units cs n st before _ hn0 hn hub (.stop ?_) ?_
  · rw [hcons]
    generalize hj : k - (lengthPrefixed n before).length = j
    by_cases hjn : j < n
    · left; rw [List.length_take]; omega
    · right; right
      have hv : beAt n ((beBytes n x.length ++ (x ++ lengthPrefixed n behind)).take j) 0 = x.length := by
        unfold beAt
        rw [take_append_length _ _ _ (by rw [beBytes_length]; omega), List.drop_zero, List.take_left' (beBytes_length _ _), val_beBytes, Nat.mod_eq_of_lt hx.2]
      rw [hv, List.length_take]
      omega
  · rw [List.length_append, List.length_take]; rw [List.length_append] at hlen; omega

/-- hypotheses met: the units of that stream with length fields of two bytes, cut within the PPS and within its length field -/
example : (∀ y ∈ testUnits.map (·.2), y ≠ [] ∧ y.length < 256 ^ 2) ∧ (lengthPrefixed 2 ((testUnits.map (·.2)).take 2)).length = 66 ∧
    (match parseBitstreamNaluLength false 2 .empty ((lengthPrefixed 2 (testUnits.map (·.2))).take 74), parseBitstreamNaluLength false 2 .empty ((lengthPrefixed 2 (testUnits.map (·.2))).take 67) with
      | .ok (a, _), .ok (b, _) => [a.length, b.length]
      | _, _ => []) = [2, 2] := by decide +kernel

end H265
