/- C86: a byte stream that arrives in pieces. -/
import Verif.Props.Resync
import Verif.Spec.Chunks

set_option autoImplicit false

namespace H265
open Spec

/-- the places of the NAL units of a byte stream -/
def places (data : List UInt8) : List (Nat × Nat × List UInt8) := (entries data data.length (starts data)).map (spanOf data)

/-- the places of the NAL units of `a` when a start code follows -/
def closed (a : List UInt8) : List (Nat × Nat × List UInt8) := (entries a a.length (starts a ++ openEnd a)).map (spanOf a)

theorem first_start {b : List UInt8} (hb : BeginsUnit b) : ∃ q r, starts b = q :: r ∧ startCodeBegin b q = 0 := by
  have hmem : ∀ p ∈ starts b, startCodeAt b p := fun p hp => (mem_startsBelow.mp hp).2
  have hsorted := starts_sorted b b.length
  change (starts b).Pairwise (· < ·) at hsorted
  obtain ⟨p0, hp0, hpb⟩ := hb
  have hp0m : p0 ∈ starts b := mem_startsBelow.mpr ⟨by have := hp0.2.2.2; omega, hp0⟩
  cases hs : starts b with
  | nil => rw [hs] at hp0m; cases hp0m
  | cons q r =>
    refine ⟨q, r, rfl, ?_⟩
    rw [hs] at hp0m hsorted hmem
    rcases List.mem_cons.mp hp0m with h | h
    · rw [← h]; exact hpb
    · have hlt := (List.pairwise_cons.mp hsorted).1 p0 h
      have := startCode_apart (hmem q (by simp)) hp0 hlt
      unfold startCodeBegin at hpb
      split at hpb <;> omega

theorem begin_right (a b : List UInt8) (ha : a.getLast? ≠ some 0 ∨ b[2]? = some 0) (p : Nat) (hp : startCodeAt b p) :
    startCodeBegin (a ++ b) (a.length + p) = a.length + startCodeBegin b p := by
  have hgt : ∀ i, (a ++ b)[a.length + i]? = b[i]? := by
    intro i; rw [List.getElem?_append_right (by omega), Nat.add_sub_cancel_left]
  unfold startCodeBegin
  cases p with
  | zero =>
    have h21 : b[2]? = some 1 := hp.2.2.1
    have ha' : a.getLast? ≠ some 0 := by
      rcases ha with h | h
      · exact h
      · rw [h21] at h; cases h
    rw [if_neg, if_neg (by omega)]
    rintro ⟨h1, h2⟩
    rw [Nat.add_zero] at h1 h2
    rw [List.getElem?_append_left (by omega)] at h2
    exact ha' (by rw [List.getLast?_eq_getElem?]; exact h2)
  | succ p =>
    rw [show a.length + (p + 1) - 1 = a.length + p by omega, hgt, show p + 1 - 1 = p by omega]
    by_cases hz : b[p]? = some 0
    · rw [if_pos ⟨by omega, hz⟩, if_pos ⟨by omega, hz⟩]
    · rw [if_neg (fun h => hz h.2), if_neg (fun h => hz h.2)]

theorem closed_in (a : List UInt8) : ∀ p ∈ starts a ++ openEnd a, p + 3 ≤ a.length := by
  intro p hp
  rw [List.mem_append] at hp
  rcases hp with hp | hp
  · have := (mem_startsBelow.mp hp).2.2.2.2; omega
  · unfold openEnd at hp
    split at hp
    · rename_i h; have := ((suffix001 a).mp h).1
      simp only [List.mem_singleton] at hp; omega
    · cases hp

/-- cutting in front of a start code -/
theorem places_append (a b : List UInt8) (hb : BeginsUnit b) (ha : a.getLast? ≠ some 0 ∨ b[2]? = some 0) :
    places (a ++ b) = closed a ++ (places b).map fun x => (a.length + x.1, x.2) := by
  obtain ⟨q, r, hq, hqb⟩ := first_start hb
  have hqs : startCodeAt b q := (mem_startsBelow.mp (show q ∈ starts b by rw [hq]; simp)).2
  have hR := entries_right a b b.length (starts b) (fun p hp => begin_right a b ha p (mem_startsBelow.mp hp).2)
  unfold places closed
  rw [starts_append a b hb, hq, List.map_cons, entries_append, ← List.map_cons (f := (a.length + ·)), ← hq, List.length_append, List.map_append, hR,
    begin_right a b ha q hqs, hqb, Nat.add_zero]
  rw [entries_left a b a.length (Nat.le_refl _) _ (closed_in a)]

/-- The last NAL unit of a buffer: the buffer divides in front of its start code, and the division stays what it is when more bytes follow. -/
theorem last_unit {data : List UInt8} {l : List Nat} {q : Nat} (h : starts data = l ++ [q]) :
    BeginsUnit (data.drop (startCodeBegin data q)) ∧
    ((data.take (startCodeBegin data q)).getLast? ≠ some 0 ∨ (data.drop (startCodeBegin data q))[2]? = some 0) ∧
    (data.take (startCodeBegin data q)).length = startCodeBegin data q ∧
    (starts (data.drop (startCodeBegin data q))).length = 1 := by
  have hq : startCodeAt data q := (mem_startsBelow.mp (show q ∈ starts data by rw [h]; simp)).2
  obtain ⟨h0, h1, h2, h3⟩ := hq
  have hk : startCodeBegin data q = q ∧ (q = 0 ∨ data[q - 1]? ≠ some 0) ∨ (startCodeBegin data q = q - 1 ∧ 0 < q ∧ data[q - 1]? = some 0) := by
    unfold startCodeBegin
    by_cases hc : q > 0 ∧ data[q - 1]? = some 0
    · rw [if_pos hc]; exact .inr ⟨rfl, hc.1, hc.2⟩
    · rw [if_neg hc]
      refine .inl ⟨rfl, ?_⟩
      by_cases h00 : q = 0
      · exact .inl h00
      · exact .inr fun hz => hc ⟨by omega, hz⟩
  have hkle : startCodeBegin data q ≤ q := startCodeBegin_le data q
  have hlen : (data.take (startCodeBegin data q)).length = startCodeBegin data q := by rw [List.length_take]; omega
  generalize hkk : startCodeBegin data q = k at *
  have hd : ∀ i, (data.drop k)[i]? = data[k + i]? := by intro i; rw [List.getElem?_drop]
  have hdl : (data.drop k).length = data.length - k := List.length_drop
  have hat : ∀ p, startCodeAt (data.drop k) p ↔ startCodeAt data (k + p) := by
    intro p
    unfold startCodeAt
    rw [hd, hd, hd, hdl, Nat.add_assoc, Nat.add_assoc]
    exact ⟨fun ⟨x, y, z, w⟩ => ⟨x, y, z, by omega⟩, fun ⟨x, y, z, w⟩ => ⟨x, y, z, by omega⟩⟩
  have hbeg : BeginsUnit (data.drop k) := by
    rcases hk with ⟨e, _⟩ | ⟨e, hp, hz⟩
    · exact ⟨0, (hat 0).mpr (by rw [Nat.add_zero, e]; exact ⟨h0, h1, h2, h3⟩), by unfold startCodeBegin; rw [if_neg (by omega)]⟩
    · refine ⟨1, (hat 1).mpr (by rw [show k + 1 = q by omega]; exact ⟨h0, h1, h2, h3⟩), ?_⟩
      unfold startCodeBegin
      rw [if_pos ⟨by omega, by rw [hd, show k + (1 - 1) = q - 1 by omega]; exact hz⟩]
  refine ⟨hbeg, ?_, hlen, ?_⟩
  · rcases hk with ⟨e, hz⟩ | ⟨e, hp, hz⟩
    · left
      rw [List.getLast?_eq_getElem?, hlen]
      by_cases h00 : q = 0
      · rw [e, h00]; simp
      · rw [List.getElem?_take_of_lt (by omega), e]
        rcases hz with hz | hz
        · exact absurd hz h00
        · exact hz
    · right
      rw [hd, show k + 2 = q + 1 by omega]; exact h1
  · obtain ⟨p, r, hp, _⟩ := first_start hbeg
    have hs : (starts (data.drop k)).Pairwise (· < ·) := starts_sorted _ _
    cases r with
    | nil => rw [hp]; rfl
    | cons p' r =>
      exfalso
      have hm : ∀ x ∈ starts (data.drop k), startCodeAt (data.drop k) x ∧ k + x ≤ q := by
        intro x hx
        have hx := (mem_startsBelow.mp hx).2
        refine ⟨hx, ?_⟩
        have hxd := (hat x).mp hx
        have : k + x ∈ starts data := mem_startsBelow.mpr ⟨by have := hxd.2.2.2; omega, hxd⟩
        rw [h] at this
        have hsd : (starts data).Pairwise (· < ·) := starts_sorted _ _
        rw [h, List.pairwise_append] at hsd
        rcases List.mem_append.mp this with hl | hl
        · exact Nat.le_of_lt (hsd.2.2 _ hl q (by simp))
        · simp only [List.mem_singleton] at hl; omega
      rw [hp] at hm hs
      obtain ⟨a1, a2⟩ := hm p (by simp)
      obtain ⟨b1, b2⟩ := hm p' (by simp)
      have := startCode_apart a1 b1 ((List.pairwise_cons.mp hs).1 p' (by simp))
      omega

theorem unitsOf_eq (passed : Nat) (data : List UInt8) (es : List NaluIndex) : unitsOf passed data es = (es.map (spanOf data)).map fun x => (passed + x.1, x.2) := by
  unfold unitsOf spanOf
  rw [List.map_map]; rfl

theorem map_shift (m n : Nat) (l : List (Nat × Nat × List UInt8)) :
    (l.map fun x => (n + x.1, x.2)).map (fun x => (m + x.1, x.2)) = l.map fun x => (m + n + x.1, x.2) := by
  rw [List.map_map]
  apply List.map_congr_left
  intro x _
  simp [Nat.add_assoc]

/-- what is still to be reported, given the receiver and all the bytes to come -/
def toReport (cs : Bool) (s : Receiver) (more : List UInt8) : Except Bad (List NalUnit × ParserState) :=
  match parseAll cs ((places (s.kept ++ more)).map fun x => (s.passed + x.1, x.2)) s.st with
  | .error k => .error k
  | .ok (ns, st) => .ok (s.out ++ ns, st)

theorem finish_eq (cs : Bool) (s : Receiver) (h : s.kept.length < 2 ^ 64) : s.finish cs = toReport cs s [] := by
  unfold Receiver.finish toReport
  rw [findNaluIndices_eq _ h, List.append_nil]
  simp only [unitsOf_eq]
  rfl

/-- one piece: nothing is lost and nothing is reported twice -/
theorem feed_eq (cs : Bool) (s : Receiver) (piece more : List UInt8) (h : (s.kept ++ piece).length < 2 ^ 64) :
    toReport cs s (piece ++ more) = (match s.feed cs piece with | .error k => .error k | .ok s' => toReport cs s' more) ∧
    ∀ s', s.feed cs piece = .ok s' → s'.passed + s'.kept.length = s.passed + (s.kept ++ piece).length := by
  unfold Receiver.feed
  rw [findNaluIndices_eq _ h]
  dsimp only
  rcases List.eq_nil_or_concat (starts (s.kept ++ piece)) with h0 | ⟨l, q, hq⟩
  · rw [h0]
    dsimp only [entries, List.getLast?_nil]
    refine ⟨?_, fun s' e => by cases e; rfl⟩
    unfold toReport
    rw [List.append_assoc]
  · rw [List.concat_eq_append] at hq
    rw [hq, entries_snoc, List.getLast?_concat, List.dropLast_concat]
    dsimp only
    obtain ⟨g1, g2, g3, g4⟩ := last_unit hq
    have hle := startCodeBegin_le (s.kept ++ piece) q
    have hql : q + 3 < (s.kept ++ piece).length := (mem_startsBelow.mp (show q ∈ starts (s.kept ++ piece) by rw [hq]; simp)).2.2.2.2
    have hplaces := places_append _ _ g1 g2
    rw [List.take_append_drop, g3] at hplaces
    have hone : closed ((s.kept ++ piece).take (startCodeBegin (s.kept ++ piece) q)) =
        (entries (s.kept ++ piece) (startCodeBegin (s.kept ++ piece) q) l).map (spanOf (s.kept ++ piece)) := by
      obtain ⟨x, hx⟩ := List.length_eq_one_iff.mp g4
      have e1 : places (s.kept ++ piece) = (entries (s.kept ++ piece) (startCodeBegin (s.kept ++ piece) q) l).map (spanOf (s.kept ++ piece)) ++
          [spanOf (s.kept ++ piece) ⟨startCodeBegin (s.kept ++ piece) q, q + 3, (s.kept ++ piece).length - (q + 3)⟩] := by
        unfold places
        rw [hq, entries_snoc, List.map_append]; rfl
      rw [e1] at hplaces
      have e2 : ∀ d, starts d = [x] → ∃ y, (places d).map (fun x => (startCodeBegin (s.kept ++ piece) q + x.1, x.2)) = [y] := by
        intro d hd
        unfold places
        rw [hd]
        exact ⟨_, rfl⟩
      obtain ⟨y, hy⟩ := e2 _ hx
      rw [hy] at hplaces
      exact ((List.append_inj' hplaces rfl).1).symm
    have hmore := places_append ((s.kept ++ piece).take (startCodeBegin (s.kept ++ piece) q)) ((s.kept ++ piece).drop (startCodeBegin (s.kept ++ piece) q) ++ more)
      (g1.append more) (by
        rcases g2 with g2 | g2
        · exact .inl g2
        · refine .inr ?_
          rw [List.getElem?_append_left (List.getElem?_eq_some_iff.mp g2).1]; exact g2)
    rw [← List.append_assoc, List.take_append_drop, g3, hone] at hmore
    constructor
    · unfold toReport
      rw [← List.append_assoc, hmore, List.map_append, parseAll_append, unitsOf_eq, map_shift]
      cases parseAll cs (((entries (s.kept ++ piece) (startCodeBegin (s.kept ++ piece) q) l).map (spanOf (s.kept ++ piece))).map fun x => (s.passed + x.1, x.2)) s.st with
      | error k => rfl
      | ok x =>
        obtain ⟨ns, st⟩ := x
        dsimp only [Except.bind]
        cases parseAll cs ((places ((s.kept ++ piece).drop (startCodeBegin (s.kept ++ piece) q) ++ more)).map
            fun x => (s.passed + startCodeBegin (s.kept ++ piece) q + x.1, x.2)) st with
        | error k => rfl
        | ok y => simp
    · intro s' hs
      split at hs
      · cases hs
      · cases hs
        simp only [List.length_drop]
        omega

theorem feedAll_eq (cs : Bool) : ∀ (pieces : List (List UInt8)) (s : Receiver), (s.kept ++ pieces.flatten).length < 2 ^ 64 →
    toReport cs s pieces.flatten = match s.feedAll cs pieces with | .error k => .error k | .ok s' => s'.finish cs
  | [], s, h => by
    simp only [Receiver.feedAll, List.flatten_nil] at h ⊢
    rw [finish_eq]
    simpa using h
  | p :: ps, s, h => by
    simp only [List.flatten_cons, List.length_append] at h
    have hl : (s.kept ++ p).length < 2 ^ 64 := by rw [List.length_append]; omega
    obtain ⟨e, hs⟩ := feed_eq cs s p ps.flatten hl
    rw [List.flatten_cons, e]
    simp only [Receiver.feedAll]
    cases hf : s.feed cs p with
    | error k => rfl
    | ok s' =>
      dsimp only
      have hk : s'.kept.length ≤ (s.kept ++ p).length := by
        unfold Receiver.feed at hf
        rw [findNaluIndices_eq _ hl] at hf
        dsimp only at hf
        split at hf
        · cases hf; exact Nat.le_refl _
        · split at hf
          · cases hf
          · cases hf; simp only [List.length_drop]; omega
      exact feedAll_eq cs ps s' (by rw [List.length_append] at hk ⊢; omega)

/-- C86: whatever the pieces in which an Annex B byte stream arrives (of any sizes, cut anywhere, also within start codes): what is reported is what `ParseBitstream`
reports for the whole stream: the same NAL units with the same contents and places, and the same parser state afterwards. -/
theorem C86_pieces (cs : Bool) (st : ParserState) (pieces : List (List UInt8)) (h : pieces.flatten.length < 2 ^ 64) :
    receive cs st pieces = parseBitstream cs st pieces.flatten := by
  have e := feedAll_eq cs pieces (Receiver.init st) (by simpa [Receiver.init] using h)
  unfold receive
  refine e.symm.trans ?_
  rw [parseBitstream_eq cs st _ h]
  unfold toReport Receiver.init places
  simp only [List.nil_append, Nat.zero_add]
  rw [show ((fun x => (x.1, x.2)) : Nat × Nat × List UInt8 → _) = id from rfl, List.map_id]
  cases parseAll cs ((entries pieces.flatten pieces.flatten.length (starts pieces.flatten)).map (spanOf pieces.flatten)) st <;> rfl

/-- the bytes kept hold at most one start code, and if they hold one they begin with it -/
def OneUnit (data : List UInt8) : Prop := starts data = [] ∨ (BeginsUnit data ∧ (starts data).length = 1)

theorem feed_kept {cs : Bool} {s s' : Receiver} {piece : List UInt8} (h : (s.kept ++ piece).length < 2 ^ 64) (hf : s.feed cs piece = .ok s') : OneUnit s'.kept := by
  unfold Receiver.feed at hf
  rw [findNaluIndices_eq _ h] at hf
  dsimp only at hf
  rcases List.eq_nil_or_concat (starts (s.kept ++ piece)) with h0 | ⟨l, q, hq⟩
  · rw [h0] at hf
    dsimp only [entries, List.getLast?_nil] at hf
    cases hf
    exact .inl h0
  · rw [List.concat_eq_append] at hq
    rw [hq, entries_snoc, List.getLast?_concat, List.dropLast_concat] at hf
    dsimp only at hf
    obtain ⟨g1, g2, g3, g4⟩ := last_unit hq
    split at hf
    · cases hf
    · cases hf
      exact .inr ⟨g1, g4⟩

theorem feedAll_kept {cs : Bool} : ∀ (pieces : List (List UInt8)) (s s' : Receiver), OneUnit s.kept → (s.kept ++ pieces.flatten).length < 2 ^ 64 →
    s.feedAll cs pieces = .ok s' → OneUnit s'.kept ∧ s'.passed + s'.kept.length = s.passed + (s.kept ++ pieces.flatten).length
  | [], s, s', h1, h2, h => by
    cases h
    exact ⟨h1, by simp⟩
  | p :: ps, s, s', h1, h2, h => by
    simp only [List.flatten_cons, List.length_append] at h2
    have hl : (s.kept ++ p).length < 2 ^ 64 := by rw [List.length_append]; omega
    simp only [Receiver.feedAll] at h
    cases hf : s.feed cs p with
    | error k => rw [hf] at h; cases h
    | ok s1 =>
      rw [hf] at h
      have hk := (feed_eq cs s p [] hl).2 s1 hf
      have hk2 : s1.kept.length ≤ (s.kept ++ p).length := by
        unfold Receiver.feed at hf
        rw [findNaluIndices_eq _ hl] at hf
        dsimp only at hf
        split at hf
        · cases hf; exact Nat.le_refl _
        · split at hf
          · cases hf
          · cases hf; simp only [List.length_drop]; omega
      obtain ⟨a, b⟩ := feedAll_kept ps s1 s' (feed_kept hl hf) (by rw [List.length_append] at hk2 ⊢; omega) h
      refine ⟨a, ?_⟩
      simp only [List.flatten_cons, List.length_append] at hk b ⊢
      omega

theorem parseAll_le {cs : Bool} : ∀ {l : List (Nat × Nat × List UInt8)} {st st' : ParserState} {ns : List NalUnit}, parseAll cs l st = .ok (ns, st') → ns.length ≤ l.length
  | [], st, st', ns, h => by cases h; simp
  | (off, len, nal) :: l, st, st', ns, h => by
    cases hn : parseNalUnit cs st nal with
    | bad k => simp only [parseAll, hn] at h; cases h
    | fail c =>
      simp only [parseAll, hn] at h
      have := parseAll_le h
      simp only [List.length_cons]; omega
    | ok y c =>
      obtain ⟨n, st1⟩ := y
      simp only [parseAll, hn] at h
      cases hrest : parseAll cs l st1 with
      | error k => rw [hrest] at h; cases h
      | ok y =>
        obtain ⟨ns1, st2⟩ := y
        rw [hrest] at h
        cases h
        have := parseAll_le hrest
        simp only [List.length_cons]; omega

theorem feedAll_suffix {cs : Bool} : ∀ (pieces : List (List UInt8)) (s s' : Receiver), (s.kept ++ pieces.flatten).length < 2 ^ 64 →
    s.feedAll cs pieces = .ok s' → s'.kept <:+ s.kept ++ pieces.flatten
  | [], s, s', h2, h => by
    cases h
    simp
  | p :: ps, s, s', h2, h => by
    simp only [List.flatten_cons, List.length_append] at h2
    have hl : (s.kept ++ p).length < 2 ^ 64 := by rw [List.length_append]; omega
    simp only [Receiver.feedAll] at h
    cases hf : s.feed cs p with
    | error k => rw [hf] at h; cases h
    | ok s1 =>
      rw [hf] at h
      have hk2 : s1.kept <:+ s.kept ++ p := by
        unfold Receiver.feed at hf
        rw [findNaluIndices_eq _ hl] at hf
        dsimp only at hf
        split at hf
        · cases hf; exact List.suffix_refl _
        · split at hf
          · cases hf
          · cases hf; exact List.drop_suffix _ _
      have hk3 := hk2.length_le
      have := feedAll_suffix ps s1 s' (by rw [List.length_append] at hk3 ⊢; omega) h
      refine this.trans ?_
      rw [List.flatten_cons, ← List.append_assoc]
      obtain ⟨t, ht⟩ := hk2
      exact ⟨t, by rw [← ht, List.append_assoc]⟩

/-- C86: after each piece, all NAL units of the bytes received have been reported but the last one: `ParseBitstream` of these bytes would report the same and at most
one NAL unit more.  The bytes kept are the last ones received; they hold at most one start code, and begin with it. -/
theorem C86_prompt (cs : Bool) (st : ParserState) (pieces : List (List UInt8)) (s : Receiver) (h : pieces.flatten.length < 2 ^ 64)
    (hs : (Receiver.init st).feedAll cs pieces = .ok s) :
    (∀ ns st', parseBitstream cs st pieces.flatten = .ok (ns, st') → ∃ last, ns = s.out ++ last ∧ last.length ≤ 1) ∧
    s.kept <:+ pieces.flatten ∧ s.passed + s.kept.length = pieces.flatten.length ∧
    (∀ p, startCodeAt s.kept p → startCodeBegin s.kept p = 0) := by
  obtain ⟨hone, hlen⟩ := feedAll_kept pieces (Receiver.init st) s (.inl rfl) (by simpa [Receiver.init] using h) hs
  have hl : s.passed + s.kept.length = pieces.flatten.length := by simpa [Receiver.init] using hlen
  refine ⟨?_, ?_, hl, ?_⟩
  · intro ns st' hp
    rw [← C86_pieces cs st pieces h] at hp
    unfold receive at hp
    rw [hs] at hp
    dsimp only at hp
    rw [finish_eq cs s (by omega)] at hp
    unfold toReport at hp
    rw [List.append_nil] at hp
    split at hp
    · cases hp
    · next ms st2 hm =>
      cases hp
      refine ⟨ms, rfl, ?_⟩
      have := parseAll_le hm
      rw [List.length_map] at this
      unfold places at this
      rw [List.length_map] at this
      rcases hone with h0 | ⟨_, h1⟩
      · rw [h0] at this; simpa [entries] using Nat.le_trans this (by simp [entries])
      · obtain ⟨x, hx⟩ := List.length_eq_one_iff.mp h1
        rw [hx] at this; exact this
  · exact feedAll_suffix pieces (Receiver.init st) s (by simpa [Receiver.init] using h) hs
  · intro p hp
    have hm : p ∈ starts s.kept := mem_startsBelow.mpr ⟨by have := hp.2.2.2; omega, hp⟩
    rcases hone with h0 | ⟨h1, h2⟩
    · rw [h0] at hm; cases hm
    · obtain ⟨q, r, hq, hb⟩ := first_start h1
      obtain ⟨x, hx⟩ := List.length_eq_one_iff.mp h2
      rw [hx] at hq hm
      cases hq
      simp only [List.mem_singleton] at hm
      rw [hm]; exact hb

/-! ### hypotheses met -/

/-- two access unit delimiters, cut within start codes and NAL units -/
example : (receive false .empty [[], [0, 0], [0, 1, 0x46, 1, 0x10, 0], [0], [1, 0x46], [1, 0x50]]).toOption.map (fun x => x.1.map fun n => (n.offset, n.length, n.nal_unit_payload.aud.map (·.pic_type))) =
    some [(4, 3, some 0), (10, 3, some 2)] := by decide +kernel

end H265
