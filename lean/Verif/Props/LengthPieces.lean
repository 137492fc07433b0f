/- C88: a stream with length fields that arrives in pieces. -/
import Verif.Spec.LengthPieces

set_option autoImplicit false

namespace H265
open Spec

/-- where the last of these units ends -/
def frameEnd : Nat → List (Nat × Nat) → Nat
  | off, [] => off
  | _, (o, s) :: l => frameEnd (o + s) l

theorem beAt_append {n : Nat} {data : List UInt8} {off : Nat} (more : List UInt8) (h : off + n ≤ data.length) : beAt n (data ++ more) off = beAt n data off := by
  unfold beAt
  rw [List.drop_append_of_le_length (by omega), List.take_append_of_le_length (by rw [List.length_drop]; omega)]

theorem beAt_shift (n : Nat) (pre data : List UInt8) (off : Nat) : beAt n (pre ++ data) (pre.length + off) = beAt n data off := by
  unfold beAt
  rw [List.drop_append, List.drop_of_length_le (by omega), List.nil_append, Nat.add_sub_cancel_left]

theorem beAt_drop (n : Nat) (data : List UInt8) (off : Nat) : beAt n (data.drop off) 0 = beAt n data off := by
  unfold beAt
  rw [List.drop_zero]

theorem Spec.FramedBy.shift {n : Nat} {data : List UInt8} {off : Nat} {l : List (Nat × Nat)} (pre : List UInt8) (h : FramedBy n data off l) :
    FramedBy n (pre ++ data) (pre.length + off) (l.map fun x => (pre.length + x.1, x.2)) := by
  induction h with
  | stop hs =>
    refine .stop ?_
    rw [beAt_shift, List.length_append]
    rcases hs with h | h | h
    · left; omega
    · right; left; exact h
    · right; right; omega
  | @unit off l h1 h2 _ ih =>
    rw [List.map_cons]
    have e : pre.length + (off + n) = pre.length + off + n := by omega
    dsimp only
    rw [e, ← beAt_shift n pre data off]
    refine .unit (by rw [beAt_shift]; exact h1) (by rw [beAt_shift, List.length_append]; omega) ?_
    rw [beAt_shift]
    rw [show pre.length + off + n + beAt n data off = pre.length + (off + n + beAt n data off) by omega]
    exact ih

theorem Spec.FramedBy.extend {n : Nat} {data : List UInt8} {off : Nat} {l : List (Nat × Nat)} (more : List UInt8) (h : FramedBy n data off l) (l2 : List (Nat × Nat))
    (h2 : FramedBy n (data ++ more) (frameEnd off l) l2) : FramedBy n (data ++ more) off (l ++ l2) := by
  induction h with
  | stop _ => exact h2
  | @unit off l e1 e2 _ ih =>
    have eb := beAt_append more (show off + n ≤ data.length by omega)
    rw [List.cons_append, ← eb]
    refine .unit (by rw [eb]; exact e1) (by rw [eb, List.length_append]; omega) ?_
    rw [eb]
    exact ih h2

theorem Spec.FramedBy.end_le {n : Nat} {data : List UInt8} {off : Nat} {l : List (Nat × Nat)} (h : FramedBy n data off l) : off ≤ data.length → frameEnd off l ≤ data.length := by
  induction h with
  | stop _ => exact id
  | unit e1 e2 _ ih => intro _; exact ih e2

theorem Spec.FramedBy.at_end {n : Nat} {data : List UInt8} {off : Nat} {l : List (Nat × Nat)} (h : FramedBy n data off l) : FramedBy n data (frameEnd off l) [] := by
  induction h with
  | stop h => exact .stop h
  | unit _ _ _ ih => exact ih

theorem Spec.FramedBy.complete {n : Nat} (hn : 0 < n) {data : List UInt8} {off : Nat} {l : List (Nat × Nat)} (h : FramedBy n data off l) :
    ∀ fuel, data.length - off ≤ fuel → off + completeUnits n fuel (data.drop off) = frameEnd off l := by
  induction h with
  | @stop off hs =>
    intro fuel hf
    cases fuel with
    | zero => rfl
    | succ fuel =>
      unfold completeUnits
      rw [beAt_drop, List.length_drop, if_pos]
      · rfl
      · rcases hs with h | h | h
        · left; omega
        · right; left; exact h
        · by_cases hc : data.length - off < n
          · exact .inl hc
          · exact .inr (.inr (by omega))
  | @unit off l e1 e2 _ ih =>
    intro fuel hf
    cases fuel with
    | zero => omega
    | succ fuel =>
      unfold completeUnits
      rw [beAt_drop, List.length_drop, if_neg (by omega), List.drop_drop]
      have := ih fuel (by omega)
      dsimp only [frameEnd]
      rw [← this]
      simp only [Nat.add_assoc]

/-- places and bytes of the units -/
def lengthSpans (n : Nat) (data : List UInt8) (l : List (Nat × Nat)) : List (Nat × Nat × List UInt8) :=
  l.map fun x => (x.1, n, (data.drop x.1).take x.2)

/-- one piece, seen from the whole stream -/
theorem pieces_split (cs : Bool) (n : Nat) (st : ParserState) (data more : List UInt8) (hn0 : 0 < n) (hn : n ≤ 7) (hlen : (data ++ more).length < 2 ^ 63) :
    parseBitstreamNaluLength cs n st (data ++ more) =
      (parseBitstreamNaluLength cs n st data).bind fun x =>
        (parseBitstreamNaluLength cs n x.2 (data.drop (completeUnits n data.length data) ++ more)).bind fun y =>
          .ok (x.1 ++ y.1.map (fun u => { u with offset := completeUnits n data.length data + u.offset }), y.2) := by
  have hl1 : data.length < 2 ^ 63 := by rw [List.length_append] at hlen; omega
  obtain ⟨l, f1, p1⟩ := C15_length_framing cs n st data hn0 hn hl1
  have hc := f1.complete hn0 data.length (by omega)
  rw [Nat.zero_add, List.drop_zero] at hc
  generalize completeUnits n data.length data = c at *
  have hcl : c ≤ data.length := by rw [hc]; exact f1.end_le (Nat.zero_le _)
  have hl2 : (data.drop c ++ more).length < 2 ^ 63 := by
    rw [List.length_append] at hlen ⊢
    rw [List.length_drop]; omega
  obtain ⟨l2, f2, _⟩ := C15_length_framing cs n st _ hn0 hn hl2
  have p2 : ∀ st', parseBitstreamNaluLength cs n st' (data.drop c ++ more) = parseAll cs (lengthSpans n (data.drop c ++ more) l2) st' := by
    intro st'
    obtain ⟨l3, f3, p3⟩ := C15_length_framing cs n st' _ hn0 hn hl2
    rw [FramedBy.unique f2 f3]; exact p3
  obtain ⟨l4, f4, p4⟩ := C15_length_framing cs n st _ hn0 hn hlen
  have hsplit : data ++ more = data.take c ++ (data.drop c ++ more) := by rw [← List.append_assoc, List.take_append_drop]
  have hct : (data.take c).length = c := by rw [List.length_take]; omega
  have f5 := f2.shift (data.take c)
  rw [hct, ← hsplit, Nat.add_zero] at f5
  have f6 := f1.extend more _ (by rw [← hc]; exact f5)
  rw [p4, FramedBy.unique f4 f6, List.map_append, parseAll_append]
  have q1 : parseAll cs ((l.map fun x => (x.1, n, ((data ++ more).drop x.1).take x.2))) st = parseBitstreamNaluLength cs n st data := by
    rw [p1]
    congr 1
    apply List.map_congr_left
    intro x hx
    have := FramedBy.inside f1 x hx
    rw [List.drop_append_of_le_length (by omega), List.take_append_of_le_length (by rw [List.length_drop]; omega)]
  rw [q1]
  have q2 : (l2.map fun x => (c + x.1, x.2)).map (fun x => (x.1, n, ((data ++ more).drop x.1).take x.2)) =
      (lengthSpans n (data.drop c ++ more) l2).map fun x => (c + x.1, x.2) := by
    unfold lengthSpans
    rw [List.map_map, List.map_map]
    apply List.map_congr_left
    intro x _
    dsimp only [Function.comp]
    rw [hsplit, List.drop_append, List.drop_of_length_le (by omega), List.nil_append, hct, Nat.add_sub_cancel_left]
  rw [q2]
  cases parseBitstreamNaluLength cs n st data with
  | error k => rfl
  | ok x =>
    dsimp only [Except.bind]
    rw [parseAll_shift, p2]
    cases parseAll cs (lengthSpans n (data.drop c ++ more) l2) x.2 <;> rfl

/-- what is still to be reported, given the receiver and all the bytes to come -/
def lengthToReport (cs : Bool) (n : Nat) (s : LengthReceiver) (more : List UInt8) : Except Bad (List NalUnit × ParserState) :=
  (parseBitstreamNaluLength cs n s.st (s.kept ++ more)).bind fun y =>
    .ok (s.out ++ y.1.map (fun u => { u with offset := s.passed + u.offset }), y.2)

theorem lengthFeed_eq (cs : Bool) (n : Nat) (s : LengthReceiver) (piece more : List UInt8) (hn0 : 0 < n) (hn : n ≤ 7) (h : (s.kept ++ (piece ++ more)).length < 2 ^ 63) :
    lengthToReport cs n s (piece ++ more) = (match s.feed cs n piece with | .error k => .error k | .ok s' => lengthToReport cs n s' more) := by
  unfold lengthToReport LengthReceiver.feed
  rw [← List.append_assoc] at h ⊢
  rw [pieces_split cs n s.st _ more hn0 hn h]
  cases parseBitstreamNaluLength cs n s.st (s.kept ++ piece) with
  | error k => rfl
  | ok x =>
    obtain ⟨ns, st⟩ := x
    dsimp only [Except.bind]
    cases parseBitstreamNaluLength cs n st ((s.kept ++ piece).drop (completeUnits n (s.kept ++ piece).length (s.kept ++ piece)) ++ more) with
    | error k => rfl
    | ok y => simp [Nat.add_assoc]

/-- the bytes kept hold no complete unit -/
def NoUnit (n : Nat) (data : List UInt8) : Prop := FramedBy n data 0 []

theorem lengthFeed_kept {cs : Bool} {n : Nat} {s s' : LengthReceiver} {piece : List UInt8} (hn0 : 0 < n) (hn : n ≤ 7) (h : (s.kept ++ piece).length < 2 ^ 63)
    (hf : s.feed cs n piece = .ok s') :
    FramedBy n s'.kept 0 [] ∧ s'.kept <:+ s.kept ++ piece ∧ s'.passed + s'.kept.length = s.passed + (s.kept ++ piece).length := by
  unfold LengthReceiver.feed at hf
  obtain ⟨l, f1, _⟩ := C15_length_framing cs n s.st _ hn0 hn h
  have hc := f1.complete hn0 (s.kept ++ piece).length (by omega)
  rw [Nat.zero_add, List.drop_zero] at hc
  split at hf
  · cases hf
  · cases hf
    dsimp only
    generalize completeUnits n (s.kept ++ piece).length (s.kept ++ piece) = c at *
    have hcl : c ≤ (s.kept ++ piece).length := by rw [hc]; exact f1.end_le (Nat.zero_le _)
    refine ⟨?_, List.drop_suffix _ _, by rw [List.length_drop]; omega⟩
    have f2 := f1.at_end
    rw [← hc] at f2
    cases f2 with
    | stop hs =>
      refine .stop ?_
      rw [beAt_drop, List.length_drop]
      rcases hs with h | h | h
      · left; omega
      · right; left; exact h
      · by_cases hx : (s.kept ++ piece).length - c < 0 + n
        · exact .inl hx
        · exact .inr (.inr (by omega))

theorem lengthFinish (cs : Bool) (n : Nat) (s : LengthReceiver) (hn0 : 0 < n) (hn : n ≤ 7) (h : s.kept.length < 2 ^ 63) (hk : FramedBy n s.kept 0 []) :
    lengthToReport cs n s [] = .ok (s.out, s.st) := by
  unfold lengthToReport
  rw [List.append_nil]
  obtain ⟨l, f1, p1⟩ := C15_length_framing cs n s.st _ hn0 hn h
  rw [p1, FramedBy.unique f1 hk]
  simp [parseAll, Except.bind]

theorem lengthFeedAll_eq (cs : Bool) (n : Nat) (hn0 : 0 < n) (hn : n ≤ 7) : ∀ (pieces : List (List UInt8)) (s : LengthReceiver), FramedBy n s.kept 0 [] →
    (s.kept ++ pieces.flatten).length < 2 ^ 63 →
    lengthToReport cs n s pieces.flatten = (match s.feedAll cs n pieces with | .error k => .error k | .ok s' => .ok (s'.out, s'.st)) ∧
    ∀ s', s.feedAll cs n pieces = .ok s' → FramedBy n s'.kept 0 [] ∧ s'.kept <:+ s.kept ++ pieces.flatten ∧
      s'.passed + s'.kept.length = s.passed + (s.kept ++ pieces.flatten).length
  | [], s, hk, h => by
    simp only [LengthReceiver.feedAll, List.flatten_nil, List.append_nil] at h ⊢
    refine ⟨lengthFinish cs n s hn0 hn h hk, ?_⟩
    intro s' e
    cases e
    exact ⟨hk, List.suffix_refl _, rfl⟩
  | p :: ps, s, hk, h => by
    rw [List.flatten_cons] at h ⊢
    have hl : (s.kept ++ p).length < 2 ^ 63 := by simp only [List.length_append] at h ⊢; omega
    rw [lengthFeed_eq cs n s p ps.flatten hn0 hn h]
    simp only [LengthReceiver.feedAll]
    cases hf : s.feed cs n p with
    | error k => exact ⟨rfl, fun s' e => by cases e⟩
    | ok s1 =>
      obtain ⟨k1, k2, k3⟩ := lengthFeed_kept hn0 hn hl hf
      have k4 := k2.length_le
      obtain ⟨a1, a2⟩ := lengthFeedAll_eq cs n hn0 hn ps s1 k1 (by simp only [List.length_append] at h k4 ⊢; omega)
      refine ⟨a1, fun s' e => ?_⟩
      obtain ⟨b1, b2, b3⟩ := a2 s' e
      refine ⟨b1, b2.trans ?_, by simp only [List.length_append] at k3 b3 ⊢; omega⟩
      obtain ⟨t, ht⟩ := k2
      exact ⟨t, by rw [← List.append_assoc, ht, List.append_assoc]⟩

/-- C88: whatever the pieces in which a stream with length fields of 1 to 7 bytes arrives (of any sizes, cut within length fields or units), and whatever its bytes: what is
reported is what `ParseBitstreamNALULength` reports for the whole stream, and the parser state is the same. -/
theorem C88_pieces (cs : Bool) (n : Nat) (st : ParserState) (pieces : List (List UInt8)) (hn0 : 0 < n) (hn : n ≤ 7) (h : pieces.flatten.length < 2 ^ 63) :
    lengthReceive cs n st pieces = parseBitstreamNaluLength cs n st pieces.flatten := by
  have hk : FramedBy n (LengthReceiver.init st).kept 0 [] := .stop (.inl (by simp [LengthReceiver.init]; omega))
  obtain ⟨e, _⟩ := lengthFeedAll_eq cs n hn0 hn pieces (LengthReceiver.init st) hk (by simpa [LengthReceiver.init] using h)
  unfold lengthReceive
  refine e.symm.trans ?_
  unfold lengthToReport LengthReceiver.init
  simp only [List.nil_append, Nat.zero_add]
  cases parseBitstreamNaluLength cs n st pieces.flatten with
  | error k => rfl
  | ok x => simp [Except.bind]

/-- C88: after each piece everything that has arrived completely has been reported: what is reported so far is what `ParseBitstreamNALULength` reports for all bytes received, and
the bytes kept are the last ones received and hold no complete unit. -/
theorem C88_prompt (cs : Bool) (n : Nat) (st : ParserState) (pieces : List (List UInt8)) (s : LengthReceiver) (hn0 : 0 < n) (hn : n ≤ 7)
    (h : pieces.flatten.length < 2 ^ 63) (hs : (LengthReceiver.init st).feedAll cs n pieces = .ok s) :
    parseBitstreamNaluLength cs n st pieces.flatten = .ok (s.out, s.st) ∧ FramedBy n s.kept 0 [] ∧ s.kept <:+ pieces.flatten ∧
    s.passed + s.kept.length = pieces.flatten.length := by
  have hk : FramedBy n (LengthReceiver.init st).kept 0 [] := .stop (.inl (by simp [LengthReceiver.init]; omega))
  obtain ⟨_, e⟩ := lengthFeedAll_eq cs n hn0 hn pieces (LengthReceiver.init st) hk (by simpa [LengthReceiver.init] using h)
  obtain ⟨a1, a2, a3⟩ := e s hs
  refine ⟨?_, a1, by simpa [LengthReceiver.init] using a2, by simpa [LengthReceiver.init] using a3⟩
  rw [← C88_pieces cs n st pieces hn0 hn h]
  unfold lengthReceive
  rw [hs]

/-! ### hypotheses met -/

/-- two access unit delimiters with length fields of two bytes, cut within the length fields and the units -/
example : (lengthReceive false 2 .empty [[], [0], [3, 0x46], [], [1, 0x10, 0], [3, 0x46, 1], [0x50]]).toOption.map (fun x => x.1.map fun n => (n.offset, n.length, n.nal_unit_payload.aud.map (·.pic_type))) =
    some [(2, 2, some 0), (7, 2, some 2)] := by decide +kernel

/-- after the first four pieces the first unit has been reported and nothing but the first byte of the second length field is kept -/
example : ((LengthReceiver.init .empty).feedAll false 2 [[], [0], [3, 0x46], [], [1, 0x10, 0]]).toOption.map (fun s => (s.kept, s.passed, s.out.length)) = some ([0], 5, 1) := by
  decide +kernel

end H265
