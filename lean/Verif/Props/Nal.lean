/- C21, C22, C25, C44: NAL units and Annex B bitstreams. -/
import Verif.Props.State

namespace H265
open Spec

/-! ### one NAL unit -/

/-- what `ParseNalUnit` does, in terms of the unescaped bytes -/
theorem parseNalUnit_eq (cs : Bool) (st : ParserState) (data rbsp : List UInt8) (hu : unescapeRbsp data = .ok rbsp) (hlen : rbsp.length < 2 ^ 32) :
    parseNalUnit cs st data =
      match (parseNalUnitParts st).run (BB.init rbsp) with
      | .ok (h, p, st') b' => .ok ({ parsed_length := getCurrentOffset b', checksum := if cs then some (beBytes 4 (checksum32 rbsp)) else none,
                                     nal_unit_header := h, nal_unit_payload := p }, st') b'
      | .fail b' => .fail b'
      | .bad k => .bad k := by
  unfold parseNalUnit parseNalUnitUnescaped
  rw [hu]
  simp only
  rw [if_pos (by omega)]
  unfold parseNalUnitBB
  have hc : (BB.init rbsp).checksumIf cs = .ok (if cs then some (beBytes 4 (checksum32 rbsp)) else none) (BB.init rbsp) := by
    unfold BB.checksumIf
    cases cs with
    | false => rfl
    | true =>
      rw [if_pos rfl, C16_checksum (BB.WF.init rbsp) rfl hlen]
      rfl
  rw [hc]
  dsimp only
  cases (parseNalUnitParts st).run (BB.init rbsp) <;> rfl

theorem parts_ok {st st' : ParserState} {bb bb' : BB} {h : NalUnitHeader} {p : NalUnitPayload}
    (hr : (parseNalUnitParts st).run bb = .ok (h, p, st') bb') :
    ∃ b1, parseNalUnitHeader.run bb = .ok h b1 ∧ (parseNalUnitPayload h.nal_unit_type st).run b1 = .ok (p, st') bb' := by
  unfold parseNalUnitParts at hr
  rw [Prog.run_seq] at hr
  cases h1 : parseNalUnitHeader.run bb with
  | fail b => rw [h1] at hr; cases hr
  | bad k => rw [h1] at hr; cases hr
  | ok x b1 =>
    rw [h1] at hr
    simp only [Res.andThen] at hr
    rw [Prog.run_seq] at hr
    cases h2 : (parseNalUnitPayload x.nal_unit_type st).run b1 with
    | fail b => rw [h2] at hr; cases hr
    | bad k => rw [h2] at hr; cases hr
    | ok y b2 => rw [h2] at hr; cases hr; exact ⟨b1, rfl, h2⟩

theorem unesc_le {data rbsp : List UInt8} (h : unescapeRbsp data = .ok rbsp) : rbsp.length ≤ data.length := by
  obtain ⟨out, h1, _, h2, _⟩ := C11_unescape_bounds data
  rw [h] at h1; cases h1; exact h2

/-- The parts of a parsed NAL unit: header and payload come from the unescaped bytes in sequence, and the parsed length and the checksum are those of the
unescaped bytes. -/
structure NalParts (cs : Bool) (st : ParserState) (rbsp : List UInt8) (n : NalUnit) (st' : ParserState) : Prop where
  parts : ∃ b1 b2, parseNalUnitHeader.run (BB.init rbsp) = .ok n.nal_unit_header b1 ∧
    (parseNalUnitPayload n.nal_unit_header.nal_unit_type st).run b1 = .ok (n.nal_unit_payload, st') b2 ∧
    n.parsed_length = (8 * rbsp.length - b2.rem.length + 7) / 8
  checksum : n.checksum = if cs then some (beBytes 4 (checksum32 rbsp)) else none
  offset : n.offset = 0
  length : n.length = 0

theorem currentOffset_eq {bb : BB} (h : bb.WF) : getCurrentOffset bb = (8 * bb.bytes.length - bb.rem.length + 7) / 8 := by
  have h1 := BB.remaining_eq h
  obtain ⟨h4, h2, h3⟩ := h
  unfold BB.remaining at h1
  unfold getCurrentOffset
  split <;> omega

theorem parseNalUnit_ok {cs : Bool} {st st' : ParserState} {data : List UInt8} {n : NalUnit} {b : BB}
    (h : parseNalUnit cs st data = .ok (n, st') b) :
    ∃ rbsp, unescapeRbsp data = .ok rbsp ∧ NalParts cs st rbsp n st' := by
  obtain ⟨rbsp, hu, _⟩ := C11_unescape_bounds data
  by_cases hlen : rbsp.length < 2 ^ 32
  · refine ⟨rbsp, hu, ?_⟩
    rw [parseNalUnit_eq cs st data rbsp hu hlen] at h
    revert h
    cases hr : (parseNalUnitParts st).run (BB.init rbsp) with
    | fail b => intro h; cases h
    | bad k => intro h; cases h
    | ok x b2 =>
      obtain ⟨hd, p, s2⟩ := x
      intro h
      simp only [Res.ok.injEq, Prod.mk.injEq] at h
      obtain ⟨⟨rfl, rfl⟩, rfl⟩ := h
      obtain ⟨b1, h1, h2⟩ := parts_ok hr
      obtain ⟨w1, e1⟩ := run_ok_wf (BB.WF.init rbsp) h1
      obtain ⟨w2, e2⟩ := run_ok_wf w1 h2
      refine ⟨⟨b1, b2, h1, h2, ?_⟩, rfl, rfl, rfl⟩
      simp only
      rw [currentOffset_eq w2, e2, e1]; rfl
  · exfalso
    unfold parseNalUnit parseNalUnitUnescaped at h
    rw [hu] at h
    simp only at h
    rw [if_neg (by omega)] at h
    cases h

/-- one NAL unit is one step of the parser state -/
theorem parseNalUnit_steps {cs : Bool} {st st' : ParserState} {data : List UInt8} {n : NalUnit} {b : BB}
    (h : parseNalUnit cs st data = .ok (n, st') b) : Steps st [n.nal_unit_payload] st' := by
  obtain ⟨rbsp, _, hp⟩ := parseNalUnit_ok h
  obtain ⟨b1, b2, h1, h2, _⟩ := hp.parts
  exact .cons (run_ok_wf (BB.WF.init rbsp) h1).1 h2 (.nil _)

theorem nal_unit_safe_for {A : Bad → Prop} {cs : Bool} {st : ParserState} {data : List UInt8} {k : Bad} (hs : UsableFor A st) (hlen : data.length < 2 ^ 32)
    (h : parseNalUnit cs st data = .bad k) : A k := by
  obtain ⟨rbsp, hu, _, hle, _⟩ := C11_unescape_bounds data
  rw [parseNalUnit_eq cs st data rbsp hu (by omega)] at h
  revert h
  cases hr : (parseNalUnitParts st).run (BB.init rbsp) with
  | fail b => intro h; cases h
  | ok x b2 => intro h; cases h
  | bad k' =>
    intro h
    cases h
    unfold parseNalUnitParts at hr
    rw [Prog.run_seq] at hr
    cases h1 : parseNalUnitHeader.run (BB.init rbsp) with
    | fail b => rw [h1] at hr; cases hr
    | bad k2 => exact absurd h1 (C19_header_inverts.safe _ _ (BB.WF.init _))
    | ok x b1 =>
      rw [h1] at hr
      simp only [Res.andThen] at hr
      rw [Prog.run_seq] at hr
      cases h2 : (parseNalUnitPayload x.nal_unit_type st).run b1 with
      | fail b => rw [h2] at hr; cases hr
      | ok y b2 => rw [h2] at hr; cases hr
      | bad k2 => rw [h2] at hr; cases hr; exact payload_safe_for hs (run_ok_wf (BB.WF.init _) h1).1 h2

/-- C44: parsing any NAL unit of less than 4 GiB, after any history, does nothing undefined except possibly a signed 32-bit overflow. -/
theorem C44_nal_unit_safe {cs : Bool} {st : ParserState} {data : List UInt8} {k : Bad} (hs : Reach st) (hlen : data.length < 2 ^ 32)
    (h : parseNalUnit cs st data = .bad k) : k = .signedOverflow :=
  nal_unit_safe_for (A := fun k => k = .signedOverflow) hs.usable hlen h

/-- C22: a NAL unit is dropped (null) exactly when fewer than two bytes are left after removing the emulation prevention bytes. -/
theorem C22_dropped_iff {cs : Bool} {st : ParserState} {data rbsp : List UInt8} (hu : unescapeRbsp data = .ok rbsp) :
    (∃ b, parseNalUnit cs st data = .fail b) ↔ rbsp.length < 2 := by
  have hwf := BB.WF.init rbsp
  have htot := C19_header_total hwf
  have hrem : (BB.init rbsp).remaining = 8 * rbsp.length := by simp [BB.remaining, BB.init]; omega
  rw [hrem] at htot
  constructor
  · rintro ⟨b, h⟩
    have hlen : rbsp.length < 2 ^ 32 := by
      apply Classical.byContradiction
      intro hn
      unfold parseNalUnit parseNalUnitUnescaped at h
      rw [hu] at h
      simp only at h
      rw [if_neg (by omega)] at h
      cases h
    rw [parseNalUnit_eq cs st data rbsp hu hlen] at h
    revert h
    cases hr : (parseNalUnitParts st).run (BB.init rbsp) with
    | bad k => intro h; cases h
    | ok x b2 => intro h; cases h
    | fail b2 =>
      intro _
      unfold parseNalUnitParts at hr
      rw [Prog.run_seq] at hr
      apply Classical.byContradiction
      intro hn
      obtain ⟨x, b1, h1, _⟩ := htot.mpr (by omega)
      rw [h1] at hr
      simp only [Res.andThen] at hr
      rw [Prog.run_seq] at hr
      cases h2 : (parseNalUnitPayload x.nal_unit_type st).run b1 with
      | fail b => exact payload_not_fail h2
      | ok y b2 => rw [h2] at hr; cases hr
      | bad k2 => rw [h2] at hr; cases hr
  · intro h2
    rw [parseNalUnit_eq cs st data rbsp hu (by omega)]
    unfold parseNalUnitParts
    rw [Prog.run_seq]
    cases h1 : parseNalUnitHeader.run (BB.init rbsp) with
    | fail b => exact ⟨b, rfl⟩
    | bad k2 => exact absurd h1 (C19_header_inverts.safe _ _ hwf)
    | ok x b1 =>
      exfalso
      obtain ⟨_, w1, e1, h4⟩ := C19_header_inverts.sound _ _ _ hwf h1
      have := congrArg List.length h4
      rw [BB.rem_init] at this
      simp [Spec.nalUnitHeader, Spec.seq] at this
      omega

/-! ### several NAL units -/

/-- The NAL units with these bytes parsed one after the other with one parser state; each is recorded with the offset and length given, and one that cannot be
parsed is left out. -/
def parseAll (cs : Bool) : List (Nat × Nat × List UInt8) → ParserState → Except Bad (List NalUnit × ParserState)
  | [], st => .ok ([], st)
  | (off, len, nal) :: rest, st =>
    match parseNalUnit cs st nal with
    | .bad k => .error k
    | .fail _ => parseAll cs rest st
    | .ok (n, st1) _ =>
      match parseAll cs rest st1 with
      | .error k => .error k
      | .ok (ns, st2) => .ok ({ n with offset := off, length := len } :: ns, st2)

theorem parseAll_append (cs : Bool) : ∀ (l m : List (Nat × Nat × List UInt8)) (st : ParserState),
    parseAll cs (l ++ m) st = (parseAll cs l st).bind fun x => (parseAll cs m x.2).bind fun y => .ok (x.1 ++ y.1, y.2)
  | [], m, st => by
    simp only [List.nil_append, parseAll, Except.bind]
    cases parseAll cs m st <;> rfl
  | (off, len, nal) :: rest, m, st => by
    simp only [List.cons_append, parseAll]
    cases parseNalUnit cs st nal with
    | bad k => rfl
    | fail b => exact parseAll_append cs rest m st
    | ok x b =>
      obtain ⟨n, st1⟩ := x
      simp only
      rw [parseAll_append cs rest m st1]
      cases parseAll cs rest st1 with
      | error k => rfl
      | ok y =>
        simp only [Except.bind]
        cases parseAll cs m y.2 <;> rfl

theorem parseAll_shift (cs : Bool) (k : Nat) : ∀ (l : List (Nat × Nat × List UInt8)) (st : ParserState),
    parseAll cs (l.map fun x => (k + x.1, x.2)) st =
      (parseAll cs l st).bind fun x => .ok (x.1.map (fun n => { n with offset := k + n.offset }), x.2)
  | [], st => rfl
  | (off, len, nal) :: rest, st => by
    simp only [List.map_cons, parseAll]
    cases parseNalUnit cs st nal with
    | bad k => rfl
    | fail b => exact parseAll_shift cs k rest st
    | ok x b =>
      obtain ⟨n, st1⟩ := x
      simp only
      rw [parseAll_shift cs k rest st1]
      cases parseAll cs rest st1 <;> rfl

theorem parseAll_steps {cs : Bool} : ∀ {l : List (Nat × Nat × List UInt8)} {st st' : ParserState} {ns : List NalUnit},
    parseAll cs l st = .ok (ns, st') → Steps st (ns.map (·.nal_unit_payload)) st'
  | [], st, st', ns, h => by cases h; exact .nil _
  | (off, len, nal) :: rest, st, st', ns, h => by
    simp only [parseAll] at h
    cases hp : parseNalUnit cs st nal with
    | bad k => rw [hp] at h; cases h
    | fail b => rw [hp] at h; exact parseAll_steps h
    | ok x b =>
      obtain ⟨n, st1⟩ := x
      rw [hp] at h
      simp only at h
      cases hr : parseAll cs rest st1 with
      | error k => rw [hr] at h; cases h
      | ok y =>
        rw [hr] at h
        cases h
        exact (parseNalUnit_steps hp).append (parseAll_steps hr)

theorem parseAll_safe_for {A : Bad → Prop} {cs : Bool} {k : Bad} : ∀ {l : List (Nat × Nat × List UInt8)} {st : ParserState},
    UsableFor A st → (∀ x ∈ l, x.2.2.length < 2 ^ 32) → parseAll cs l st = .error k → A k
  | [], st, _, _, h => by cases h
  | (off, len, nal) :: rest, st, hs, hl, h => by
    simp only [parseAll] at h
    cases hp : parseNalUnit cs st nal with
    | bad k' => rw [hp] at h; cases h; exact nal_unit_safe_for hs (hl (off, len, nal) (by simp)) hp
    | fail b => rw [hp] at h; exact parseAll_safe_for hs (fun x hx => hl x (by simp [hx])) h
    | ok x b =>
      obtain ⟨n, st1⟩ := x
      rw [hp] at h
      simp only at h
      cases hr : parseAll cs rest st1 with
      | error k' =>
        rw [hr] at h; cases h
        exact parseAll_safe_for (hs.step (parseNalUnit_steps hp)) (fun x hx => hl x (by simp [hx])) hr
      | ok y => rw [hr] at h; cases h

/-- an empty NAL unit is left out -/
theorem parseNalUnit_nil (cs : Bool) (st : ParserState) : ∃ b, parseNalUnit cs st [] = .fail b :=
  (C22_dropped_iff (data := []) (rbsp := []) rfl).mpr (by decide)

theorem parseAll_nil (cs : Bool) (off len : Nat) (rest : List (Nat × Nat × List UInt8)) (st : ParserState) :
    parseAll cs ((off, len, []) :: rest) st = parseAll cs rest st := by
  obtain ⟨b, h⟩ := parseNalUnit_nil cs st
  simp only [parseAll, h]

/-! ### Annex B -/

/-- offset, length and bytes of an index entry -/
def spanOf (data : List UInt8) (e : NaluIndex) : Nat × Nat × List UInt8 :=
  (e.payloadStartOffset, e.payloadSize, (data.drop e.payloadStartOffset).take e.payloadSize)

theorem parseUnits_eq (cs : Bool) (data : List UInt8) : ∀ (es : List NaluIndex) (st : ParserState),
    (∀ e ∈ es, e.payloadStartOffset + e.payloadSize ≤ data.length) → parseUnits cs data es st = parseAll cs (es.map (spanOf data)) st
  | [], st, _ => rfl
  | e :: es, st, h => by
    have ih := fun st => parseUnits_eq cs data es st (fun x hx => h x (by simp [hx]))
    simp only [parseUnits, parseUnitAt, sliceOf, if_pos (h e (by simp)), List.map_cons, parseAll, spanOf]
    cases parseNalUnit cs st ((data.drop e.payloadStartOffset).take e.payloadSize) with
    | bad k => rfl
    | fail b =>
      simp only
      rw [ih st]
      cases parseAll cs (es.map (spanOf data)) st <;> rfl
    | ok x b =>
      obtain ⟨n, st1⟩ := x
      simp only
      rw [ih st1]
      cases hx : parseAll cs (es.map (spanOf data)) st1 <;> simp only [] <;> (first | rfl | skip)

theorem entries_inside {data : List UInt8} (hlen : data.length < 2 ^ 64) :
    ∀ e ∈ entries data data.length (starts data), e.payloadStartOffset + e.payloadSize ≤ data.length := by
  intro e he
  obtain ⟨l, h1, h2⟩ := C12_find_sound data hlen
  rw [findNaluIndices_eq data hlen] at h1
  cases h1
  obtain ⟨j, hj⟩ := List.getElem?_of_mem he
  exact (h2 j e hj).2.2.2.1

theorem parseBitstream_eq (cs : Bool) (st : ParserState) (data : List UInt8) (hlen : data.length < 2 ^ 64) :
    parseBitstream cs st data = parseAll cs ((entries data data.length (starts data)).map (spanOf data)) st := by
  unfold parseBitstream
  rw [findNaluIndices_eq data hlen]
  exact parseUnits_eq cs data _ st (entries_inside hlen)

/-- C25: parsing a bitstream is parsing, in order and with one parser state, the NAL units found by `FindNaluIndices`, each recorded with its offset and
length in the stream. -/
theorem C25_sequential (cs : Bool) (st : ParserState) (data : List UInt8) (hlen : data.length < 2 ^ 64) :
    ∃ l, findNaluIndices data = .ok l ∧ (∀ e ∈ l, e.payloadStartOffset + e.payloadSize ≤ data.length) ∧
      parseBitstream cs st data = parseAll cs (l.map fun e => (e.payloadStartOffset, e.payloadSize, (data.drop e.payloadStartOffset).take e.payloadSize)) st :=
  ⟨_, findNaluIndices_eq data hlen, entries_inside hlen, parseBitstream_eq cs st data hlen⟩

/-- Offset, length and bytes of each NAL unit of a byte stream that begins at offset `off`. -/
def nalPlaces : Nat → List (Bool × List UInt8) → List (Nat × Nat × List UInt8)
  | _, [] => []
  | off, (long, nal) :: us =>
    let start := off + (if long then 4 else 3)
    (start, nal.length, nal) :: nalPlaces (start + nal.length) us

theorem nalSpans_places (units : List (Bool × List UInt8)) (pre : List UInt8) :
    (nalSpans pre.length units).map (spanOf (pre ++ annexB units)) = nalPlaces pre.length units := by
  induction units generalizing pre with
  | nil => rfl
  | cons x units ih =>
    obtain ⟨long, n⟩ := x
    have hs := nalSpans_slices ((long, n) :: units) pre
    have hb : annexB ((long, n) :: units) = annexBUnit long n ++ annexB units := rfl
    have := ih (pre ++ annexBUnit long n)
    rw [List.length_append, List.append_assoc, ← hb] at this
    rw [nalSpans, List.map_cons, List.map_cons] at hs
    rw [nalSpans, List.map_cons, this, nalPlaces]
    have hl : (annexBUnit long n).length = (if long then 4 else 3) + n.length := by unfold annexBUnit; cases long <;> simp <;> omega
    have h1 := (List.cons.inj hs).1
    simp only at h1
    congr 1
    · unfold spanOf; simp only; rw [h1]
    · rw [hl]; congr 1; omega

/-- C25: parsing an Annex B byte stream is parsing the NAL units it was made of, in order, each recorded with its place in the stream. -/
theorem C25_annexB (cs : Bool) (st : ParserState) (units : List (Bool × List UInt8)) (hu : ∀ x ∈ units, NalBytes x.2)
    (hlen : (annexB units).length < 2 ^ 64) : parseBitstream cs st (annexB units) = parseAll cs (nalPlaces 0 units) st := by
  rw [parseBitstream_eq cs st _ hlen, starts_eq_startsAt]
  have h1 := entries_annexB [] units hu (by simp)
  have h2 := nalSpans_places units []
  simp only [List.nil_append, List.length_nil] at h1 h2
  rw [h1, h2]

/-! ### cutting a stream -/

theorem entries_append (data : List UInt8) (e : Nat) (q : Nat) (r : List Nat) : ∀ l : List Nat,
    entries data e (l ++ q :: r) = entries data (startCodeBegin data q) l ++ entries data e (q :: r)
  | [] => rfl
  | [p] => rfl
  | p :: p' :: l => by
    have := entries_append data e q r (p' :: l)
    simp only [List.cons_append, entries] at this ⊢
    rw [this]

/-- The index entries and bytes of `a` do not change when `b` follows. -/
theorem entries_left (a b : List UInt8) (e : Nat) (he : e ≤ a.length) : ∀ l : List Nat, (∀ p ∈ l, p + 3 ≤ a.length) →
    (entries (a ++ b) e l).map (spanOf (a ++ b)) = (entries a e l).map (spanOf a)
  | [], _ => rfl
  | [p], h => by
    have hp := h p (by simp)
    have hb : startCodeBegin (a ++ b) p = startCodeBegin a p := by
      unfold startCodeBegin; rw [List.getElem?_append_left (by omega)]
    simp only [entries, List.map_cons, List.map_nil, spanOf, hb]
    congr 3
    rw [List.drop_append_of_le_length hp, List.take_append_of_le_length (by simp; omega)]
  | p :: q :: r, h => by
    have hp := h p (by simp)
    have hq := h q (by simp)
    have hb : ∀ p, p + 3 ≤ a.length → startCodeBegin (a ++ b) p = startCodeBegin a p := by
      intro p hp
      unfold startCodeBegin; rw [List.getElem?_append_left (by omega)]
    have := startCodeBegin_le a q
    simp only [entries, List.map_cons]
    rw [entries_left a b e he (q :: r) (fun x hx => h x (by simp [hx])), hb p hp, hb q hq]
    congr 1
    simp only [spanOf]
    congr 2
    rw [List.drop_append_of_le_length hp, List.take_append_of_le_length (by simp; omega)]

/-- The index entries of `b` behind `a`. -/
theorem entries_right (a b : List UInt8) (e : Nat) : ∀ l : List Nat,
    (∀ p ∈ l, startCodeBegin (a ++ b) (a.length + p) = a.length + startCodeBegin b p) →
    (entries (a ++ b) (a.length + e) (l.map (a.length + ·))).map (spanOf (a ++ b)) =
      ((entries b e l).map (spanOf b)).map fun x => (a.length + x.1, x.2)
  | [], _ => rfl
  | [p], h => by
    simp only [List.map_cons, List.map_nil, entries, spanOf, h p (by simp)]
    rw [show a.length + e - (a.length + p + 3) = e - (p + 3) by omega, List.drop_append]
    simp [List.drop_of_length_le, show a.length + p + 3 - a.length = p + 3 by omega, Nat.add_assoc]
  | p :: q :: r, h => by
    have ih := entries_right a b e (q :: r) (fun x hx => h x (by simp [hx]))
    simp only [List.map_cons, entries] at ih ⊢
    rw [ih]
    congr 1
    simp only [spanOf, h p (by simp), h q (by simp)]
    rw [show a.length + startCodeBegin b q - (a.length + p + 3) = startCodeBegin b q - (p + 3) by omega, List.drop_append]
    simp [List.drop_of_length_le, show a.length + p + 3 - a.length = p + 3 by omega, Nat.add_assoc]

/-- `b` begins with a start code (of three or four bytes) that is followed by a byte. -/
def BeginsUnit (b : List UInt8) : Prop := ∃ p, startCodeAt b p ∧ startCodeBegin b p = 0

theorem BeginsUnit.bytes {b : List UInt8} (h : BeginsUnit b) : b[0]? = some 0 ∧ b[1]? = some 0 ∧ 3 < b.length ∧
    ((b[2]? = some 1 ∧ startCodeAt b 0) ∨ (b[2]? = some 0 ∧ startCodeAt b 1)) := by
  obtain ⟨p, hp, hb⟩ := h
  have hp' := hp
  obtain ⟨h0, h1, h2, h3⟩ := hp'
  unfold startCodeBegin at hb
  split at hb
  · rename_i hc
    have : p = 1 := by omega
    subst this
    exact ⟨hc.2, h0, by omega, Or.inr ⟨h1, hp⟩⟩
  · subst hb; exact ⟨h0, h1, by omega, Or.inl ⟨h2, hp⟩⟩

/-- whether a final start code of `a` would be completed by what follows -/
def openEnd (a : List UInt8) : List Nat := if [0, 0, 1] <:+ a then [a.length - 3] else []

theorem suffix001 (a : List UInt8) : [0, 0, 1] <:+ a ↔ 3 ≤ a.length ∧ a[a.length - 3]? = some 0 ∧ a[a.length - 2]? = some 0 ∧ a[a.length - 1]? = some 1 := by
  constructor
  · rintro ⟨t, rfl⟩
    simp
  · rintro ⟨h, h0, h1, h2⟩
    refine ⟨a.take (a.length - 3), ?_⟩
    have hd : ∀ i (v : UInt8), a[i]? = some v → a.drop i = v :: a.drop (i + 1) := by
      intro i v hv
      rw [List.getElem?_eq_some_iff] at hv
      obtain ⟨hi, rfl⟩ := hv
      exact (List.getElem_cons_drop (h := hi)).symm
    have e : a.drop (a.length - 3) = [0, 0, 1] := by
      rw [hd _ _ h0, show a.length - 3 + 1 = a.length - 2 by omega, hd _ _ h1, show a.length - 2 + 1 = a.length - 1 by omega, hd _ _ h2,
        List.drop_of_length_le (by omega)]
    have := List.take_append_drop (a.length - 3) a
    rw [e] at this
    exact this

theorem starts_append (a b : List UInt8) (hb : BeginsUnit b) :
    starts (a ++ b) = starts a ++ openEnd a ++ (starts b).map (a.length + ·) := by
  obtain ⟨g0, g1, g3, _⟩ := hb.bytes
  have hgt : ∀ i, (a ++ b)[a.length + i]? = b[i]? := by
    intro i; rw [List.getElem?_append_right (by omega), Nat.add_sub_cancel_left]
  unfold starts startsBelow
  rw [List.length_append, List.range_add, List.filter_append]
  congr 1
  · -- positions in `a`
    have hsplit : ∀ k, k ≤ a.length - 3 → (List.range k).filter (fun p => startCodeAt (a ++ b) p) = (List.range k).filter (fun p => startCodeAt a p) := by
      intro k hk
      apply List.filter_congr
      intro p hp
      rw [List.mem_range] at hp
      refine decide_eq_decide.mpr ?_
      unfold startCodeAt
      rw [List.getElem?_append_left (by omega), List.getElem?_append_left (by omega), List.getElem?_append_left (by omega)]
      simp only [List.length_append]
      exact ⟨fun ⟨x, y, z, _⟩ => ⟨x, y, z, by omega⟩, fun ⟨x, y, z, _⟩ => ⟨x, y, z, by omega⟩⟩
    have hno : ∀ p, p < a.length → a.length < p + 3 → ¬ startCodeAt (a ++ b) p := by
      rintro p h1 h2 ⟨_, _, h4, _⟩
      have : p + 2 = a.length + 0 ∨ p + 2 = a.length + 1 := by omega
      rcases this with h | h <;> rw [h, hgt] at h4 <;> simp_all
    have hA := startsBelow_end (data := a) (k := a.length) (by omega)
    unfold startsBelow at hA
    rw [hA]
    by_cases h3 : 3 ≤ a.length
    · have hr : a.length = a.length - 3 + 1 + 2 := by omega
      have hB := startsBelow_skip (data := a ++ b) (i := a.length - 3 + 1) (k := 2) (fun p h1 h2 => hno p (by omega) (by omega))
      rw [← hr, startsBelow_succ] at hB
      unfold startsBelow at hB
      rw [hB, hsplit _ (Nat.le_refl _)]
      congr 1
      unfold openEnd
      have : startCodeAt (a ++ b) (a.length - 3) ↔ [0, 0, 1] <:+ a := by
        rw [suffix001]
        unfold startCodeAt
        rw [List.getElem?_append_left (by omega), List.getElem?_append_left (by omega), List.getElem?_append_left (by omega),
          show a.length - 3 + 1 = a.length - 2 by omega, show a.length - 3 + 2 = a.length - 1 by omega]
        simp only [List.length_append]
        exact ⟨fun ⟨x, y, z, _⟩ => ⟨h3, x, y, z⟩, fun ⟨_, x, y, z⟩ => ⟨x, y, z, by omega⟩⟩
      by_cases hs : [0, 0, 1] <:+ a
      · rw [if_pos hs, if_pos (this.mpr hs)]
      · rw [if_neg hs, if_neg (fun h => hs (this.mp h))]
    · have ho : openEnd a = [] := by
        unfold openEnd; rw [if_neg]; intro hs; exact h3 ((suffix001 a).mp hs).1
      rw [ho, List.append_nil, show a.length - 3 = 0 by omega]
      simp only [List.range_zero, List.filter_nil]
      rw [List.filter_eq_nil_iff]
      intro p hp
      rw [List.mem_range] at hp
      simpa using hno p hp (by omega)
  · rw [List.filter_map]
    congr 1
    apply List.filter_congr
    intro p _
    simp only [Function.comp]
    refine decide_eq_decide.mpr ?_
    unfold startCodeAt
    rw [Nat.add_assoc, Nat.add_assoc, hgt, hgt, hgt]
    simp only [List.length_append]
    exact ⟨fun ⟨x, y, z, _⟩ => ⟨x, y, z, by omega⟩, fun ⟨x, y, z, _⟩ => ⟨x, y, z, by omega⟩⟩

/-- C25: a stream may be cut in front of any start code and the two parts parsed one after the other with the same parser state: `a ++ b` gives the NAL units of `a`
followed by those of `b` (whose offsets count from the beginning of `a`), and the same final state.  The byte before the start code is not a zero byte, unless the
start code is a four-byte one, and `a` does not end in a start code of its own. -/
theorem C25_cut (cs : Bool) (st : ParserState) (a b : List UInt8) (hb : BeginsUnit b) (ha : a.getLast? ≠ some 0 ∨ b[2]? = some 0)
    (ho : ¬ [0, 0, 1] <:+ a) (hlen : (a ++ b).length < 2 ^ 64) :
    parseBitstream cs st (a ++ b) =
      (parseBitstream cs st a).bind fun x => (parseBitstream cs x.2 b).bind fun y =>
        .ok (x.1 ++ y.1.map (fun n => { n with offset := a.length + n.offset }), y.2) := by
  rw [List.length_append] at hlen
  rw [parseBitstream_eq cs st _ (by rw [List.length_append]; omega), parseBitstream_eq cs st a (by omega), starts_append a b hb]
  obtain ⟨g0, g1, g3, g2⟩ := hb.bytes
  have hgt : ∀ i, (a ++ b)[a.length + i]? = b[i]? := by
    intro i; rw [List.getElem?_append_right (by omega), Nat.add_sub_cancel_left]
  -- start codes of b begin where they begin in b
  have hbeg : ∀ p, startCodeAt b p → startCodeBegin (a ++ b) (a.length + p) = a.length + startCodeBegin b p := by
    intro p hp
    unfold startCodeBegin
    cases p with
    | zero =>
      have h21 : b[2]? = some 1 := hp.2.2.1
      have ha' : a.getLast? ≠ some 0 := by
        rcases ha with h | h
        · exact h
        · rw [h21] at h; cases h
      rw [if_neg, if_neg (by omega)]
      rintro ⟨h1, h2⟩
      rw [Nat.add_zero] at h1 h2
      rw [List.getElem?_append_left (by omega)] at h2
      exact ha' (by rw [List.getLast?_eq_getElem?]; exact h2)
    | succ p =>
      rw [show a.length + (p + 1) - 1 = a.length + p by omega, hgt, show p + 1 - 1 = p by omega]
      by_cases hz : b[p]? = some 0
      · rw [if_pos ⟨by omega, hz⟩, if_pos ⟨by omega, hz⟩]
      · rw [if_neg (fun h => hz h.2), if_neg (fun h => hz h.2)]
  -- the first start code of b
  obtain ⟨q, r, hq, hqb⟩ : ∃ q r, starts b = q :: r ∧ startCodeBegin b q = 0 := by
    have hmem : ∀ p ∈ starts b, startCodeAt b p := fun p hp => (mem_startsBelow.mp hp).2
    have hsorted := starts_sorted b b.length
    change (starts b).Pairwise (· < ·) at hsorted
    obtain ⟨p0, hp0, hpb⟩ := hb
    have hp0m : p0 ∈ starts b := mem_startsBelow.mpr ⟨by have := hp0.2.2.2; omega, hp0⟩
    cases hs : starts b with
    | nil => rw [hs] at hp0m; cases hp0m
    | cons q r =>
      refine ⟨q, r, rfl, ?_⟩
      rw [hs] at hp0m hsorted hmem
      rcases List.mem_cons.mp hp0m with h | h
      · rw [← h]; exact hpb
      · have hlt := (List.pairwise_cons.mp hsorted).1 p0 h
        have := startCode_apart (hmem q (by simp)) hp0 hlt
        unfold startCodeBegin at hpb
        split at hpb <;> omega
  have hR := entries_right a b b.length (starts b) (fun p hp => hbeg p (mem_startsBelow.mp hp).2)
  rw [hq, List.map_cons, entries_append, ← List.map_cons (f := (a.length + ·)), ← hq, List.length_append, List.map_append, hR,
    hbeg q (by have : q ∈ starts b := by rw [hq]; simp
               exact (mem_startsBelow.mp this).2), hqb, Nat.add_zero]
  rw [entries_left a b a.length (Nat.le_refl _) _ (by
    intro p hp
    rw [List.mem_append] at hp
    rcases hp with hp | hp
    · have := (mem_startsBelow.mp hp).2.2.2.2; omega
    · unfold openEnd at hp
      split at hp
      · rename_i h; have := ((suffix001 a).mp h).1
        simp only [List.mem_singleton] at hp; omega
      · cases hp)]
  rw [show openEnd a = [] by unfold openEnd; rw [if_neg ho], List.append_nil, parseAll_append]
  congr 1
  funext x
  rw [parseAll_shift, parseBitstream_eq cs x.2 b (by omega)]
  cases parseAll cs ((entries b b.length (starts b)).map (spanOf b)) x.2 <;> rfl

end H265
