/-
C62: a NAL unit means the same in every container.  C63: what the option for checksums changes.
-/
import Verif.Props.History

set_option autoImplicit false

namespace H265
open Spec

/-- a result without the places of the NAL units -/
def Spec.placeless (x : List NalUnit × ParserState) : List NalUnit × ParserState := (x.1.map contents, x.2)

theorem placeless_eq {cs : Bool} {l l' : List (Nat × Nat × List UInt8)} (h : l.map (·.2.2) = l'.map (·.2.2)) (st : ParserState) :
    (parseAll cs l st).map placeless = (parseAll cs l' st).map placeless := by
  have he : (l.map fun x => ((0 : Nat), (0 : Nat), x.2.2)) = l'.map fun x => (0, 0, x.2.2) := by
    have := congrArg (List.map fun x : List UInt8 => ((0 : Nat), (0 : Nat), x)) h
    simpa [List.map_map, Function.comp_def] using this
  have h1 := parseAll_contents cs l st
  rw [he, ← parseAll_contents cs l' st] at h1
  exact h1

/-- C62: the same NAL units as a byte stream, with start codes of any length, and with length fields of 1 to 7 bytes: the same results in the same order
(apart from offset and length), the same parser state, or the same undefined behaviour. -/
theorem C62_framing (cs : Bool) (n : Nat) (st : ParserState) (units : List (Bool × List UInt8)) (hn0 : 0 < n) (hn : n ≤ 7)
    (hu : ∀ x ∈ units, NalBytes x.2 ∧ x.2.length < 256 ^ n) (h1 : (annexB units).length < 2 ^ 64) (h2 : (lengthPrefixed n (units.map (·.2))).length < 2 ^ 63) :
    (parseBitstream cs st (annexB units)).map placeless = (parseBitstreamNaluLength cs n st (lengthPrefixed n (units.map (·.2)))).map placeless := by
  rw [C25_annexB cs st units (fun x hx => (hu x hx).1) h1, lengthStream_eq cs n st _ hn0 hn ?_ h2]
  · exact placeless_eq (by rw [nalPlaces_nals, lengthPlaces_nals]) st
  · intro x hx
    obtain ⟨y, hy, rfl⟩ := List.mem_map.1 hx
    exact ⟨(hu y hy).1.nonempty, (hu y hy).2⟩

/-- hypotheses met by the units of the test stream with length fields of 2 bytes, and the results are not trivial -/
example : (∀ x ∈ testUnits, NalBytes x.2 ∧ x.2.length < 256 ^ 2) ∧
    (parseBitstreamNaluLength true 2 .empty (lengthPrefixed 2 (testUnits.map (·.2)))).toOption.map
      (fun x => x.1.map fun n => (n.nal_unit_header.nal_unit_type, n.nal_unit_payload.slice_segment_layer.isSome)) =
      some [(32, false), (33, false), (34, false), (19, true)] := by
  refine ⟨fun x hx => ⟨testUnits_ok x hx, ?_⟩, by decide +kernel⟩
  simp only [testUnits, List.mem_cons, List.not_mem_nil, or_false] at hx
  rcases hx with rfl | rfl | rfl | rfl <;> decide

/-- the NAL units of a configuration box -/
def Spec.boxUnits (box : ConfigurationBox) : List NalUnit := (box.arrays.flatMap (·.units)).filterMap (·.nalUnit)

theorem hvccNals_of_all {cs : Bool} : ∀ {nals : List (List UInt8)} {st st' : ParserState} {ns : List NalUnit},
    parseAll cs (nals.map fun x => (0, 0, x)) st = .ok (ns, st') → ∃ us, HvccNals cs st nals us st' ∧ us.filterMap (·.nalUnit) = ns
  | [], st, st', ns, h => by cases h; exact ⟨[], .nil _, rfl⟩
  | nal :: nals, st, st', ns, h => by
    simp only [List.map_cons, parseAll] at h
    cases hp : parseNalUnit cs st nal with
    | bad k => rw [hp] at h; cases h
    | fail b =>
      rw [hp] at h
      obtain ⟨us, h1, h2⟩ := hvccNals_of_all h
      exact ⟨_, .null hp h1, by simpa using h2⟩
    | ok x b =>
      obtain ⟨n, st1⟩ := x
      rw [hp] at h
      dsimp only at h
      cases hr : parseAll cs (nals.map fun x => (0, 0, x)) st1 with
      | error k => rw [hr] at h; cases h
      | ok y =>
        obtain ⟨ms, st2⟩ := y
        rw [hr] at h
        cases h
        obtain ⟨us, h1, h2⟩ := hvccNals_of_all hr
        obtain ⟨rbsp, _, hparts⟩ := parseNalUnit_ok hp
        refine ⟨_, .ok hp h1, ?_⟩
        have e : ({ n with offset := 0, length := 0 } : NalUnit) = n := contents_place n 0 0 hparts.offset hparts.length
        simp [h2, e]

theorem hvccParsed_of_all {cs : Bool} : ∀ {arrays : List (HvccArrayHead × List (List UInt8))} {st st' : ParserState} {ns : List NalUnit},
    parseAll cs ((arrays.flatMap (·.2)).map fun x => (0, 0, x)) st = .ok (ns, st') →
      ∃ as, HvccParsed cs st arrays as st' ∧ (as.flatMap (·.units)).filterMap (·.nalUnit) = ns
  | [], st, st', ns, h => by cases h; exact ⟨[], .nil _, rfl⟩
  | (hd, nals) :: arrays, st, st', ns, h => by
    rw [List.flatMap_cons, List.map_append, parseAll_append] at h
    cases h1 : parseAll cs (nals.map fun x => (0, 0, x)) st with
    | error k => rw [h1] at h; cases h
    | ok y =>
      obtain ⟨ms, st1⟩ := y
      rw [h1] at h
      simp only [Except.bind] at h
      cases h2 : parseAll cs ((arrays.flatMap (·.2)).map fun x => (0, 0, x)) st1 with
      | error k => rw [h2] at h; cases h
      | ok z =>
        obtain ⟨ks, st2⟩ := z
        rw [h2] at h
        cases h
        obtain ⟨us, h3, h4⟩ := hvccNals_of_all h1
        obtain ⟨as, h5, h6⟩ := hvccParsed_of_all h2
        exact ⟨_, .cons h3 h5, by simp [h4, h6]⟩

/-- C62: the NAL units of a byte stream put into a configuration box (in any division into arrays): if the stream is parsed without undefined behaviour then the
box is parsed, has the same NAL units and leaves the same parser state. -/
theorem C62_configuration_box (cs : Bool) (st : ParserState) (x : Hvcc) (hv : x.Valid) (data : List UInt8) (r : List Bool) (hb : bitsOf data = x.bits ++ r)
    (hlen : data.length < 2 ^ 32) (units : List (Bool × List UInt8)) (hu : units.map (·.2) = x.arrays.flatMap (·.2)) (hn : ∀ x ∈ units, NalBytes x.2)
    (hlen' : (annexB units).length < 2 ^ 64) {ns : List NalUnit} {st' : ParserState} (h : parseBitstream cs st (annexB units) = .ok (ns, st')) :
    ∃ box b, parseConfigurationBoxBytes cs st data = .ok (some box, st') b ∧ box.head = x.head ∧ boxUnits box = ns.map contents := by
  rw [C25_annexB cs st units hn hlen'] at h
  have h1 := parseAll_contents cs (nalPlaces 0 units) st
  rw [h] at h1
  have e : ((nalPlaces 0 units).map fun x => ((0 : Nat), (0 : Nat), x.2.2)) = (x.arrays.flatMap (·.2)).map fun x => (0, 0, x) := by
    rw [← hu, ← nalPlaces_nals 0 units, List.map_map]; rfl
  rw [e] at h1
  obtain ⟨as, h2, h3⟩ := hvccParsed_of_all h1.symm
  obtain ⟨bb', h4, _⟩ := C43_complete (BB.WF.init data) hv (by rw [BB.rem_init]; exact hb) h2
  refine ⟨⟨x.head, as⟩, bb', ?_, rfl, h3⟩
  unfold parseConfigurationBoxBytes Prog.runBytes
  rw [if_pos (by omega), h4]

/-- hypotheses met: the box of the unit test and the stream of its three NAL units (that the box is one of a valid `Hvcc` is C43_sound, as it is parsed) -/
example : (∀ x ∈ [(true, boxVps), (false, boxSps), (true, boxPps)], NalBytes x.2) ∧
    (boxIn testBox).map (fun x => (boxUnits x.1).map fun n => (n.nal_unit_header.nal_unit_type, n.parsed_length)) =
      (parseBitstream false .empty (annexB [(true, boxVps), (false, boxSps), (true, boxPps)])).toOption.map
        (fun x => x.1.map fun n => (n.nal_unit_header.nal_unit_type, n.parsed_length)) ∧ (boxIn testBox).isSome = true := by
  refine ⟨fun x hx => ?_, by decide +kernel, by decide +kernel⟩
  simp only [List.mem_cons, List.not_mem_nil, or_false] at hx
  rcases hx with rfl | rfl | rfl <;> exact nalBytes_of _ (by decide) (by decide) (by decide)

/-- RTP payloads parsed one after the other with one parser state: the results that are not null -/
def Spec.rtpSession : List (List UInt8) → ParserState → Except Bad (List Rtp × ParserState)
  | [], st => .ok ([], st)
  | p :: ps, st =>
    match parseRtp st p with
    | .error k => .error k
    | .ok (r, st1) =>
      match rtpSession ps st1 with
      | .error k => .error k
      | .ok (rs, st2) => .ok (r.toList ++ rs, st2)

/-- a NAL unit with the header and payload of `n`, as a single NAL unit packet -/
def Spec.asSingle (n : NalUnit) : Rtp :=
  { nal_unit_header := n.nal_unit_header, rtp_single := some ⟨n.nal_unit_header, n.nal_unit_payload⟩ }

theorem rtpSession_eq : ∀ (l : List (Nat × Nat × List UInt8)) (st : ParserState),
    (∀ x ∈ l, x.2.2.length < 2 ^ 32 ∧ ∀ h, rawHeader x.2.2 = some h → h.nal_unit_type ≤ 47) →
    rtpSession (l.map (·.2.2)) st = (parseAll false l st).map fun x => (x.1.map asSingle, x.2)
  | [], st, _ => rfl
  | (off, len, nal) :: rest, st, hu => by
    obtain ⟨hl, ht⟩ := hu (off, len, nal) (by simp)
    have ih := fun st => rtpSession_eq rest st (fun x hx => hu x (by simp [hx]))
    have hone : parseRtp st nal = match parseNalUnit false st nal with
        | .ok (n, st') _ => .ok (some { nal_unit_header := n.nal_unit_header, rtp_single := some ⟨n.nal_unit_header, n.nal_unit_payload⟩ }, st')
        | .fail _ => .ok (none, st)
        | .bad k => .error k := by
      match nal, hl, ht with
      | [], _, _ =>
        obtain ⟨b, hb⟩ := (C22_dropped_iff (cs := false) (st := st) (data := []) (unescapeRbsp_eq _)).mpr (by decide)
        rw [C37_short (unescapeRbsp_eq _) (by decide), hb]
      | [x], _, _ =>
        obtain ⟨b, hb⟩ := (C22_dropped_iff (cs := false) (st := st) (data := [x]) (unescapeRbsp_eq _)).mpr (by simp [unesc])
        rw [C37_short (unescapeRbsp_eq _) (by simp [unesc]), hb]
      | b0 :: b1 :: r, hl, ht =>
        obtain ⟨r', hr⟩ := unesc_two b0 b1 r
        exact C37_single (b0 := b0) (b1 := b1) (rest := r') (by rw [unescapeRbsp_eq, hr]) hl (ht _ rfl) st
    simp only [List.map_cons, rtpSession, parseAll, hone]
    cases parseNalUnit false st nal with
    | bad k => rfl
    | fail b =>
      dsimp only
      rw [ih]
      cases parseAll false rest st <;> simp [Except.map]
    | ok x b =>
      obtain ⟨n, st1⟩ := x
      dsimp only
      rw [ih]
      cases parseAll false rest st1 with
      | error k => rfl
      | ok y => simp [Except.map, asSingle]

/-- C62: NAL units of types 0 to 47 sent one by one as RTP payloads give the headers, payloads and parser state (or undefined behaviour) that the byte stream of these
NAL units gives. -/
theorem C62_rtp_single (st : ParserState) (units : List (Bool × List UInt8))
    (hu : ∀ x ∈ units, NalBytes x.2 ∧ x.2.length < 2 ^ 32 ∧ ∀ h, rawHeader x.2 = some h → h.nal_unit_type ≤ 47) (hlen : (annexB units).length < 2 ^ 64) :
    rtpSession (units.map (·.2)) st = (parseBitstream false st (annexB units)).map fun x => (x.1.map asSingle, x.2) := by
  rw [C25_annexB false st units (fun x hx => (hu x hx).1) hlen, ← nalPlaces_nals 0 units]
  refine rtpSession_eq _ st (fun x hx => ?_)
  have : x.2.2 ∈ units.map (·.2) := by rw [← nalPlaces_nals 0 units]; exact List.mem_map_of_mem hx
  obtain ⟨y, hy, he⟩ := List.mem_map.1 this
  rw [← he]
  exact (hu y hy).2

/-- hypotheses met by the units of the test stream: four payloads, four packets, the last with a slice header -/
example : (∀ x ∈ testUnits, NalBytes x.2 ∧ x.2.length < 2 ^ 32 ∧ ∀ h, rawHeader x.2 = some h → h.nal_unit_type ≤ 47) ∧
    (rtpSession (testUnits.map (·.2)) .empty).toOption.map (fun x => x.1.map fun r => (r.nal_unit_header.nal_unit_type,
      r.rtp_single.map fun p => p.nal_unit_payload.slice_segment_layer.isSome)) =
      some [(32, some false), (33, some false), (34, some false), (19, some true)] := by
  refine ⟨fun x hx => ⟨testUnits_ok x hx, ?_⟩, by decide +kernel⟩
  simp only [testUnits, List.mem_cons, List.not_mem_nil, or_false] at hx
  rcases hx with rfl | rfl | rfl | rfl <;> exact ⟨by decide, fun h hh => by cases hh; decide⟩

/-! ### C63: checksums -/

/-- without checksum -/
def Spec.noChecksum (n : NalUnit) : NalUnit := { n with checksum := none }

theorem parseNalUnit_option (st : ParserState) (data : List UInt8) :
    parseNalUnit false st data = match parseNalUnit true st data with
      | .ok (n, st') b => .ok (noChecksum n, st') b
      | .fail b => .fail b
      | .bad k => .bad k := by
  obtain ⟨rbsp, hu, _⟩ := C11_unescape_bounds data
  by_cases hlen : rbsp.length < 2 ^ 32
  · rw [parseNalUnit_eq false st data rbsp hu hlen, parseNalUnit_eq true st data rbsp hu hlen]
    cases (parseNalUnitParts st).run (BB.init rbsp) <;> rfl
  · unfold parseNalUnit parseNalUnitUnescaped
    rw [hu]
    dsimp only
    rw [if_neg (by omega), if_neg (by omega)]

theorem parseAll_option : ∀ (l : List (Nat × Nat × List UInt8)) (st : ParserState),
    parseAll false l st = (parseAll true l st).map fun x => (x.1.map noChecksum, x.2)
  | [], st => rfl
  | (off, len, nal) :: rest, st => by
    simp only [parseAll, parseNalUnit_option st nal]
    cases parseNalUnit true st nal with
    | bad k => rfl
    | fail b => exact parseAll_option rest st
    | ok x b =>
      obtain ⟨n, st1⟩ := x
      dsimp only
      rw [parseAll_option rest st1]
      cases parseAll true rest st1 with
      | error k => rfl
      | ok y => rfl

/-- C63: asking for checksums adds them and changes nothing else: neither the other fields of the result, nor the parser state, nor the outcome. -/
theorem C63_bitstream (st : ParserState) (data : List UInt8) (hlen : data.length < 2 ^ 64) :
    parseBitstream false st data = (parseBitstream true st data).map fun x => (x.1.map noChecksum, x.2) := by
  rw [parseBitstream_eq false st data hlen, parseBitstream_eq true st data hlen, parseAll_option]

/-- not trivial: the test stream has four checksums with the option, and none without -/
example : (parseBitstream true .empty testStream).toOption.map (fun x => x.1.map (·.checksum.isSome)) = some [true, true, true, true] ∧
    (parseBitstream false .empty testStream).toOption.map (fun x => x.1.map (·.checksum.isSome)) = some [false, false, false, false] := by decide +kernel

/-- C63 for one NAL unit -/
theorem C63_nal_unit (st : ParserState) (data : List UInt8) :
    parseNalUnit false st data = match parseNalUnit true st data with
      | .ok (n, st') b => .ok ({ n with checksum := none }, st') b
      | .fail b => .fail b
      | .bad k => .bad k := parseNalUnit_option st data

/-- C63 for streams with length fields -/
theorem C63_length_stream (n : Nat) (st : ParserState) (data : List UInt8) (hn : n ≤ 7) (hlen : data.length < 2 ^ 63) :
    parseBitstreamNaluLength false n st data = (parseBitstreamNaluLength true n st data).map fun x => (x.1.map noChecksum, x.2) := by
  by_cases h0 : n = 0
  · subst h0
    by_cases hd : data = []
    · subst hd; rfl
    · rw [C15_no_length false st data hd (by omega), C15_no_length true st data hd (by omega), parseAll_option]
  · obtain ⟨l, hf, h1⟩ := C15_length_framing false n st data (by omega) hn hlen
    obtain ⟨l', hf', h2⟩ := C15_length_framing true n st data (by omega) hn hlen
    obtain rfl := FramedBy.unique hf hf'
    rw [h1, h2, parseAll_option]

end H265
