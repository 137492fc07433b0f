/- C15, C21, C22, C25, C44 at the level of whole bitstreams. -/
import Verif.Props.Nal

namespace H265
open Spec

/-! ### histories -/

theorem latest_map {α β γ : Type} (g : γ → α) (f : α → Option β) (id : β → Nat) (i : Nat) (l : List γ) :
    latest f id i (l.map g) = latest (fun x => f (g x)) id i l := by
  unfold latest; rw [List.filterMap_map]; rfl

theorem parseBitstream_steps {cs : Bool} {st st' : ParserState} {data : List UInt8} {ns : List NalUnit} (hlen : data.length < 2 ^ 64)
    (h : parseBitstream cs st data = .ok (ns, st')) : Steps st (ns.map (·.nal_unit_payload)) st' := by
  rw [parseBitstream_eq cs st data hlen] at h
  exact parseAll_steps h

/-- C21: parsing one NAL unit.  The lookup of an id afterwards gives the parameter set just returned if it has that id, and else what it gave before. -/
theorem C21_nal_unit {cs : Bool} {st st' : ParserState} {data : List UInt8} {n : NalUnit} {b : BB}
    (h : parseNalUnit cs st data = .ok (n, st') b) (i : Nat) :
    st'.vps i = (latest (·.nal_unit_payload.vps) (·.body.vps_video_parameter_set_id) i [n]).or (st.vps i) ∧
    st'.sps i = (latest (·.nal_unit_payload.sps) (·.body.sps_seq_parameter_set_id) i [n]).or (st.sps i) ∧
    st'.pps i = (latest (·.nal_unit_payload.pps) (·.body.head.pps_pic_parameter_set_id) i [n]).or (st.pps i) := by
  have := C21_latest (parseNalUnit_steps h) i
  rw [show [n.nal_unit_payload] = [n].map (·.nal_unit_payload) from rfl, latest_map, latest_map, latest_map] at this
  exact this

/-- C21: parsing a bitstream.  The lookup of an id afterwards gives the last parameter set with that id among the NAL units returned, and what it gave before if there
is none. -/
theorem C21_bitstream {cs : Bool} {st st' : ParserState} {data : List UInt8} {ns : List NalUnit} (hlen : data.length < 2 ^ 64)
    (h : parseBitstream cs st data = .ok (ns, st')) (i : Nat) :
    st'.vps i = (latest (·.nal_unit_payload.vps) (·.body.vps_video_parameter_set_id) i ns).or (st.vps i) ∧
    st'.sps i = (latest (·.nal_unit_payload.sps) (·.body.sps_seq_parameter_set_id) i ns).or (st.sps i) ∧
    st'.pps i = (latest (·.nal_unit_payload.pps) (·.body.head.pps_pic_parameter_set_id) i ns).or (st.pps i) := by
  have := C21_latest (parseBitstream_steps hlen h) i
  rw [latest_map, latest_map, latest_map] at this
  exact this

/-- C21: the overload without a parser state parses a bitstream as one with a state that holds nothing: parameter sets of other calls
have no influence. -/
theorem C21_fresh_state (cs : Bool) (data : List UInt8) (ns : List NalUnit) :
    parseBitstreamFresh cs data = .ok ns ↔ ∃ st', parseBitstream cs .empty data = .ok (ns, st') := by
  unfold parseBitstreamFresh
  split
  · next h => rw [h]; simp
  · next h => rw [h]; simp

/-- C21: the same for undefined behaviour -/
theorem C21_fresh_safe (cs : Bool) (data : List UInt8) (k : Bad) :
    parseBitstreamFresh cs data = .error k ↔ parseBitstream cs .empty data = .error k := by
  unfold parseBitstreamFresh
  split
  · next h => rw [h]; simp
  · next h => rw [h]; simp

theorem bitstream_safe_for {A : Bad → Prop} {cs : Bool} {st : ParserState} {data : List UInt8} {k : Bad} (hs : UsableFor A st) (hlen : data.length < 2 ^ 32)
    (h : parseBitstream cs st data = .error k) : A k := by
  rw [parseBitstream_eq cs st data (by omega)] at h
  refine parseAll_safe_for hs ?_ h
  intro x hx
  rw [List.mem_map] at hx
  obtain ⟨e, _, rfl⟩ := hx
  simp only [spanOf, List.length_take, List.length_drop]
  omega

/-- C44: parsing any bitstream of less than 4 GiB, after any history, does nothing undefined except possibly a signed 32-bit overflow. -/
theorem C44_bitstream_safe {cs : Bool} {st : ParserState} {data : List UInt8} {k : Bad} (hs : Reach st) (hlen : data.length < 2 ^ 32)
    (h : parseBitstream cs st data = .error k) : k = .signedOverflow :=
  bitstream_safe_for (A := fun k => k = .signedOverflow) hs.usable hlen h

/-! ### storing a parameter set -/

/-- what a NAL unit with this header and these payload bits is parsed into -/
theorem nal_of_bits {cs : Bool} {st : ParserState} {rbsp : List UInt8} {h : NalUnitHeader} {w : List Bool} (hh : ValidNalUnitHeader h)
    (hb : bitsOf rbsp = Spec.nalUnitHeader h ++ w) (hlen : rbsp.length < 2 ^ 32) :
    ∃ b1, b1.WF ∧ b1.rem = w ∧ ∀ p st' b2, (parseNalUnitPayload h.nal_unit_type st).run b1 = .ok (p, st') b2 →
      ∃ n b, parseNalUnit cs st (escape rbsp) = .ok (n, st') b ∧ n.nal_unit_header = h ∧ n.nal_unit_payload = p := by
  obtain ⟨b1, h1, h2, h3, h4⟩ := C19_header_inverts.complete (BB.init rbsp) h w (BB.WF.init _) hh (by rw [BB.rem_init]; exact hb)
  refine ⟨b1, h2, h4, ?_⟩
  intro p st' b2 hp
  rw [parseNalUnit_eq cs st (escape rbsp) rbsp (C10_unescape_escape rbsp) hlen]
  unfold parseNalUnitParts
  rw [Prog.run_seq, h1]
  simp only [Res.andThen]
  rw [Prog.run_seq, hp]
  exact ⟨_, b2, rfl, rfl, rfl⟩

/-- C21: a NAL unit carrying a valid VPS (whatever follows it) is returned with that VPS, and the VPS is found under its id afterwards. -/
theorem C21_store_vps (cs : Bool) (st : ParserState) (rbsp : List UInt8) (h : NalUnitHeader) (x : VpsBody) (rest : List Bool) (hh : ValidNalUnitHeader h)
    (ht : h.nal_unit_type = 32) (hx : ValidVpsBody x) (hb : bitsOf rbsp = Spec.nalUnitHeader h ++ (Spec.vpsBody x ++ rest)) (hlen : rbsp.length < 2 ^ 32) :
    ∃ n st' b v, parseNalUnit cs st (escape rbsp) = .ok (n, st') b ∧ n.nal_unit_header = h ∧ n.nal_unit_payload.vps = some v ∧ v.body = x ∧
      st'.vps x.vps_video_parameter_set_id = some v := by
  obtain ⟨b1, hw, hr, hn⟩ := nal_of_bits (cs := cs) (st := st) hh hb hlen
  obtain ⟨v, b2, h1, h2⟩ := C28_vps_inverts.accepts b1 x rest hw hx hr
  have hp : (parseNalUnitPayload h.nal_unit_type st).run b1 = .ok (vpsOut st (some v)) b2 := by
    rw [parseNalUnitPayload_eq, ht, if_neg (by unfold sliceType; omega), if_pos rfl, Prog.run_bind, Prog.run_attempt, h1]; rfl
  obtain ⟨n, b, e1, e2, e3⟩ := hn _ _ _ hp
  exact ⟨n, _, b, v, e1, e2, by rw [e3], h2, by rw [← h2]; exact if_pos rfl⟩

/-- C21: the same for an SPS. -/
theorem C21_store_sps (cs : Bool) (st : ParserState) (rbsp : List UInt8) (h : NalUnitHeader) (x : SpsBody) (rest : List Bool) (hh : ValidNalUnitHeader h)
    (ht : h.nal_unit_type = 33) (hx : ValidSpsBody x) (hb : bitsOf rbsp = Spec.nalUnitHeader h ++ (Spec.spsBody x ++ rest)) (hlen : rbsp.length < 2 ^ 32) :
    ∃ n st' b v, parseNalUnit cs st (escape rbsp) = .ok (n, st') b ∧ n.nal_unit_header = h ∧ n.nal_unit_payload.sps = some v ∧ v.body = x ∧
      st'.sps x.sps_seq_parameter_set_id = some v := by
  obtain ⟨b1, hw, hr, hn⟩ := nal_of_bits (cs := cs) (st := st) hh hb hlen
  obtain ⟨v, b2, h1, h2⟩ := C27_sps_inverts.accepts b1 x rest hw hx hr
  have hp : (parseNalUnitPayload h.nal_unit_type st).run b1 = .ok (spsOut st (some v)) b2 := by
    rw [parseNalUnitPayload_eq, ht, if_neg (by unfold sliceType; omega), if_neg (by decide), if_pos rfl, Prog.run_bind, Prog.run_attempt, h1]; rfl
  obtain ⟨n, b, e1, e2, e3⟩ := hn _ _ _ hp
  exact ⟨n, _, b, v, e1, e2, by rw [e3], h2, by rw [← h2]; exact if_pos rfl⟩

/-- C21: the same for a PPS. -/
theorem C21_store_pps (cs : Bool) (st : ParserState) (rbsp : List UInt8) (h : NalUnitHeader) (x : PpsBody) (rest : List Bool) (hh : ValidNalUnitHeader h)
    (ht : h.nal_unit_type = 34) (hx : ValidPpsBody x) (hb : bitsOf rbsp = Spec.nalUnitHeader h ++ (Spec.ppsBody x ++ rest)) (hlen : rbsp.length < 2 ^ 32) :
    ∃ n st' b v, parseNalUnit cs st (escape rbsp) = .ok (n, st') b ∧ n.nal_unit_header = h ∧ n.nal_unit_payload.pps = some v ∧ v.body = x ∧
      st'.pps x.head.pps_pic_parameter_set_id = some v := by
  obtain ⟨b1, hw, hr, hn⟩ := nal_of_bits (cs := cs) (st := st) hh hb hlen
  obtain ⟨v, b2, h1, h2⟩ := C29_pps_accepts b1 x rest hw hx hr
  have hp : (parseNalUnitPayload h.nal_unit_type st).run b1 = .ok (ppsOut st (some v)) b2 := by
    rw [parseNalUnitPayload_eq, ht, if_neg (by unfold sliceType; omega), if_neg (by decide), if_neg (by decide), if_pos rfl, Prog.run_bind,
      Prog.run_attempt, h1]; rfl
  obtain ⟨n, b, e1, e2, e3⟩ := hn _ _ _ hp
  exact ⟨n, _, b, v, e1, e2, by rw [e3], h2, by rw [← h2]; exact if_pos rfl⟩

/-- C22: a parsed NAL unit without a parameter set leaves the state as it was; so does a NAL unit that is not of a parameter set type. -/
theorem C22_nal_unit {cs : Bool} {st st' : ParserState} {data : List UInt8} {n : NalUnit} {b : BB} (h : parseNalUnit cs st data = .ok (n, st') b) :
    (n.nal_unit_payload.vps = none → n.nal_unit_payload.sps = none → n.nal_unit_payload.pps = none → st' = st) ∧
    (n.nal_unit_header.nal_unit_type ∉ [32, 33, 34] → st' = st) := by
  have key : n.nal_unit_payload.vps = none → n.nal_unit_payload.sps = none → n.nal_unit_payload.pps = none → st' = st := by
    intro h1 h2 h3
    have hl := C21_nal_unit h
    have e1 : st'.vps = st.vps := by funext i; rw [(hl i).1]; simp [latest, h1]
    have e2 : st'.sps = st.sps := by funext i; rw [(hl i).2.1]; simp [latest, h2]
    have e3 : st'.pps = st.pps := by funext i; rw [(hl i).2.2]; simp [latest, h3]
    cases st; cases st'; simp only at e1 e2 e3; subst e1 e2 e3; rfl
  refine ⟨key, fun ht => ?_⟩
  obtain ⟨rbsp, _, hparts⟩ := parseNalUnit_ok h
  obtain ⟨b1, b2, _, h2, _⟩ := hparts.parts
  have hp := C21_payload h2
  apply key
  · cases hv : n.nal_unit_payload.vps with
    | none => rfl
    | some x => exact absurd (hp.1 x hv).1 (by intro he; simp [he] at ht)
  · cases hv : n.nal_unit_payload.sps with
    | none => rfl
    | some x => exact absurd (hp.2.1 x hv).1 (by intro he; simp [he] at ht)
  · cases hv : n.nal_unit_payload.pps with
    | none => rfl
    | some x => exact absurd (hp.2.2.1 x hv).1 (by intro he; simp [he] at ht)

/-! ### the stream of h265_bitstream_parser_unittest.cc:25-52 -/

/-- VPS, SPS, PPS and the first bytes of the slice -/
def testStream : List UInt8 :=
  [0, 0, 0, 1, 0x40, 0x01, 0x0c, 0x01, 0xff, 0xff, 0x01, 0x60, 0x00, 0x00, 0x03, 0x00, 0xb0, 0x00, 0x00, 0x03, 0x00, 0x00, 0x03, 0x00, 0x5d, 0xac, 0x59] ++
  [0, 0, 0, 1, 0x42, 0x01] ++ testSps ++ [0, 0, 0, 1, 0x44, 0x01, 0xc0, 0xf3, 0xc0, 0x02, 0x10] ++ [0, 0, 0, 1, 0x26, 0x01] ++ testSlice

/-- hypotheses met: the values expected by the unit test -/
example : (match parseBitstream true .empty testStream with
    | .ok (ns, _) => ns.map fun n => (n.offset, n.length, n.nal_unit_header.nal_unit_type, [n.nal_unit_payload.vps.isSome,
        n.nal_unit_payload.sps.isSome, n.nal_unit_payload.pps.isSome, n.nal_unit_payload.slice_segment_layer.isSome])
    | .error _ => []) =
    [(4, 23, 32, [true, false, false, false]), (31, 39, 33, [false, true, false, false]), (74, 7, 34, [false, false, true, false]),
      (85, 15, 19, [false, false, false, true])] := by decide +kernel

/-- the state after it holds one VPS, SPS and PPS, each under id 0 -/
example : (match parseBitstream false .empty testStream with
    | .ok (_, st) => [(st.vps 0).isSome, (st.sps 0).isSome, (st.pps 0).isSome, (st.vps 1).isSome, (st.sps 1).isSome, (st.pps 1).isSome]
    | .error _ => []) = [true, true, true, false, false, false] := by decide +kernel

/-- C25, the hypotheses of the cut: between the SPS and the PPS -/
example : BeginsUnit [0, 0, 0, 1, 0x44, 0x01, 0xc0] := ⟨1, by decide, by decide⟩

/-- C25 needs the condition on the cut: behind a zero byte, a three-byte start code takes that byte from the unit before it. -/
theorem C25_cut_needs_nonzero :
    parseBitstream false .empty ([0, 0, 1, 0x46, 0x01, 0x00] ++ [0, 0, 1, 0x46, 0x01, 0x50]) ≠
      (parseBitstream false .empty [0, 0, 1, 0x46, 0x01, 0x00]).bind fun x => (parseBitstream false x.2 [0, 0, 1, 0x46, 0x01, 0x50]).bind fun y =>
        .ok (x.1 ++ y.1.map (fun n => { n with offset := 6 + n.offset }), y.2) := by
  intro h
  have h1 : ((parseBitstream false .empty ([0, 0, 1, 0x46, 0x01, 0x00] ++ [0, 0, 1, 0x46, 0x01, 0x50])).toOption.map fun x => x.1.map (·.length)) = some [2, 3] := by
    decide +kernel
  rw [h] at h1
  revert h1
  decide +kernel

/-! ### C20: the types of NAL units with a slice header -/

/-- SPS, PPS and a NAL unit of type `t` with 25 bytes 0xff behind its header -/
def sliceOfType (t : Nat) : List UInt8 :=
  [0, 0, 0, 1, 0x42, 0x01] ++ testSps ++ [0, 0, 0, 1, 0x44, 0x01, 0xc0, 0xf3, 0xc0, 0x02, 0x10] ++
    [0, 0, 0, 1, UInt8.ofNat (2 * t), 0x01] ++ List.replicate 25 0xff

theorem sliceOfType_slices : ∀ t, t < 64 → isSliceSegment t = true →
    (match parseBitstreamFresh false (sliceOfType t) with
      | .ok ns => ns.any fun n => n.nal_unit_header.nal_unit_type == t && n.nal_unit_payload.slice_segment_layer.isSome
      | .error _ => false) = true := by decide +kernel

/-- every reported unit was parsed by `ParseNalUnit` in some state -/
theorem parseAll_mem {cs : Bool} : ∀ {l : List (Nat × Nat × List UInt8)} {st st' : ParserState} {ns : List NalUnit} {n : NalUnit},
    parseAll cs l st = .ok (ns, st') → n ∈ ns → ∃ st0 st1 nal n0 b, parseNalUnit cs st0 nal = .ok (n0, st1) b ∧
      n.nal_unit_header = n0.nal_unit_header ∧ n.nal_unit_payload = n0.nal_unit_payload
  | [], st, st', ns, n, h, hn => by cases h; cases hn
  | (off, len, nal) :: rest, st, st', ns, n, h, hn => by
    simp only [parseAll] at h
    cases hp : parseNalUnit cs st nal with
    | bad k => rw [hp] at h; cases h
    | fail b => rw [hp] at h; exact parseAll_mem h hn
    | ok x b =>
      obtain ⟨n0, st1⟩ := x
      rw [hp] at h
      dsimp only at h
      cases hr : parseAll cs rest st1 with
      | error k => rw [hr] at h; cases h
      | ok y =>
        obtain ⟨ns', st2⟩ := y
        rw [hr] at h
        cases h
        rcases List.mem_cons.mp hn with rfl | hn
        · exact ⟨st, st1, nal, n0, b, hp, rfl, rfl⟩
        · exact parseAll_mem hr hn

/-- C20: the slice segment types are exactly the types of the NAL units that parsing some byte stream can report with a slice header. -/
theorem C20_slice_header_types (t : Nat) :
    isSliceSegment t = true ↔
      ∃ cs data ns n s, data.length < 2 ^ 64 ∧ parseBitstreamFresh cs data = .ok ns ∧ n ∈ ns ∧ n.nal_unit_header.nal_unit_type = t ∧
        n.nal_unit_payload.slice_segment_layer = some s := by
  constructor
  · intro h
    have ht : t < 64 := by have := (C20_type_classes t).1.mp h; omega
    have hs := sliceOfType_slices t ht h
    split at hs
    · rename_i ns hp
      obtain ⟨n, hn, ht⟩ := List.any_eq_true.mp hs
      rw [Bool.and_eq_true, beq_iff_eq] at ht
      obtain ⟨s, hs⟩ := Option.isSome_iff_exists.mp ht.2
      refine ⟨false, sliceOfType t, ns, n, s, ?_, hp, hn, ht.1, hs⟩
      unfold sliceOfType testSps; simp
    · cases hs
  · rintro ⟨cs, data, ns, n, s, hl, hp, hn, ht, hs⟩
    obtain ⟨st', hp⟩ := (C21_fresh_state cs data ns).mp hp
    rw [parseBitstream_eq cs .empty data hl] at hp
    obtain ⟨st0, st1, nal, n0, b, hq, e1, e2⟩ := parseAll_mem hp hn
    obtain ⟨rbsp, _, hparts⟩ := parseNalUnit_ok hq
    obtain ⟨b1, b2, _, h2, _⟩ := hparts.parts
    rw [e2] at hs
    rw [e1] at ht
    rw [← ht]
    exact ((C21_payload h2).2.2.2.2.1 s hs).1

end H265
