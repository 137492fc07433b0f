/-
C65: the header of a slice does not depend on the slice data behind it.
-/
import Verif.Props.History
import Verif.Proof.Streaming

set_option autoImplicit false

namespace H265
open Spec Prog

/-- the parts of a NAL unit with a slice header: the bits of the header, which are all that is needed -/
theorem slice_parts {cs : Bool} {st st' : ParserState} {rbsp : List UInt8} {n : NalUnit} (h : NalParts cs st rbsp n st') {s : SliceSegmentHeader}
    (hs : n.nal_unit_payload.slice_segment_layer = some s) :
    ∃ b0 b1 c r, bitsOf rbsp = bitsOf [b0, b1] ++ (c ++ r) ∧ n.nal_unit_header = headerOf b0 b1 ∧ st' = st ∧ n.nal_unit_payload = { slice_segment_layer := some s } ∧
      sliceType n.nal_unit_header.nal_unit_type ∧ (parseSliceSegmentHeader n.nal_unit_header.nal_unit_type st.pps st.sps).Reads c s ∧
      n.parsed_length = (16 + c.length + 7) / 8 := by
  obtain ⟨b1, b2, h1, h2, h3⟩ := h.parts
  match rbsp, h1, h3 with
  | [], h1, _ => obtain ⟨e, he⟩ := header_run_short [] (by decide); rw [he] at h1; cases h1
  | [x], h1, _ => obtain ⟨e, he⟩ := header_run_short [x] (by simp); rw [he] at h1; cases h1
  | x0 :: x1 :: rest, h1, h3 =>
    obtain ⟨bb, g1, g2, _, g4⟩ := header_run x0 x1 rest
    rw [g1] at h1
    simp only [Res.ok.injEq] at h1
    obtain ⟨e1, rfl⟩ := h1
    have hc := payload_cases h2
    revert hs hc
    generalize n.nal_unit_payload = p at *
    intro hs hc
    cases hc with
    | vps o => cases o <;> cases hs
    | sps o => cases o <;> cases hs
    | pps o => cases o <;> cases hs
    | aud o => cases hs
    | sei o => cases hs
    | other => cases hs
    | slice o ht hr =>
      cases hs
      have hr' : (parseSliceSegmentHeader n.nal_unit_header.nal_unit_type st.pps st.sps).run bb = .ok s b2 := hr
      have hd := denote_of_run_ok g2 hr'
      obtain ⟨c, hc, hread⟩ := parseSliceSegmentHeader_streaming _ _ _ _ _ _ hd
      rw [g4] at hc
      refine ⟨x0, x1, c, b2.rem, ?_, e1.symm, rfl, rfl, ht, hread, ?_⟩
      · rw [← hc, ← bitsOf_append]; rfl
      · rw [h3]
        have hl := congrArg List.length hc
        rw [bitsOf_length, List.length_append] at hl
        simp only [List.length_cons]
        congr 1
        omega

/-- parsing a NAL unit of a slice type -/
theorem slice_nal {cs : Bool} {st : ParserState} {data' : List UInt8} {b0 b1 : UInt8} {rest : List UInt8} (hu : unescapeRbsp data' = .ok (b0 :: b1 :: rest))
    (hlen : rest.length + 2 < 2 ^ 32) (ht : sliceType (headerOf b0 b1).nal_unit_type) :
    (∀ s m, (parseSliceSegmentHeader (headerOf b0 b1).nal_unit_type st.pps st.sps).denote (bitsOf rest) = .ok s m →
      ∃ n e, parseNalUnit cs st data' = .ok (n, st) e ∧ n.nal_unit_header = headerOf b0 b1 ∧ n.nal_unit_payload = { slice_segment_layer := some s } ∧
        n.parsed_length = (16 + ((bitsOf rest).length - m.length) + 7) / 8) ∧
    (∀ m, (parseSliceSegmentHeader (headerOf b0 b1).nal_unit_type st.pps st.sps).denote (bitsOf rest) = .fail m →
      ∃ n e, parseNalUnit cs st data' = .ok (n, st) e ∧ n.nal_unit_header = headerOf b0 b1 ∧ n.nal_unit_payload = {}) := by
  obtain ⟨bb, g1, g2, g3, g4⟩ := header_run b0 b1 rest
  have hpay : parseNalUnitPayload (headerOf b0 b1).nal_unit_type st =
      (parseSliceSegmentHeader (headerOf b0 b1).nal_unit_type st.pps st.sps).attempt.bind fun o => Prog.ret ({ slice_segment_layer := o }, st) := by
    rw [parseNalUnitPayload_eq, if_pos ht]; rfl
  have hag := Prog.run_agrees (parseSliceSegmentHeader (headerOf b0 b1).nal_unit_type st.pps st.sps) bb g2
  rw [g4] at hag
  constructor
  · intro s m hm
    rw [hm] at hag
    revert hag
    cases hrun : (parseSliceSegmentHeader (headerOf b0 b1).nal_unit_type st.pps st.sps).run bb with
    | bad k => exact fun h => h.elim
    | fail b => exact fun h => h.elim
    | ok a b2 =>
      rintro ⟨rfl, w2, e2, e3⟩
      rw [parseNalUnit_eq cs st data' _ hu (by simp only [List.length_cons]; omega)]
      unfold parseNalUnitParts
      rw [Prog.run_seq, g1]
      simp only [Res.andThen]
      rw [Prog.run_seq, hpay, Prog.run_bind, Prog.run_attempt, hrun]
      refine ⟨_, b2, rfl, rfl, rfl, ?_⟩
      dsimp only
      rw [currentOffset_eq w2, e2, g3, e3]
      have hsuf := Prog.denote_forward (parseSliceSegmentHeader (headerOf b0 b1).nal_unit_type st.pps st.sps) (bitsOf rest)
      rw [hm] at hsuf
      simp only [List.length_cons, bitsOf_length] at hsuf ⊢
      congr 1
      have : m.length ≤ 8 * rest.length := by
        obtain ⟨c, hc, _⟩ := parseSliceSegmentHeader_streaming _ _ _ _ _ _ hm
        have := congrArg List.length hc
        rw [bitsOf_length, List.length_append] at this
        omega
      omega
  · intro m hm
    rw [hm] at hag
    revert hag
    cases hrun : (parseSliceSegmentHeader (headerOf b0 b1).nal_unit_type st.pps st.sps).run bb with
    | bad k => exact fun h => h.elim
    | ok a b => exact fun h => h.elim
    | fail b2 =>
      intro _
      rw [parseNalUnit_eq cs st data' _ hu (by simp only [List.length_cons]; omega)]
      unfold parseNalUnitParts
      rw [Prog.run_seq, g1]
      simp only [Res.andThen]
      rw [Prog.run_seq, hpay, Prog.run_bind, Prog.run_attempt, hrun]
      exact ⟨_, b2, rfl, rfl, rfl⟩

/-- C65: if a slice NAL unit gives a slice header, then so does, in the same state, every NAL unit with the same first `parsed_length` unescaped bytes: the same header,
and the same parsed length. -/
theorem C65_same_start {cs cs' : Bool} {st st' : ParserState} {data data' rbsp rbsp' : List UInt8} {n : NalUnit} {e : BB}
    (h : parseNalUnit cs st data = .ok (n, st') e) (hs : n.nal_unit_payload.slice_segment_layer ≠ none) (hu : unescapeRbsp data = .ok rbsp)
    (hu' : unescapeRbsp data' = .ok rbsp') (hlen : rbsp'.length < 2 ^ 32) (heq : rbsp'.take n.parsed_length = rbsp.take n.parsed_length)
    (hmin : n.parsed_length ≤ rbsp'.length) :
    ∃ n' e', parseNalUnit cs' st data' = .ok (n', st') e' ∧ n'.nal_unit_header = n.nal_unit_header ∧ n'.nal_unit_payload = n.nal_unit_payload ∧
      n'.parsed_length = n.parsed_length := by
  obtain ⟨r, h1, h2⟩ := parseNalUnit_ok h
  rw [hu] at h1; cases h1
  cases hss : n.nal_unit_payload.slice_segment_layer with
  | none => exact absurd hss hs
  | some s =>
    obtain ⟨b0, b1, c, r, p1, p2, rfl, p4, p5, p6, p7⟩ := slice_parts h2 hss
    -- the bits of the other NAL unit
    have hb : ∃ r', bitsOf rbsp' = bitsOf [b0, b1] ++ (c ++ r') := by
      have hk : (bitsOf [b0, b1] ++ c).length ≤ 8 * n.parsed_length := by
        rw [p7, List.length_append, bitsOf_length]; simp only [List.length_cons, List.length_nil]; omega
      have e1 : (bitsOf rbsp).take (8 * n.parsed_length) = (bitsOf [b0, b1] ++ c) ++ r.take (8 * n.parsed_length - (bitsOf [b0, b1] ++ c).length) := by
        rw [p1, ← List.append_assoc, List.take_append, List.take_of_length_le hk]
      have e2 : bitsOf rbsp' = (bitsOf rbsp).take (8 * n.parsed_length) ++ (bitsOf rbsp').drop (8 * n.parsed_length) := by
        rw [← bitsOf_take, ← heq, bitsOf_take, List.take_append_drop]
      rw [e1, List.append_assoc, List.append_assoc] at e2
      exact ⟨_, e2⟩
    obtain ⟨r', hb⟩ := hb
    match rbsp', hb, hlen, hu' with
    | [], hb, _, _ => exfalso; have := congrArg List.length hb; simp only [bitsOf_length, List.length_append, List.length_cons, List.length_nil] at this; omega
    | [x], hb, _, _ => exfalso; have := congrArg List.length hb; simp only [bitsOf_length, List.length_append, List.length_cons, List.length_nil] at this; omega
    | x0 :: x1 :: rest, hb, hlen, hu' =>
      have hx : bitsOf [x0, x1] ++ bitsOf rest = bitsOf [b0, b1] ++ (c ++ r') := by rw [← bitsOf_append]; exact hb
      obtain ⟨hx1, hx2⟩ := List.append_inj hx (by simp)
      have hinj : x0 = b0 ∧ x1 = b1 := by
        simp only [bitsOf_cons, bitsOf_nil, List.append_nil] at hx1
        obtain ⟨i1, i2⟩ := List.append_inj hx1 (by simp)
        exact ⟨byteBits_inj i1, byteBits_inj i2⟩
      obtain ⟨rfl, rfl⟩ := hinj
      rw [p2] at p5 p6
      have hd := p6.whole r'
      rw [← hx2] at hd
      obtain ⟨n', e', q1, q2, q3, q4⟩ := (slice_nal (cs := cs') (st := st') hu' (by simpa using hlen) p5).1 s r' hd
      refine ⟨n', e', q1, q2.trans p2.symm, q3.trans p4.symm, ?_⟩
      rw [q4, p7, hx2, List.length_append]
      congr 1; omega

/-- C65: with fewer unescaped bytes there is no slice header, and no undefined behaviour either. -/
theorem C65_truncated {cs cs' : Bool} {st st' : ParserState} {data data' rbsp rbsp' : List UInt8} {n : NalUnit} {e : BB}
    (h : parseNalUnit cs st data = .ok (n, st') e) (hs : n.nal_unit_payload.slice_segment_layer ≠ none) (hu : unescapeRbsp data = .ok rbsp)
    (hu' : unescapeRbsp data' = .ok rbsp') (hlen : rbsp'.length < 2 ^ 32) (hpre : rbsp' <+: rbsp) (hmin : 2 ≤ rbsp'.length) (hmax : rbsp'.length < n.parsed_length) :
    ∃ n' e', parseNalUnit cs' st data' = .ok (n', st) e' ∧ n'.nal_unit_header = n.nal_unit_header ∧ n'.nal_unit_payload = {} := by
  obtain ⟨r, h1, h2⟩ := parseNalUnit_ok h
  rw [hu] at h1; cases h1
  cases hss : n.nal_unit_payload.slice_segment_layer with
  | none => exact absurd hss hs
  | some s =>
    obtain ⟨b0, b1, c, r, p1, p2, rfl, p4, p5, p6, p7⟩ := slice_parts h2 hss
    obtain ⟨more, hmore⟩ := hpre
    match rbsp', hmin, hmax, hlen, hu', hmore with
    | x0 :: x1 :: rest, hmin, hmax, hlen, hu', hmore =>
      have hx : bitsOf [x0, x1] ++ (bitsOf rest ++ bitsOf more) = bitsOf [b0, b1] ++ (c ++ r) := by
        rw [← p1, ← hmore, ← bitsOf_append, ← bitsOf_append]; rfl
      obtain ⟨hx1, hx2⟩ := List.append_inj hx (by simp)
      have hinj : x0 = b0 ∧ x1 = b1 := by
        simp only [bitsOf_cons, bitsOf_nil, List.append_nil] at hx1
        obtain ⟨i1, i2⟩ := List.append_inj hx1 (by simp)
        exact ⟨byteBits_inj i1, byteBits_inj i2⟩
      obtain ⟨rfl, rfl⟩ := hinj
      have hcl : 8 * rest.length < c.length := by
        rw [p7] at hmax
        simp only [List.length_cons] at hmax
        omega
      have hc : ∃ d, c = bitsOf rest ++ d ∧ d ≠ [] := by
        rcases List.append_eq_append_iff.1 hx2 with ⟨y, hy, _⟩ | ⟨y, hy, _⟩
        · refine ⟨y, hy, ?_⟩
          rintro rfl
          rw [hy] at hcl
          simp at hcl
        · exfalso
          have := congrArg List.length hy
          rw [bitsOf_length, List.length_append] at this
          omega
      obtain ⟨d, hd, hne⟩ := hc
      rw [p2] at p5 p6
      obtain ⟨m, hm⟩ := p6.part _ _ hd hne
      obtain ⟨n', e', q1, q2, q3⟩ := (slice_nal (cs := cs') (st := st') hu' (by simpa using hlen) p5).2 m hm
      exact ⟨n', e', q1, q2.trans p2.symm, q3⟩

/-- unescaping the start of a NAL unit gives a start of the unescaped NAL unit -/
theorem unesc_prefix : ∀ a b : List UInt8, unesc a <+: unesc (a ++ b)
  | [], b => List.nil_prefix
  | [x], [] => List.prefix_refl _
  | [x], [y] => ⟨[y], rfl⟩
  | [x], y :: z :: b => by
    simp only [List.cons_append, List.nil_append, unesc]
    split
    · exact ⟨y :: unesc b, rfl⟩
    · exact ⟨_, rfl⟩
  | [x, y], [] => List.prefix_refl _
  | [x, y], z :: b => by
    simp only [List.cons_append, List.nil_append, unesc]
    split
    · exact ⟨unesc b, rfl⟩
    · obtain ⟨t, ht⟩ := unesc_prefix [y] (z :: b)
      rw [List.cons_append, List.nil_append] at ht
      rw [← ht]
      exact ⟨t, rfl⟩
  | x :: y :: z :: a, b => by
    simp only [List.cons_append, unesc]
    split
    · obtain ⟨t, ht⟩ := unesc_prefix a b
      exact ⟨t, by rw [← ht]; rfl⟩
    · obtain ⟨t, ht⟩ := unesc_prefix (y :: z :: a) b
      refine ⟨t, ?_⟩
      rw [List.cons_append, List.cons_append] at ht
      rw [← ht]; rfl
termination_by a => a.length

/-- C65, on the bytes of the NAL unit: cut anywhere behind the header, and anything put in place of the rest (or nothing), the slice header is the same. -/
theorem C65_slice_data {cs cs' : Bool} {st st' : ParserState} {a b b' rbsp : List UInt8} {n : NalUnit} {e : BB} (h : parseNalUnit cs st (a ++ b) = .ok (n, st') e)
    (hs : n.nal_unit_payload.slice_segment_layer ≠ none) (hu : unescapeRbsp a = .ok rbsp) (hcut : n.parsed_length ≤ rbsp.length) (hlen : (a ++ b').length < 2 ^ 32) :
    ∃ n' e', parseNalUnit cs' st (a ++ b') = .ok (n', st') e' ∧ n'.nal_unit_header = n.nal_unit_header ∧ n'.nal_unit_payload = n.nal_unit_payload ∧
      n'.parsed_length = n.parsed_length := by
  rw [unescapeRbsp_eq] at hu
  cases hu
  obtain ⟨t, ht⟩ := unesc_prefix a b
  obtain ⟨t', ht'⟩ := unesc_prefix a b'
  have hle := unesc_le (unescapeRbsp_eq (a ++ b'))
  refine C65_same_start h hs (unescapeRbsp_eq _) (unescapeRbsp_eq _) (by omega) ?_ ?_
  · rw [← ht, ← ht', List.take_append_of_le_length hcut, List.take_append_of_le_length hcut]
  · rw [← ht', List.length_append]; omega

/-- C65, RTP: if the first fragment of a slice NAL unit holds its header, parsing the packet gives the slice header of the whole NAL unit; otherwise none. -/
theorem C65_first_fragment {st st' : ParserState} {b0 b1 b2 : UInt8} {frag rest rbsp : List UInt8} {n : NalUnit} {e : BB} (hlen : frag.length + 3 < 2 ^ 32)
    (ht : b0.toNat / 2 % 64 = 49) (hb1 : b1 ≠ 0) (hb2 : 128 ≤ b2.toNat) (h : parseNalUnit false st (nalByte0 b0 b2 :: b1 :: (frag ++ rest)) = .ok (n, st') e)
    (hs : n.nal_unit_payload.slice_segment_layer ≠ none) (hu : unescapeRbsp (nalByte0 b0 b2 :: b1 :: frag) = .ok rbsp) :
    ∃ r fu p, parseRtp st (b0 :: b1 :: b2 :: frag) = .ok (some r, st') ∧ r.rtp_fu = some fu ∧ fu.nal_unit_payload = some p ∧
      (n.parsed_length ≤ rbsp.length → p = n.nal_unit_payload) ∧ (rbsp.length < n.parsed_length → p = {}) := by
  have hle := unesc_le hu
  simp only [List.length_cons] at hle
  have hst : st' = st := by
    obtain ⟨r, h1, h2⟩ := parseNalUnit_ok h
    cases hss : n.nal_unit_payload.slice_segment_layer with
    | none => exact absurd hss hs
    | some s => obtain ⟨_, _, _, _, _, _, h3, _⟩ := slice_parts h2 hss; exact h3
  subst hst
  have hstart := C39_start (b0 := b0) (b1 := b1) (b2 := b2) (frag := frag) hlen ht hb1 hb2 st'
  have h2 : 2 ≤ rbsp.length := by
    rw [unescapeRbsp_eq] at hu
    cases hu
    obtain ⟨r', hr⟩ := unesc_two (nalByte0 b0 b2) b1 frag
    rw [hr]; simp
  by_cases hc : n.parsed_length ≤ rbsp.length
  · obtain ⟨n', e', q1, _, q3, _⟩ := C65_slice_data (cs' := false) (a := nalByte0 b0 b2 :: b1 :: frag) (b := rest) (b' := []) (by simpa using h) hs hu hc
      (by simp only [List.append_nil, List.length_cons]; omega)
    rw [List.append_nil] at q1
    rw [q1] at hstart
    exact ⟨_, _, _, hstart, rfl, rfl, fun _ => q3, fun h => by omega⟩
  · have hp : rbsp <+: unesc (nalByte0 b0 b2 :: b1 :: (frag ++ rest)) := by
      have hu' := hu
      rw [unescapeRbsp_eq] at hu'
      cases hu'
      exact unesc_prefix (nalByte0 b0 b2 :: b1 :: frag) rest
    obtain ⟨n', e', q1, _, q3⟩ := C65_truncated (cs' := false) h hs (unescapeRbsp_eq _) hu (by omega) hp h2 (by omega)
    rw [q1] at hstart
    exact ⟨_, _, _, hstart, rfl, rfl, fun h => absurd h hc, fun _ => q3⟩

/-- the state after the parameter sets of the test stream, the bytes of its slice, and how many of them are needed for the header -/
def sliceNal : List UInt8 := 0x26 :: 0x01 :: testSlice

/-- hypotheses met: in the state left by the parameter sets of the test stream its slice has a header, shorter than the NAL unit -/
example : ((parseBitstream false .empty (annexB (testUnits.take 3))).toOption.bind fun x =>
    match parseNalUnit false x.2 sliceNal with
    | .ok (n, _) _ => some (n.nal_unit_payload.slice_segment_layer.isSome, n.parsed_length, sliceNal.length)
    | _ => none) = some (true, 5, 15) := by decide +kernel

/-- and of the first four bytes there is none, of the first five or six there is -/
example : ((parseBitstream false .empty (annexB (testUnits.take 3))).toOption.map fun x => [2, 4, 5, 6].map fun k =>
    match parseNalUnit false x.2 (sliceNal.take k) with
    | .ok (n, _) _ => n.nal_unit_payload.slice_segment_layer.isSome
    | _ => false) = some [false, false, true, true] := by decide +kernel

/-- the same in a first fragment: NAL unit type 49 in the packet header, start bit and type 19 in the fragmentation header -/
example : nalByte0 0x62 0x93 = 0x26 ∧ ((parseBitstream false .empty (annexB (testUnits.take 3))).toOption.map fun x => [1, 2, 3, 4].map fun k =>
    match parseRtp x.2 (0x62 :: 0x01 :: 0x93 :: testSlice.take k) with
    | .ok (some r, _) => (r.rtp_fu.bind (·.nal_unit_payload)).map (·.slice_segment_layer.isSome)
    | _ => none) = some [some false, some false, some true, some true] := by decide +kernel

end H265
