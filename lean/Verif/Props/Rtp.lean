/- C37, C38, C39: RTP payloads. -/
import Verif.Props.Nal
import Verif.Props.Position
import Verif.Props.NalLength
import Verif.Model.Rtp

namespace H265
open Spec

/-! ### C37: dispatch -/

/-- the header fields in the first two bytes (clause 7.3.1.2) -/
def headerOf (b0 b1 : UInt8) : NalUnitHeader := ⟨b0.toNat / 128, b0.toNat / 2 % 64, b0.toNat % 2 * 32 + b1.toNat / 8, b1.toNat % 8⟩

theorem header_run (b0 b1 : UInt8) (rest : List UInt8) :
    ∃ bb', parseNalUnitHeader.run (BB.init (b0 :: b1 :: rest)) = .ok (headerOf b0 b1) bb' ∧ bb'.WF ∧ bb'.bytes = b0 :: b1 :: rest ∧ bb'.rem = bitsOf rest := by
  have h0 : b0.toNat < 256 := UInt8.toNat_lt b0
  have h1 : b1.toNat < 256 := UInt8.toNat_lt b1
  exact C19_header_inverts.complete (BB.init (b0 :: b1 :: rest)) (headerOf b0 b1) (bitsOf rest) (BB.WF.init _)
    ⟨by simp only [headerOf]; omega, by simp only [headerOf]; omega, by simp only [headerOf]; omega, by simp only [headerOf]; omega⟩
    (by rw [BB.rem_init, bitsOf_cons, bitsOf_cons, ← List.append_assoc, header_bits]; rfl)

theorem header_run_short (rbsp : List UInt8) (h : rbsp.length < 2) : ∃ b, parseNalUnitHeader.run (BB.init rbsp) = .fail b := by
  cases hr : parseNalUnitHeader.run (BB.init rbsp) with
  | bad k => exact absurd hr (C19_header_inverts.safe _ _ (BB.WF.init _))
  | fail b => exact ⟨b, rfl⟩
  | ok x bb' =>
    exfalso
    obtain ⟨_, _, _, h4⟩ := C19_header_inverts.sound _ _ _ (BB.WF.init _) hr
    have := congrArg List.length h4
    rw [BB.rem_init] at this
    simp [Spec.nalUnitHeader, Spec.seq] at this
    omega

theorem parseRtp_eq {data rbsp : List UInt8} (hu : unescapeRbsp data = .ok rbsp) (hlen : rbsp.length < 2 ^ 32) (st : ParserState) :
    parseRtp st data = parseRtpBB st (BB.init rbsp) := by
  unfold parseRtp; rw [hu]; simp only; rw [if_pos (by omega)]

theorem parseRtpBB_eq (st : ParserState) (b0 b1 : UInt8) (rest : List UInt8) :
    parseRtpBB st (BB.init (b0 :: b1 :: rest)) =
      if (headerOf b0 b1).nal_unit_type ≤ 47 then
        rtpOut st (fun x => { nal_unit_header := headerOf b0 b1, rtp_single := some x }) ((parseRtpSingle st).run (BB.init (b0 :: b1 :: rest)))
      else if (headerOf b0 b1).nal_unit_type = 48 then
        rtpApOut st (fun x => { nal_unit_header := headerOf b0 b1, rtp_ap := some x }) ((parseRtpAp st).run (BB.init (b0 :: b1 :: rest)))
      else if (headerOf b0 b1).nal_unit_type = 49 then
        rtpOut st (fun x => { nal_unit_header := headerOf b0 b1, rtp_fu := some x }) ((parseRtpFu st).run (BB.init (b0 :: b1 :: rest)))
      else .ok (some { nal_unit_header := headerOf b0 b1 }, st) := by
  obtain ⟨bb', hr, _, hb, _⟩ := header_run b0 b1 rest
  unfold parseRtpBB
  rw [hr]
  dsimp only
  have : ({ bb' with byteOff := 0, bitOff := 0 } : BB) = BB.init (b0 :: b1 :: rest) := by cases bb'; simp only at hb; subst hb; rfl
  rw [this]

/-- C37: a packet of fewer than two bytes (after removing emulation prevention bytes) gives null and changes nothing. -/
theorem C37_short {data rbsp : List UInt8} (hu : unescapeRbsp data = .ok rbsp) (h2 : rbsp.length < 2) (st : ParserState) :
    parseRtp st data = .ok (none, st) := by
  rw [parseRtp_eq hu (by omega)]
  obtain ⟨b, hb⟩ := header_run_short rbsp h2
  unfold parseRtpBB
  rw [hb]

/-- C37: what is returned is decided by the six type bits of the first byte: a single NAL unit for 0..47, an aggregation packet for 48, a
fragmentation unit for 49, only the header for 50..63; the header is that of the first two bytes, and so is the header inside. -/
theorem C37_dispatch {data rbsp : List UInt8} (hu : unescapeRbsp data = .ok rbsp) (hlen : data.length < 2 ^ 32) {st st' : ParserState} {r : Rtp}
    (h : parseRtp st data = .ok (some r, st')) :
    ∃ b0 b1 rest, rbsp = b0 :: b1 :: rest ∧
      r.nal_unit_header = ⟨b0.toNat / 128, b0.toNat / 2 % 64, b0.toNat % 2 * 32 + b1.toNat / 8, b1.toNat % 8⟩ ∧
      (b0.toNat / 2 % 64 ≤ 47 → ∃ x, r.rtp_single = some x ∧ x.nal_unit_header = r.nal_unit_header ∧ r.rtp_ap = none ∧ r.rtp_fu = none) ∧
      (b0.toNat / 2 % 64 = 48 → ∃ x, r.rtp_ap = some x ∧ x.header = r.nal_unit_header ∧ r.rtp_single = none ∧ r.rtp_fu = none) ∧
      (b0.toNat / 2 % 64 = 49 → ∃ x, r.rtp_fu = some x ∧ x.header = r.nal_unit_header ∧ r.rtp_single = none ∧ r.rtp_ap = none) ∧
      (50 ≤ b0.toNat / 2 % 64 → r.rtp_single = none ∧ r.rtp_ap = none ∧ r.rtp_fu = none ∧ st' = st) := by
  have hle := unesc_le hu
  match rbsp, hu, hle with
  | [], hu, _ => rw [C37_short hu (by simp)] at h; cases h
  | [x], hu, _ => rw [C37_short hu (by simp)] at h; cases h
  | b0 :: b1 :: rest, hu, hle =>
    refine ⟨b0, b1, rest, rfl, ?_⟩
    have ht : (headerOf b0 b1).nal_unit_type = b0.toNat / 2 % 64 := rfl
    rw [parseRtp_eq hu (by omega), parseRtpBB_eq, ht] at h
    obtain ⟨bh, hr, hw⟩ := header_run b0 b1 rest
    by_cases h1 : b0.toNat / 2 % 64 ≤ 47
    · rw [if_pos h1] at h
      unfold rtpOut at h
      split at h
      · rename_i x s b hx
        cases h
        refine ⟨rfl, fun _ => ⟨x, rfl, ?_, rfl, rfl⟩, by omega, by omega, by omega⟩
        unfold parseRtpSingle at hx
        obtain ⟨a, c, ha, hx⟩ := Prog.bind_ok hx
        rw [hr] at ha; cases ha
        obtain ⟨⟨p, s1⟩, c2, hp, hx⟩ := Prog.bind_ok hx
        cases hx; rfl
      · cases h
      · cases h
    rw [if_neg h1] at h
    by_cases h2 : b0.toNat / 2 % 64 = 48
    · rw [if_pos h2] at h
      unfold rtpApOut at h
      split at h
      · rename_i o s b hx
        cases o with
        | none => cases h
        | some x =>
          cases h
          refine ⟨rfl, by omega, fun _ => ⟨x, rfl, ?_, rfl, rfl⟩, by omega, by omega⟩
          unfold parseRtpAp at hx
          obtain ⟨a, c, ha, hx⟩ := Prog.bind_ok hx
          rw [Prog.run_attempt, hr] at ha; cases ha
          simp only [Prog.run] at hx
          obtain ⟨⟨p, s1⟩, c2, hp, hx⟩ := Prog.bind_ok hx
          cases p with
          | none => cases hx
          | some p => cases hx; rfl
      · cases h
      · cases h
    rw [if_neg h2] at h
    by_cases h3 : b0.toNat / 2 % 64 = 49
    · rw [if_pos h3] at h
      unfold rtpOut at h
      split at h
      · rename_i x s b hx
        cases h
        refine ⟨rfl, by omega, by omega, fun _ => ⟨x, rfl, ?_, rfl, rfl⟩, by omega⟩
        unfold parseRtpFu at hx
        obtain ⟨a, c, ha, hx⟩ := Prog.bind_ok hx
        rw [hr] at ha; cases ha
        obtain ⟨s1, c2, hp, hx⟩ := Prog.bind_ok hx
        obtain ⟨e1, c3, hp, hx⟩ := Prog.bind_ok hx
        obtain ⟨t1, c4, hp, hx⟩ := Prog.bind_ok hx
        split at hx
        · cases hx; rfl
        · obtain ⟨⟨p, s1⟩, c2, hp, hx⟩ := Prog.bind_ok hx
          cases hx; rfl
      · cases h
      · cases h
    rw [if_neg h3] at h
    cases h
    exact ⟨rfl, by omega, by omega, by omega, fun _ => ⟨rfl, rfl, rfl, rfl⟩⟩

/-- C37: a single NAL unit packet is parsed exactly like a NAL unit: same header, same payload, same effect on the parser state, same cases of null. -/
theorem C37_single {b0 b1 : UInt8} {data rest : List UInt8} (hu : unescapeRbsp data = .ok (b0 :: b1 :: rest)) (hlen : data.length < 2 ^ 32)
    (ht : b0.toNat / 2 % 64 ≤ 47) (st : ParserState) :
    parseRtp st data = match parseNalUnit false st data with
      | .ok (n, st') _ => .ok (some { nal_unit_header := n.nal_unit_header, rtp_single := some ⟨n.nal_unit_header, n.nal_unit_payload⟩ }, st')
      | .fail _ => .ok (none, st)
      | .bad k => .error k := by
  have hle := unesc_le hu
  rw [parseRtp_eq hu (by omega), parseRtpBB_eq, if_pos (show (headerOf b0 b1).nal_unit_type ≤ 47 from ht),
    parseNalUnit_eq false st data _ hu (by omega)]
  obtain ⟨bh, hr, hw⟩ := header_run b0 b1 rest
  unfold parseRtpSingle parseNalUnitParts
  rw [Prog.run_seq, Prog.run_seq, hr]
  simp only [Res.andThen]
  rw [Prog.run_seq, Prog.run_seq]
  cases (parseNalUnitPayload (headerOf b0 b1).nal_unit_type st).run bh with
  | ok x b => rfl
  | fail b => rfl
  | bad k => rfl

/-- C37: types 50..63 give the header and nothing else. -/
theorem C37_reserved {b0 b1 : UInt8} {data rest : List UInt8} (hu : unescapeRbsp data = .ok (b0 :: b1 :: rest)) (hlen : data.length < 2 ^ 32)
    (ht : 50 ≤ b0.toNat / 2 % 64) (st : ParserState) :
    parseRtp st data = .ok (some { nal_unit_header := ⟨b0.toNat / 128, b0.toNat / 2 % 64, b0.toNat % 2 * 32 + b1.toNat / 8, b1.toNat % 8⟩ }, st) := by
  have hle := unesc_le hu
  have h1 : (headerOf b0 b1).nal_unit_type = b0.toNat / 2 % 64 := rfl
  rw [parseRtp_eq hu (by omega), parseRtpBB_eq, h1, if_neg (by omega), if_neg (by omega), if_neg (by omega)]
  rfl

/-! ### C38: aggregation packets -/

/-- `ParseNalUnitPayload` for NAL unit type `t`, applied to the bits `r`, returns `p`, changes the state to `st'` and leaves the bits `r'` unread.
By C46 the position of these bits in a buffer does not matter. -/
def PayloadOn (t : Nat) (st : ParserState) (r : List Bool) (p : NalUnitPayload) (st' : ParserState) (r' : List Bool) : Prop :=
  ∃ b b' : BB, b.WF ∧ b.rem = r ∧ b'.rem = r' ∧ (parseNalUnitPayload t st).run b = .ok (p, st') b'

theorem PayloadOn.run {t : Nat} {st st' : ParserState} {r r' : List Bool} {p : NalUnitPayload} (h : PayloadOn t st r p st' r') {b : BB} (hw : b.WF)
    (hr : b.rem = r) : ∃ b', (parseNalUnitPayload t st).run b = .ok (p, st') b' ∧ b'.rem = r' := by
  obtain ⟨c, c', h1, h2, h3, h4⟩ := h
  obtain ⟨b', h5, h6⟩ := C46_ok h1 hw (h2.trans hr.symm) h4
  exact ⟨b', h5, h6.trans h3⟩

/-- The aggregated units in the bits `r`, parsed one after the other starting from state `st`: 16 bits of size, the two bytes of header, and the payload, which
goes on where its parser stops; the size announced is at most the number of bytes left after it. -/
inductive ApUnits : ParserState → List Bool → List RtpApUnit → ParserState → Prop
  | nil (st) : ApUnits st [] [] st
  | cons {st st1 st2 : ParserState} {size : Nat} {h : NalUnitHeader} {p : NalUnitPayload} {r r' : List Bool} {us : List RtpApUnit} :
      size < 2 ^ 16 → ValidNalUnitHeader h → 8 * size ≤ 16 + r.length → PayloadOn h.nal_unit_type st r p st1 r' → ApUnits st1 r' us st2 →
      ApUnits st (Spec.u 16 size ++ (Spec.nalUnitHeader h ++ r)) (⟨size, h, p⟩ :: us) st2

theorem nalUnitHeader_length (h : NalUnitHeader) : (Spec.nalUnitHeader h).length = 16 := by simp [Spec.nalUnitHeader, Spec.seq]

theorem apHead_ok {bb b1 : BB} {size : Nat} {h : NalUnitHeader} (hw : bb.WF) (hr : parseApHead.run bb = .ok (size, h) b1) :
    size < 2 ^ 16 ∧ ValidNalUnitHeader h ∧ b1.WF ∧ b1.bytes = bb.bytes ∧ bb.rem = Spec.u 16 size ++ (Spec.nalUnitHeader h ++ b1.rem) ∧
    8 * size ≤ 16 + b1.rem.length := by
  unfold parseApHead at hr
  obtain ⟨n, c1, h1, hr⟩ := Prog.bind_ok hr
  obtain ⟨hn, w1, e1, r1⟩ := (u_codec (by omega) (by omega)).inverts.sound _ _ _ hw h1
  obtain ⟨_, c2, h2, hr⟩ := Prog.bind_ok hr
  simp only [Prog.run, Prog.check] at h2
  rw [BB.remaining_eq w1] at h2
  split at h2
  · rename_i hc
    cases h2
    obtain ⟨h', c3, h3, hr⟩ := Prog.bind_ok hr
    cases hr
    obtain ⟨hv, w2, e2, r2⟩ := C19_header_inverts.sound _ _ _ w1 h3
    have := congrArg List.length r2
    rw [List.length_append, nalUnitHeader_length] at this
    exact ⟨hn, hv, w2, e2.trans e1, by rw [r1, r2], by omega⟩
  · cases h2

theorem apHead_complete {bb : BB} {size : Nat} {h : NalUnitHeader} {r : List Bool} (hw : bb.WF) (hs : size < 2 ^ 16) (hv : ValidNalUnitHeader h)
    (hr : bb.rem = Spec.u 16 size ++ (Spec.nalUnitHeader h ++ r)) (hl : 8 * size ≤ 16 + r.length) :
    ∃ b1, parseApHead.run bb = .ok (size, h) b1 ∧ b1.WF ∧ b1.rem = r := by
  obtain ⟨c1, h1, w1, e1, r1⟩ := (u_codec (H := Cond.any) (A := fun _ => False) (n := 16) (by omega) (by omega)).inverts.complete bb size _ hw hs hr
  obtain ⟨c2, h2, w2, e2, r2⟩ := C19_header_inverts.complete c1 h _ w1 hv r1
  refine ⟨c2, ?_, w2, r2⟩
  have hc : size * 8 ≤ c1.remaining := by rw [BB.remaining_eq w1, r1, List.length_append, nalUnitHeader_length]; omega
  have hchk : (Prog.remaining fun r => Prog.check (size * 8 ≤ r)).run c1 = .ok () c1 := by
    simp only [Prog.run, Prog.check]
    rw [if_pos hc]
    rfl
  unfold parseApHead
  rw [Prog.run_seq, h1]
  simp only [Res.andThen]
  rw [Prog.run_seq, hchk]
  simp only [Res.andThen]
  rw [Prog.run_seq, h2]
  rfl

theorem apHead_safe {bb : BB} {k : Bad} (hw : bb.WF) : parseApHead.run bb ≠ .bad k := by
  intro hr
  unfold parseApHead at hr
  rcases Prog.bind_bad hr with h1 | ⟨n, c1, h1, hr⟩
  · exact (u_codec (H := Cond.any) (A := fun _ => False) (n := 16) (by omega) (by omega)).inverts.safe _ _ hw h1
  obtain ⟨_, w1, _, _⟩ := (u_codec (H := Cond.any) (A := fun _ => False) (by omega) (by omega)).inverts.sound _ _ _ hw h1
  rcases Prog.bind_bad hr with h2 | ⟨_, c2, h2, hr⟩
  · simp only [Prog.run, Prog.check] at h2
    split at h2 <;> cases h2
  simp only [Prog.run, Prog.check] at h2
  split at h2
  · cases h2
    rcases Prog.bind_bad hr with h3 | ⟨_, c3, h3, hr⟩
    · exact C19_header_inverts.safe _ _ w1 h3
    · cases hr
  · cases h2

theorem rem_nil {bb : BB} (hw : bb.WF) (h : bb.remaining = 0) : bb.rem = [] := by
  rw [BB.remaining_eq hw] at h; exact List.length_eq_zero_iff.mp h

theorem apLoop_sound : ∀ (fuel : Nat) (st st' : ParserState) (bb bb' : BB) (us : List RtpApUnit), bb.WF →
    (apLoop fuel st).run bb = .ok (some us, st') bb' → ApUnits st bb.rem us st' ∧ bb'.rem = []
  | 0, st, st', bb, bb', us, hw, h => by cases h
  | fuel + 1, st, st', bb, bb', us, hw, h => by
    simp only [apLoop, Prog.run] at h
    split at h
    · rename_i h0
      cases h
      have := rem_nil hw h0
      rw [this]
      exact ⟨.nil _, rfl⟩
    · obtain ⟨o, c1, h1, h⟩ := Prog.bind_ok h
      rw [Prog.run_attempt] at h1
      split at h1
      · rename_i x c hx
        cases h1
        obtain ⟨size, hd⟩ := x
        obtain ⟨hs, hv, w1, _, r1, hl⟩ := apHead_ok hw hx
        obtain ⟨⟨p, st1⟩, c2, h2, h⟩ := Prog.bind_ok h
        obtain ⟨⟨o, st2⟩, c3, h3, h⟩ := Prog.bind_ok h
        cases o with
        | none => cases h
        | some us' =>
          cases h
          obtain ⟨h4, h5⟩ := apLoop_sound fuel st1 _ c2 _ us' (run_ok_wf w1 h2).1 h3
          rw [r1]
          exact ⟨.cons hs hv hl ⟨_, _, w1, rfl, rfl, h2⟩ h4, h5⟩
      · cases h1; cases h
      · cases h1

theorem apLoop_complete : ∀ (fuel : Nat) (st st' : ParserState) (bb : BB) (us : List RtpApUnit), bb.WF → bb.rem.length < fuel →
    ApUnits st bb.rem us st' → ∃ bb', (apLoop fuel st).run bb = .ok (some us, st') bb'
  | 0, st, st', bb, us, hw, hf, h => by omega
  | fuel + 1, st, st', bb, us, hw, hf, h => by
    generalize hrr : bb.rem = rr at h
    cases h with
    | nil =>
      refine ⟨bb, ?_⟩
      simp only [apLoop, Prog.run]
      rw [if_pos (by rw [BB.remaining_eq hw, hrr]; rfl)]
      rfl
    | @cons st st1 st2 size hd p r r' us hs hv hl hp hu =>
      obtain ⟨b1, h1, w1, r1⟩ := apHead_complete hw hs hv hrr hl
      obtain ⟨b2, h2, r2⟩ := hp.run w1 r1
      have hlen := congrArg List.length hrr
      rw [List.length_append, List.length_append, nalUnitHeader_length] at hlen
      have := Prog.run_forward w1 h2
      rw [r1] at this
      rw [← r2] at hu
      obtain ⟨b3, h3⟩ := apLoop_complete fuel st1 st' b2 us (run_ok_wf w1 h2).1 (by simp at hlen; omega) hu
      refine ⟨b3, ?_⟩
      simp only [apLoop, Prog.run]
      rw [if_neg (by rw [BB.remaining_eq hw]; omega)]
      have ha : parseApHead.attempt.run bb = .ok (some (size, hd)) b1 := by rw [Prog.run_attempt, h1]
      rw [Prog.bind_of_ok ha]
      simp only
      rw [Prog.bind_of_ok h2]
      simp only
      rw [Prog.bind_of_ok h3]
      rfl

/-- C38: an aggregation packet is returned with exactly the units that follow one another in the packet up to its last bit: the sizes announced, the
headers, and the payloads in order, each parsed with the state left by the one before. -/
theorem C38_sound {st st' : ParserState} {bb bb' : BB} {ap : RtpAp} (hw : bb.WF) (h : (parseRtpAp st).run bb = .ok (some ap, st') bb') :
    ∃ rest, bb.rem = Spec.nalUnitHeader ap.header ++ rest ∧ ValidNalUnitHeader ap.header ∧ ApUnits st rest ap.units st' := by
  unfold parseRtpAp at h
  obtain ⟨o, c1, h1, h⟩ := Prog.bind_ok h
  rw [Prog.run_attempt] at h1
  split at h1
  · rename_i x c hx
    cases h1
    obtain ⟨hv, w1, _, r1⟩ := C19_header_inverts.sound _ _ _ hw hx
    simp only [Prog.run] at h
    obtain ⟨⟨o, s2⟩, c2, h2, h⟩ := Prog.bind_ok h
    cases o with
    | none => cases h
    | some us =>
      cases h
      exact ⟨c1.rem, r1, hv, (apLoop_sound _ _ _ _ _ _ w1 h2).1⟩
  · cases h1; cases h
  · cases h1

theorem C38_complete {st st' : ParserState} {bb : BB} {hd : NalUnitHeader} {us : List RtpApUnit} {rest : List Bool} (hw : bb.WF)
    (hr : bb.rem = Spec.nalUnitHeader hd ++ rest) (hv : ValidNalUnitHeader hd) (hu : ApUnits st rest us st') :
    ∃ bb', (parseRtpAp st).run bb = .ok (some ⟨hd, us⟩, st') bb' := by
  obtain ⟨c1, h1, w1, _, r1⟩ := C19_header_inverts.complete bb hd rest hw hv hr
  obtain ⟨c2, h2⟩ := apLoop_complete (c1.remaining + 1) st st' c1 us w1 (by rw [BB.remaining_eq w1]; omega) (by rw [r1]; exact hu)
  refine ⟨c2, ?_⟩
  unfold parseRtpAp
  have ha : parseNalUnitHeader.attempt.run bb = .ok (some hd) c1 := by rw [Prog.run_attempt, h1]
  rw [Prog.bind_of_ok ha]
  simp only [Prog.run]
  rw [Prog.bind_of_ok h2]
  rfl

/-- C38: the packet as a whole, when it is returned. -/
theorem C38_packet_sound {b0 b1 : UInt8} {data rest : List UInt8} (hu : unescapeRbsp data = .ok (b0 :: b1 :: rest)) (hlen : data.length < 2 ^ 32)
    (ht : b0.toNat / 2 % 64 = 48) {st st' : ParserState} {r : Rtp} (h : parseRtp st data = .ok (some r, st')) :
    ∃ ap, r.rtp_ap = some ap ∧ ApUnits st (bitsOf rest) ap.units st' := by
  have hle := unesc_le hu
  have h1 : (headerOf b0 b1).nal_unit_type = b0.toNat / 2 % 64 := rfl
  rw [parseRtp_eq hu (by omega), parseRtpBB_eq, h1, if_neg (by omega), if_pos ht] at h
  unfold rtpApOut at h
  split at h
  · rename_i o s b hx
    cases o with
    | none => cases h
    | some x =>
      cases h
      refine ⟨x, rfl, ?_⟩
      obtain ⟨rest', h2, h3, h4⟩ := C38_sound (BB.WF.init _) hx
      rw [BB.rem_init, bitsOf_cons, bitsOf_cons, ← List.append_assoc] at h2
      have := (List.append_inj h2 (by rw [nalUnitHeader_length]; simp)).2
      rw [this]; exact h4
  · cases h
  · cases h

/-- C38: the packet as a whole: whenever its bytes after the header are aggregated units, these are what is returned. -/
theorem C38_packet_complete {b0 b1 : UInt8} {data rest : List UInt8} (hu : unescapeRbsp data = .ok (b0 :: b1 :: rest)) (hlen : data.length < 2 ^ 32)
    (ht : b0.toNat / 2 % 64 = 48) {st st' : ParserState} {us : List RtpApUnit} (h : ApUnits st (bitsOf rest) us st') :
    parseRtp st data = .ok (some { nal_unit_header := headerOf b0 b1, rtp_ap := some ⟨headerOf b0 b1, us⟩ }, st') := by
  have hle := unesc_le hu
  have h1 : (headerOf b0 b1).nal_unit_type = b0.toNat / 2 % 64 := rfl
  rw [parseRtp_eq hu (by omega), parseRtpBB_eq, h1, if_neg (by omega), if_pos ht]
  have h0 : b0.toNat < 256 := UInt8.toNat_lt b0
  have h1 : b1.toNat < 256 := UInt8.toNat_lt b1
  obtain ⟨b, hb⟩ := C38_complete (BB.WF.init (b0 :: b1 :: rest)) (hd := headerOf b0 b1)
    (by rw [BB.rem_init, bitsOf_cons, bitsOf_cons, ← List.append_assoc, header_bits]; rfl)
    ⟨by simp only [headerOf]; omega, by simp only [headerOf]; omega, by simp only [headerOf]; omega, by simp only [headerOf]; omega⟩ h
  rw [hb]
  rfl

/-- The payload parser stops exactly at the end of the payload bytes `body`, whatever bytes follow. -/
def SelfDelimiting (t : Nat) (st : ParserState) (body : List UInt8) (p : NalUnitPayload) (st' : ParserState) : Prop :=
  ∀ more : List UInt8, PayloadOn t st (bitsOf body ++ bitsOf more) p st' (bitsOf more)

/-- NAL units (without emulation prevention) whose payload parsers stop exactly at their ends, parsed one after the other: `us` are their sizes, headers and payloads. -/
inductive WholeUnits : ParserState → List (List UInt8) → List RtpApUnit → ParserState → Prop
  | nil (st) : WholeUnits st [] [] st
  | cons {st st1 st2 : ParserState} {b0 b1 : UInt8} {body : List UInt8} {p : NalUnitPayload} {nals : List (List UInt8)} {us : List RtpApUnit} :
      2 + body.length < 2 ^ 16 → SelfDelimiting (b0.toNat / 2 % 64) st body p st1 → WholeUnits st1 nals us st2 →
      WholeUnits st ((b0 :: b1 :: body) :: nals) (⟨2 + body.length, headerOf b0 b1, p⟩ :: us) st2

theorem bits_be16 (v : Nat) (h : v < 2 ^ 16) : bitsOf (beBytes 2 v) = Spec.u 16 v := by
  apply val_inj
  · rw [bitsOf_length, beBytes_length, u_length]
  · rw [val_beBytes, val_u_of_lt h, Nat.mod_eq_of_lt h]

theorem validHeaderOf (b0 b1 : UInt8) : ValidNalUnitHeader (headerOf b0 b1) := by
  have h0 : b0.toNat < 256 := UInt8.toNat_lt b0
  have h1 : b1.toNat < 256 := UInt8.toNat_lt b1
  exact ⟨by simp only [headerOf]; omega, by simp only [headerOf]; omega, by simp only [headerOf]; omega, by simp only [headerOf]; omega⟩

theorem WholeUnits.apUnits {st st' : ParserState} {nals : List (List UInt8)} {us : List RtpApUnit} (h : WholeUnits st nals us st') :
    ApUnits st (bitsOf (lengthPrefixed 2 nals)) us st' := by
  induction h with
  | nil st => exact .nil st
  | @cons st st1 st2 b0 b1 body p nals us hl hd _ ih =>
    have e : bitsOf (lengthPrefixed 2 ((b0 :: b1 :: body) :: nals)) =
        Spec.u 16 (2 + body.length) ++ (Spec.nalUnitHeader (headerOf b0 b1) ++ (bitsOf body ++ bitsOf (lengthPrefixed 2 nals))) := by
      simp only [lengthPrefixed, List.map_cons, List.flatten_cons, bitsOf_append, List.length_cons]
      rw [show body.length + 1 + 1 = 2 + body.length by omega, bits_be16 _ hl, bitsOf_cons, bitsOf_cons, ← List.append_assoc (byteBits b0), header_bits,
        ← headerOf]
      simp only [List.append_assoc]
    rw [e]
    exact .cons hl (validHeaderOf b0 b1) (by rw [List.length_append, bitsOf_length]; omega) (hd _) ih

/-- C38: an aggregation packet made of such NAL units (each preceded by its size in two bytes, RFC 7798 section 4.4.2) is returned with exactly these units.
The condition on the packet says that, after removal of the emulation prevention bytes of the packet as a whole, the sizes are those of the units. -/
theorem C38_whole_units {b0 b1 : UInt8} {data : List UInt8} {nals : List (List UInt8)} (hu : unescapeRbsp data = .ok (b0 :: b1 :: lengthPrefixed 2 nals))
    (hlen : data.length < 2 ^ 32) (ht : b0.toNat / 2 % 64 = 48) {st st' : ParserState} {us : List RtpApUnit} (h : WholeUnits st nals us st') :
    parseRtp st data = .ok (some { nal_unit_header := headerOf b0 b1, rtp_ap := some ⟨headerOf b0 b1, us⟩ }, st') :=
  C38_packet_complete hu hlen ht h.apUnits

/-- C38: parameter sets without extension data, with their trailing bits, are such units. -/
theorem C38_vps_delimited (st : ParserState) (body : List UInt8) (x : VpsBody) (k : Nat) (hx : ValidVpsBody x) (hk : k ≤ 7) (he : x.vps_extension_flag = 0)
    (hb : bitsOf body = Spec.vpsBody x ++ true :: List.replicate k false) :
    ∃ v, v.body = x ∧ SelfDelimiting 32 st body { vps := some v } { st with vps := mapSet st.vps x.vps_video_parameter_set_id v } := by
  refine ⟨⟨x, 0⟩, rfl, fun more => ?_⟩
  have hw : (BB.init (body ++ more)).WF := BB.WF.init _
  have hr : (BB.init (body ++ more)).rem = bitsOf body ++ bitsOf more := by rw [BB.rem_init, bitsOf_append]
  obtain ⟨v, b2, h1, h2, h3, h4⟩ := C28_vps_inverts.delimited _ x k (bitsOf more) hw hx hk he (by rw [bitsOf_length]; omega) (by rw [hr, hb, List.append_assoc])
  obtain ⟨y, d⟩ := v
  simp only at h2 h3
  subst h2 h3
  refine ⟨_, b2, hw, hr, h4, ?_⟩
  rw [parseNalUnitPayload_eq, if_neg (by unfold sliceType; omega), if_pos rfl, Prog.run_bind, Prog.run_attempt, h1]; rfl

theorem C38_sps_delimited (st : ParserState) (body : List UInt8) (x : SpsBody) (k : Nat) (hx : ValidSpsBody x) (hk : k ≤ 7) (he : x.sps_extension_4bits = 0)
    (hb : bitsOf body = Spec.spsBody x ++ true :: List.replicate k false) :
    ∃ v, v.body = x ∧ SelfDelimiting 33 st body { sps := some v } { st with sps := mapSet st.sps x.sps_seq_parameter_set_id v } := by
  refine ⟨⟨x, 0⟩, rfl, fun more => ?_⟩
  have hw : (BB.init (body ++ more)).WF := BB.WF.init _
  have hr : (BB.init (body ++ more)).rem = bitsOf body ++ bitsOf more := by rw [BB.rem_init, bitsOf_append]
  obtain ⟨v, b2, h1, h2, h3, h4⟩ := C27_sps_inverts.delimited _ x k (bitsOf more) hw hx hk he (by rw [bitsOf_length]; omega) (by rw [hr, hb, List.append_assoc])
  obtain ⟨y, d⟩ := v
  simp only at h2 h3
  subst h2 h3
  refine ⟨_, b2, hw, hr, h4, ?_⟩
  rw [parseNalUnitPayload_eq, if_neg (by unfold sliceType; omega), if_neg (by decide), if_pos rfl, Prog.run_bind, Prog.run_attempt, h1]; rfl

theorem C38_pps_delimited (st : ParserState) (body : List UInt8) (x : PpsBody) (k : Nat) (hx : ValidPpsBody x) (hk : k ≤ 7)
    (he : x.head.pps_extension_4bits = 0) (hb : bitsOf body = Spec.ppsBody x ++ true :: List.replicate k false) :
    ∃ v, v.body = x ∧ SelfDelimiting 34 st body { pps := some v } { st with pps := mapSet st.pps x.head.pps_pic_parameter_set_id v } := by
  refine ⟨⟨x, 0⟩, rfl, fun more => ?_⟩
  have hw : (BB.init (body ++ more)).WF := BB.WF.init _
  have hr : (BB.init (body ++ more)).rem = bitsOf body ++ bitsOf more := by rw [BB.rem_init, bitsOf_append]
  obtain ⟨b2, h1, h4⟩ := C29_pps_delimited _ x k (bitsOf more) hw hx hk he (by rw [bitsOf_length]; omega) (by rw [hr, hb, List.append_assoc])
  refine ⟨_, b2, hw, hr, h4, ?_⟩
  rw [parseNalUnitPayload_eq, if_neg (by unfold sliceType; omega), if_neg (by decide), if_neg (by decide), if_pos rfl, Prog.run_bind, Prog.run_attempt, h1]; rfl

theorem C38_aud_delimited (st : ParserState) (x : Aud) (hx : ValidAud x) :
    SelfDelimiting 35 st [UInt8.ofNat (32 * x.pic_type + 16)] { aud := some x } st := by
  obtain ⟨t⟩ := x
  have ht : t < 8 := hx.pic_type
  intro more
  have hw : (BB.init (UInt8.ofNat (32 * t + 16) :: more)).WF := BB.WF.init _
  have e8 : byteBits (UInt8.ofNat (32 * t + 16)) = Spec.u 3 t ++ (true :: List.replicate 4 false) := by
    rcases (by omega : t = 0 ∨ t = 1 ∨ t = 2 ∨ t = 3 ∨ t = 4 ∨ t = 5 ∨ t = 6 ∨ t = 7) with h | h | h | h | h | h | h | h <;> subst h <;> decide
  have hr : (BB.init (UInt8.ofNat (32 * t + 16) :: more)).rem = bitsOf [UInt8.ofNat (32 * t + 16)] ++ bitsOf more := by
    rw [BB.rem_init, bitsOf_cons, bitsOf_cons]; simp [bitsOf]
  have hr2 : (BB.init (UInt8.ofNat (32 * t + 16) :: more)).rem = Spec.u 3 t ++ (true :: List.replicate 4 false ++ bitsOf more) := by
    rw [BB.rem_init, bitsOf_cons, e8, List.append_assoc]
  have hd : parseAud.denote (BB.init (UInt8.ofNat (32 * t + 16) :: more)).rem = .ok ⟨t⟩ (bitsOf more) := by
    unfold parseAud
    rw [hr2, Prog.denote_bind, (u_codec (H := Cond.any) (A := fun _ => False) (n := 3) (by omega) (by omega)).complete t ht, ARes.ok_bind, Prog.denote_bind,
      (trailingBits_denote _).1 4 (bitsOf more) (by omega) (by rw [bitsOf_length]; omega) rfl]
    rfl
  obtain ⟨b2, h1, _, _, h4⟩ := run_of_denote_ok hw hd
  refine ⟨_, b2, hw, hr, h4, ?_⟩
  rw [parseNalUnitPayload_eq, if_neg (by unfold sliceType; omega), if_neg (by decide), if_neg (by decide), if_neg (by decide), if_pos rfl, Prog.run_bind,
    Prog.run_attempt, h1]; rfl

/-! ### C39: fragmentation units -/

/-- C39: the header and the FU header are the first three bytes; a payload is there exactly for start fragments and is what the payload parser
returns for the type in the FU header. -/
theorem C39_sound {st st' : ParserState} {bb bb' : BB} {fu : RtpFu} (hw : bb.WF) (h : (parseRtpFu st).run bb = .ok (fu, st') bb') :
    ∃ rest, bb.rem = Spec.nalUnitHeader fu.header ++ (Spec.u 1 fu.s_bit ++ (Spec.u 1 fu.e_bit ++ (Spec.u 6 fu.fu_type ++ rest))) ∧
      ValidNalUnitHeader fu.header ∧ fu.s_bit < 2 ∧ fu.e_bit < 2 ∧ fu.fu_type < 64 ∧
      (fu.s_bit = 0 → fu.nal_unit_payload = none ∧ st' = st ∧ bb'.rem = rest) ∧
      (fu.s_bit = 1 → ∃ p, fu.nal_unit_payload = some p ∧ PayloadOn fu.fu_type st rest p st' bb'.rem) := by
  have hu : ∀ n, 0 < n → n ≤ 32 → Inverts (Prog.u n) (Spec.u n) (fun v => v < 2 ^ n) := fun n h0 h1 => (u_codec h0 h1).inverts
  unfold parseRtpFu at h
  obtain ⟨hd, c1, h1, h⟩ := Prog.bind_ok h
  obtain ⟨hv, w1, _, r1⟩ := C19_header_inverts.sound _ _ _ hw h1
  obtain ⟨s, c2, h2, h⟩ := Prog.bind_ok h
  obtain ⟨hs, w2, _, r2⟩ := (hu 1 (by omega) (by omega)).sound _ _ _ w1 h2
  obtain ⟨e, c3, h3, h⟩ := Prog.bind_ok h
  obtain ⟨he, w3, _, r3⟩ := (hu 1 (by omega) (by omega)).sound _ _ _ w2 h3
  obtain ⟨t, c4, h4, h⟩ := Prog.bind_ok h
  obtain ⟨ht, w4, _, r4⟩ := (hu 6 (by omega) (by omega)).sound _ _ _ w3 h4
  split at h
  · rename_i h0
    cases h
    exact ⟨_, by rw [r1, r2, r3, r4], hv, by simpa using hs, by simpa using he, by simpa using ht, fun _ => ⟨rfl, rfl, rfl⟩, fun h => by simp only at h; omega⟩
  · rename_i h0
    obtain ⟨⟨p, s1⟩, c5, h5, h⟩ := Prog.bind_ok h
    cases h
    exact ⟨_, by rw [r1, r2, r3, r4], hv, by simpa using hs, by simpa using he, by simpa using ht, fun h => absurd h h0, fun _ => ⟨p, rfl, _, _, w4, rfl, rfl, h5⟩⟩

theorem fu_bits (b2 : UInt8) : byteBits b2 = Spec.u 1 (b2.toNat / 128) ++ (Spec.u 1 (b2.toNat / 64 % 2) ++ Spec.u 6 (b2.toNat % 64)) := by
  have h0 : b2.toNat < 256 := UInt8.toNat_lt b2
  apply val_inj
  · simp
  · simp only [byteBits_eq_u, val_append, val_u, u_length, List.length_append]
    omega

/-- the fields of the FU header in the third byte (RFC 7798, section 4.4.3) -/
def fuOf (b0 b1 b2 : UInt8) (p : Option NalUnitPayload) : RtpFu := ⟨headerOf b0 b1, b2.toNat / 128, b2.toNat / 64 % 2, b2.toNat % 64, p⟩

theorem fu_run (st : ParserState) (b0 b1 b2 : UInt8) (rest : List UInt8) :
    ∃ c : BB, c.WF ∧ c.rem = bitsOf rest ∧ (parseRtpFu st).run (BB.init (b0 :: b1 :: b2 :: rest)) =
      if b2.toNat / 128 = 0 then .ok (fuOf b0 b1 b2 none, st) c
      else ((parseNalUnitPayload (b2.toNat % 64) st).run c).andThen fun x c' => .ok (fuOf b0 b1 b2 (some x.1), x.2) c' := by
  have hu : ∀ n, 0 < n → n ≤ 32 → Inverts (Prog.u n) (Spec.u n) (fun v => v < 2 ^ n) := fun n h0 h1 => (u_codec h0 h1).inverts
  have h2 : b2.toNat < 256 := UInt8.toNat_lt b2
  obtain ⟨c1, h1, w1, _, r1⟩ := header_run b0 b1 (b2 :: rest)
  rw [bitsOf_cons, fu_bits, List.append_assoc, List.append_assoc] at r1
  obtain ⟨c2, h2, w2, _, r2⟩ := (hu 1 (by omega) (by omega)).complete c1 (b2.toNat / 128) _ w1 (by omega) r1
  obtain ⟨c3, h3, w3, _, r3⟩ := (hu 1 (by omega) (by omega)).complete c2 (b2.toNat / 64 % 2) _ w2 (by omega) r2
  obtain ⟨c4, h4, w4, _, r4⟩ := (hu 6 (by omega) (by omega)).complete c3 (b2.toNat % 64) _ w3 (by omega) r3
  refine ⟨c4, w4, r4, ?_⟩
  unfold parseRtpFu
  rw [Prog.run_seq, h1]
  simp only [Res.andThen]
  rw [Prog.run_seq, h2]
  simp only [Res.andThen]
  rw [Prog.run_seq, h3]
  simp only [Res.andThen]
  rw [Prog.run_seq, h4]
  simp only [Res.andThen]
  split
  · rename_i h0; simp only [fuOf, h0]; rfl
  · rw [Prog.run_seq]
    cases (parseNalUnitPayload (b2.toNat % 64) st).run c4 <;> rfl

/-- C39: a fragmentation unit that is not a start fragment: the fields of the first three bytes, no payload, the parser state is not touched. -/
theorem C39_not_start {b0 b1 b2 : UInt8} {data rest : List UInt8} (hu : unescapeRbsp data = .ok (b0 :: b1 :: b2 :: rest)) (hlen : data.length < 2 ^ 32)
    (ht : b0.toNat / 2 % 64 = 49) (hs : b2.toNat < 128) (st : ParserState) :
    parseRtp st data = .ok (some { nal_unit_header := headerOf b0 b1, rtp_fu := some { header := headerOf b0 b1, s_bit := 0, e_bit := b2.toNat / 64 % 2, fu_type := b2.toNat % 64, nal_unit_payload := none } }, st) := by
  have hle := unesc_le hu
  have h1 : (headerOf b0 b1).nal_unit_type = b0.toNat / 2 % 64 := rfl
  rw [parseRtp_eq hu (by omega), parseRtpBB_eq, h1, if_neg (by omega), if_neg (by omega), if_pos ht]
  obtain ⟨c, _, _, hr⟩ := fu_run st b0 b1 b2 rest
  have h0 : b2.toNat / 128 = 0 := by omega
  rw [hr, if_pos h0]
  simp only [rtpOut, fuOf, h0]

/-- C39: without the FU header there is no result. -/
theorem C39_short {b0 b1 : UInt8} {data : List UInt8} (hu : unescapeRbsp data = .ok [b0, b1]) (hlen : data.length < 2 ^ 32)
    (ht : b0.toNat / 2 % 64 = 49) (st : ParserState) : parseRtp st data = .ok (none, st) := by
  have hle := unesc_le hu
  have h1 : (headerOf b0 b1).nal_unit_type = b0.toNat / 2 % 64 := rfl
  rw [parseRtp_eq hu (by omega), parseRtpBB_eq, h1, if_neg (by omega), if_neg (by omega), if_pos ht]
  cases hr : (parseRtpFu st).run (BB.init [b0, b1]) with
  | fail b => rfl
  | ok x b =>
    exfalso
    obtain ⟨fu, s⟩ := x
    obtain ⟨rest, h2, _⟩ := C39_sound (BB.WF.init _) hr
    have := congrArg List.length h2
    rw [BB.rem_init, List.length_append, nalUnitHeader_length] at this
    simp at this
  | bad k =>
    exfalso
    obtain ⟨c1, h1, w1, _, r1⟩ := header_run b0 b1 []
    unfold parseRtpFu at hr
    rw [Prog.run_seq, h1] at hr
    simp only [Res.andThen] at hr
    rw [Prog.run_seq] at hr
    cases h2 : (Prog.u 1).run c1 with
    | fail b => rw [h2] at hr; cases hr
    | bad k => exact (u_codec (H := Cond.any) (A := fun _ => False) (n := 1) (by omega) (by omega)).inverts.safe _ _ w1 h2
    | ok v b =>
      obtain ⟨_, _, _, r2⟩ := (u_codec (H := Cond.any) (A := fun _ => False) (n := 1) (by omega) (by omega)).inverts.sound _ _ _ w1 h2
      rw [r1] at r2
      have := congrArg List.length r2
      simp [bitsOf] at this
      omega

/-- The first two bytes of the fragmented NAL unit: the payload header with the type of the FU header (RFC 7798, section 4.4.3). -/
def nalByte0 (b0 b2 : UInt8) : UInt8 := UInt8.ofNat (b0.toNat / 128 * 128 + b2.toNat % 64 * 2 + b0.toNat % 2)

theorem nalByte0_toNat (b0 b2 : UInt8) : (nalByte0 b0 b2).toNat = b0.toNat / 128 * 128 + b2.toNat % 64 * 2 + b0.toNat % 2 := by
  have h0 : b0.toNat < 256 := UInt8.toNat_lt b0
  unfold nalByte0
  rw [UInt8.toNat_ofNat']
  omega

/-- C39: a start fragment gives the payload that parsing the NAL unit itself gives, as far as the fragment has it: the result (payload, parser state, or
undefined behaviour) is that of `ParseNalUnit` on the NAL unit header followed by the bytes of the fragment. -/
theorem C39_start {b0 b1 b2 : UInt8} {frag : List UInt8} (hlen : frag.length + 3 < 2 ^ 32) (ht : b0.toNat / 2 % 64 = 49) (h1 : b1 ≠ 0)
    (hs : 128 ≤ b2.toNat) (st : ParserState) :
    parseRtp st (b0 :: b1 :: b2 :: frag) =
      match parseNalUnit false st (nalByte0 b0 b2 :: b1 :: frag) with
      | .ok (n, st') _ => .ok (some { nal_unit_header := headerOf b0 b1, rtp_fu := some { header := headerOf b0 b1, s_bit := 1, e_bit := b2.toNat / 64 % 2, fu_type := b2.toNat % 64, nal_unit_payload := some n.nal_unit_payload } }, st')
      | .fail _ => .ok (none, st)
      | .bad k => .error k := by
  have h0 : b0.toNat < 256 := UInt8.toNat_lt b0
  have h2 : b2.toNat < 256 := UInt8.toNat_lt b2
  have hb2 : b2 ≠ 0 := by intro h; subst h; simp at hs
  have hu : unescapeRbsp (b0 :: b1 :: b2 :: frag) = .ok (b0 :: b1 :: b2 :: unesc frag) := by
    rw [unescapeRbsp_eq, unesc_cons b0 _ (by rintro ⟨r, h⟩; simp at h; exact h1 h.2.1), unesc_nz h1, unesc_nz hb2]
  have hu' : ∀ x : UInt8, unescapeRbsp (x :: b1 :: frag) = .ok (x :: b1 :: unesc frag) := by
    intro x
    rw [unescapeRbsp_eq, unesc_cons x _ (by rintro ⟨r, h⟩; simp at h; exact h1 h.2.1), unesc_nz h1]
  have hle := unesc_le hu
  have hle' := unesc_le (hu' (nalByte0 b0 b2))
  simp only [List.length_cons] at hle hle'
  have hty : (headerOf b0 b1).nal_unit_type = b0.toNat / 2 % 64 := rfl
  rw [parseRtp_eq hu (by simp only [List.length_cons]; omega), parseRtpBB_eq, hty, if_neg (by omega), if_neg (by omega), if_pos ht,
    parseNalUnit_eq false st _ _ (hu' _) (by simp only [List.length_cons]; omega)]
  obtain ⟨c, wc, rc, hr⟩ := fu_run st b0 b1 b2 (unesc frag)
  rw [hr, if_neg (by omega)]
  obtain ⟨c1, g1, w1, _, r1⟩ := header_run (nalByte0 b0 b2) b1 (unesc frag)
  have ht1 : (headerOf (nalByte0 b0 b2) b1).nal_unit_type = b2.toNat % 64 := by
    simp only [headerOf, nalByte0_toNat]; omega
  have h3 : b2.toNat / 128 = 1 := by omega
  unfold parseNalUnitParts
  rw [Prog.run_seq, g1]
  simp only [Res.andThen]
  rw [Prog.run_seq, ht1]
  have hsame := C46_position_independent (parseNalUnitPayload (b2.toNat % 64) st) wc w1 (rc.trans r1.symm)
  revert hsame
  cases (parseNalUnitPayload (b2.toNat % 64) st).run c <;> cases (parseNalUnitPayload (b2.toNat % 64) st).run c1 <;> intro hsame
  all_goals first
    | exact hsame.elim
    | skip
  · obtain ⟨rfl, _⟩ := hsame
    simp only [rtpOut, fuOf, h3]
    rfl
  · rfl
  · cases hsame; rfl

/-! ### any packet, any history -/

theorem apLoop_steps : ∀ (fuel : Nat) (st st' : ParserState) (bb bb' : BB) (o : Option (List RtpApUnit)), bb.WF →
    (apLoop fuel st).run bb = .ok (o, st') bb' → ∃ ps, Steps st ps st'
  | 0, st, st', bb, bb', o, hw, h => by cases h
  | fuel + 1, st, st', bb, bb', o, hw, h => by
    simp only [apLoop, Prog.run] at h
    split at h
    · cases h; exact ⟨_, .nil _⟩
    · obtain ⟨o1, c1, h1, h⟩ := Prog.bind_ok h
      rw [Prog.run_attempt] at h1
      split at h1
      · rename_i x c hx
        cases h1
        obtain ⟨size, hd⟩ := x
        have w1 := (run_ok_wf hw hx).1
        obtain ⟨⟨p, st1⟩, c2, h2, h⟩ := Prog.bind_ok h
        obtain ⟨⟨o2, st2⟩, c3, h3, h⟩ := Prog.bind_ok h
        cases h
        obtain ⟨ps, hp⟩ := apLoop_steps fuel st1 _ c2 _ o2 (run_ok_wf w1 h2).1 h3
        exact ⟨_, .cons w1 h2 hp⟩
      · cases h1; cases h; exact ⟨_, .nil _⟩
      · cases h1

theorem apLoop_safe_for {A : Bad → Prop} : ∀ (fuel : Nat) (st : ParserState) (bb : BB) (k : Bad), bb.WF → bb.rem.length < fuel → UsableFor A st →
    (apLoop fuel st).run bb = .bad k → A k
  | 0, st, bb, k, hw, hf, hs, h => by omega
  | fuel + 1, st, bb, k, hw, hf, hs, h => by
    simp only [apLoop, Prog.run] at h
    split at h
    · cases h
    · rcases Prog.bind_bad h with h1 | ⟨o1, c1, h1, h⟩
      · rw [Prog.run_attempt] at h1
        split at h1
        · cases h1
        · cases h1
        · rename_i k' hk; exact absurd hk (apHead_safe hw)
      rw [Prog.run_attempt] at h1
      split at h1
      · rename_i x c hx
        cases h1
        obtain ⟨size, hd⟩ := x
        obtain ⟨_, _, w1, _, r1, _⟩ := apHead_ok hw hx
        have hl := congrArg List.length r1
        simp only [List.length_append, nalUnitHeader_length, u_length] at hl
        rcases Prog.bind_bad h with h2 | ⟨⟨p, st1⟩, c2, h2, h⟩
        · exact payload_safe_for hs w1 h2
        have := Prog.run_forward w1 h2
        rcases Prog.bind_bad h with h3 | ⟨⟨o2, st2⟩, c3, h3, h⟩
        · exact apLoop_safe_for fuel st1 c2 k (run_ok_wf w1 h2).1 (by omega) (hs.step (.cons w1 h2 (.nil _))) h3
        · cases h
      · cases h1; cases h
      · cases h1

theorem rtpAp_steps {st st' : ParserState} {bb bb' : BB} {o : Option RtpAp} (hw : bb.WF) (h : (parseRtpAp st).run bb = .ok (o, st') bb') :
    ∃ ps, Steps st ps st' := by
  unfold parseRtpAp at h
  obtain ⟨o1, c1, h1, h⟩ := Prog.bind_ok h
  rw [Prog.run_attempt] at h1
  split at h1
  · rename_i x c hx
    cases h1
    simp only [Prog.run] at h
    obtain ⟨⟨o, s2⟩, c2, h2, h⟩ := Prog.bind_ok h
    cases h
    exact apLoop_steps _ _ _ _ _ _ (run_ok_wf hw hx).1 h2
  · cases h1; cases h; exact ⟨_, .nil _⟩
  · cases h1

theorem rtpAp_safe_for {A : Bad → Prop} {st : ParserState} {bb : BB} {k : Bad} (hs : UsableFor A st) (hw : bb.WF) (h : (parseRtpAp st).run bb = .bad k) : A k := by
  unfold parseRtpAp at h
  rcases Prog.bind_bad h with h1 | ⟨o1, c1, h1, h⟩
  · rw [Prog.run_attempt] at h1
    split at h1
    · cases h1
    · cases h1
    · rename_i k' hk; exact absurd hk (C19_header_inverts.safe _ _ hw)
  rw [Prog.run_attempt] at h1
  split at h1
  · rename_i x c hx
    cases h1
    have w1 := (run_ok_wf hw hx).1
    simp only [Prog.run] at h
    rcases Prog.bind_bad h with h2 | ⟨o2, c2, h2, h⟩
    · exact apLoop_safe_for _ _ _ _ w1 (by rw [BB.remaining_eq w1]; omega) hs h2
    · cases h
  · cases h1; cases h
  · cases h1

theorem rtpFu_steps {st st' : ParserState} {bb bb' : BB} {fu : RtpFu} (hw : bb.WF) (h : (parseRtpFu st).run bb = .ok (fu, st') bb') :
    ∃ ps, Steps st ps st' := by
  obtain ⟨rest, _, _, hs, _, _, h0, h1⟩ := C39_sound hw h
  by_cases hz : fu.s_bit = 0
  · rw [(h0 hz).2.1]; exact ⟨_, .nil _⟩
  · obtain ⟨p, _, b, b', hwb, _, _, hr⟩ := h1 (by omega)
    exact ⟨_, .cons hwb hr (.nil _)⟩

theorem rtpFu_safe_for {A : Bad → Prop} {st : ParserState} {bb : BB} {k : Bad} (hs : UsableFor A st) (hw : bb.WF) (h : (parseRtpFu st).run bb = .bad k) : A k := by
  have hu : ∀ n, 0 < n → n ≤ 32 → Inverts (Prog.u n) (Spec.u n) (fun v => v < 2 ^ n) := fun n h0 h1 => (u_codec h0 h1).inverts
  unfold parseRtpFu at h
  rcases Prog.bind_bad h with h1 | ⟨o1, c1, h1, h⟩
  · exact absurd h1 (C19_header_inverts.safe _ _ hw)
  have w1 := (run_ok_wf hw h1).1
  rcases Prog.bind_bad h with h1 | ⟨o2, c2, h1, h⟩
  · exact absurd h1 ((hu 1 (by omega) (by omega)).safe _ _ w1)
  have w2 := (run_ok_wf w1 h1).1
  rcases Prog.bind_bad h with h1 | ⟨o3, c3, h1, h⟩
  · exact absurd h1 ((hu 1 (by omega) (by omega)).safe _ _ w2)
  have w3 := (run_ok_wf w2 h1).1
  rcases Prog.bind_bad h with h1 | ⟨o4, c4, h1, h⟩
  · exact absurd h1 ((hu 6 (by omega) (by omega)).safe _ _ w3)
  have w4 := (run_ok_wf w3 h1).1
  split at h
  · cases h
  · rcases Prog.bind_bad h with h1 | ⟨o5, c5, h1, h⟩
    · exact payload_safe_for hs w4 h1
    · cases h

theorem rtpSingle_parts {st st' : ParserState} {bb bb' : BB} {x : RtpSingle} (hw : bb.WF) (h : (parseRtpSingle st).run bb = .ok (x, st') bb') :
    ∃ ps, Steps st ps st' := by
  unfold parseRtpSingle at h
  obtain ⟨o1, c1, h1, h⟩ := Prog.bind_ok h
  obtain ⟨⟨p, s1⟩, c2, h2, h⟩ := Prog.bind_ok h
  cases h
  exact ⟨_, .cons (run_ok_wf hw h1).1 h2 (.nil _)⟩

theorem rtpSingle_safe_for {A : Bad → Prop} {st : ParserState} {bb : BB} {k : Bad} (hs : UsableFor A st) (hw : bb.WF) (h : (parseRtpSingle st).run bb = .bad k) : A k := by
  unfold parseRtpSingle at h
  rcases Prog.bind_bad h with h1 | ⟨o1, c1, h1, h⟩
  · exact absurd h1 (C19_header_inverts.safe _ _ hw)
  rcases Prog.bind_bad h with h2 | ⟨o2, c2, h2, h⟩
  · exact payload_safe_for hs (run_ok_wf hw h1).1 h2
  · cases h

/-- C37, C21: an RTP packet changes the parser state only by the parameter sets parsed from it, one after the other; also when the result is null
(parameter sets of a rejected aggregation packet stay). -/
theorem C37_steps {st st' : ParserState} {data : List UInt8} {o : Option Rtp} (hlen : data.length < 2 ^ 32) (h : parseRtp st data = .ok (o, st')) :
    ∃ ps, Steps st ps st' := by
  obtain ⟨rbsp, hu, _⟩ := C11_unescape_bounds data
  have hle := unesc_le hu
  rw [parseRtp_eq hu (by omega)] at h
  match rbsp, hu with
  | [], hu => obtain ⟨b, hb⟩ := header_run_short [] (by simp); unfold parseRtpBB at h; rw [hb] at h; cases h; exact ⟨_, .nil _⟩
  | [x], hu => obtain ⟨b, hb⟩ := header_run_short [x] (by simp); unfold parseRtpBB at h; rw [hb] at h; cases h; exact ⟨_, .nil _⟩
  | b0 :: b1 :: rest, hu =>
    rw [parseRtpBB_eq] at h
    have hw := BB.WF.init (b0 :: b1 :: rest)
    split at h
    · unfold rtpOut at h
      split at h
      · rename_i hx; cases h; exact rtpSingle_parts hw hx
      · cases h; exact ⟨_, .nil _⟩
      · cases h
    split at h
    · unfold rtpApOut at h
      split at h
      · rename_i hx; cases h; exact rtpAp_steps hw hx
      · cases h; exact ⟨_, .nil _⟩
      · cases h
    split at h
    · unfold rtpOut at h
      split at h
      · rename_i hx; cases h; exact rtpFu_steps hw hx
      · cases h; exact ⟨_, .nil _⟩
      · cases h
    · cases h; exact ⟨_, .nil _⟩

theorem rtp_safe_for {A : Bad → Prop} {st : ParserState} {data : List UInt8} {k : Bad} (hs : UsableFor A st) (hlen : data.length < 2 ^ 32) (h : parseRtp st data = .error k) :
    A k := by
  obtain ⟨rbsp, hu, _⟩ := C11_unescape_bounds data
  have hle := unesc_le hu
  rw [parseRtp_eq hu (by omega)] at h
  match rbsp, hu with
  | [], hu => obtain ⟨b, hb⟩ := header_run_short [] (by simp); unfold parseRtpBB at h; rw [hb] at h; cases h
  | [x], hu => obtain ⟨b, hb⟩ := header_run_short [x] (by simp); unfold parseRtpBB at h; rw [hb] at h; cases h
  | b0 :: b1 :: rest, hu =>
    rw [parseRtpBB_eq] at h
    have hw := BB.WF.init (b0 :: b1 :: rest)
    split at h
    · unfold rtpOut at h
      split at h
      · cases h
      · cases h
      · rename_i hx; cases h; exact rtpSingle_safe_for hs hw hx
    split at h
    · unfold rtpApOut at h
      split at h
      · cases h
      · cases h
      · rename_i hx; cases h; exact rtpAp_safe_for hs hw hx
    split at h
    · unfold rtpOut at h
      split at h
      · cases h
      · cases h
      · rename_i hx; cases h; exact rtpFu_safe_for hs hw hx
    · cases h

/-- C44 for RTP: any packet, after any history: no undefined behaviour except possibly a signed 32-bit overflow, and the parser terminates. -/
theorem C44_rtp_safe {st : ParserState} {data : List UInt8} {k : Bad} (hs : Reach st) (hlen : data.length < 2 ^ 32) (h : parseRtp st data = .error k) :
    k = .signedOverflow :=
  rtp_safe_for (A := fun k => k = .signedOverflow) hs.usable hlen h

/-! ### examples -/

/-- VPS and PPS of h265_rtp_ap_parser_unittest.cc:26-42, and the SPS -/
def apVps : List UInt8 := [0x40, 0x01, 0x0c, 0x01, 0xff, 0xff, 0x01, 0x60, 0x00, 0x00, 0x03, 0x00, 0xb0, 0x00, 0x00, 0x03, 0x00, 0x00, 0x03, 0x00, 0x5d, 0xac, 0x09]
def apSps : List UInt8 := [0x42, 0x01, 0x01, 0x01, 0x60, 0x00, 0x00, 0x03, 0x00, 0xb0, 0x00, 0x00, 0x03, 0x00, 0x00, 0x03, 0x00, 0x5d, 0xa0, 0x02, 0x80, 0x80,
  0x2e, 0x1f, 0x13, 0x96, 0xbb, 0x93, 0x24, 0xba, 0x94, 0x82, 0x81, 0x01, 0x01, 0x76, 0x85, 0x09, 0x40]
def apPps : List UInt8 := [0x44, 0x01, 0xc0, 0xe2, 0x4f, 0x09, 0x41, 0xec, 0x10, 0x80]

/-- the returned object, and the state after the packet -/
def rtpIn (st : ParserState) (data : List UInt8) : Option Rtp := (parseRtp st data).toOption.bind (·.1)
def rtpState (st : ParserState) (data : List UInt8) : ParserState := match parseRtp st data with | .ok x => x.2 | .error _ => st

/-- the packet of the unit test -/
example : (rtpIn .empty ([0x60, 0x01] ++ lengthPrefixed 2 [apVps, apSps, apPps])).map (fun r => [r.rtp_single.isSome, r.rtp_fu.isSome]) = some [false, false] ∧
    ((rtpIn .empty ([0x60, 0x01] ++ lengthPrefixed 2 [apVps, apSps, apPps])).bind (·.rtp_ap)).map (fun a => a.units.map fun u =>
      (u.nal_unit_size, u.nal_unit_header.nal_unit_type, [u.nal_unit_payload.vps.isSome, u.nal_unit_payload.sps.isSome, u.nal_unit_payload.pps.isSome])) =
    some [(23, 32, [true, false, false]), (39, 33, [false, true, false]), (10, 34, [false, false, true])] := by decide +kernel

/-- C38, a limit of the code: the sizes in the packet count emulation prevention bytes, which are removed from the whole packet before the sizes are compared with what
is left; so a packet that ends in the SPS, whose last unit is three bytes shorter by then, is rejected.  The VPS parsed before stays in the parser state. -/
theorem C38_escaped_last_unit_rejected :
    ((parseRtp .empty ([0x60, 0x01] ++ lengthPrefixed 2 [apVps, apSps])).toOption.map fun x => (x.1.isSome, (x.2.vps 0).isSome)) = some (false, true) := by
  decide +kernel

/-- C38, another limit: the sizes do not limit the payload parsers, nor where the next unit begins: with a unit whose parser does not read to its end (here an AUD
with four bytes too many; slice data is never read) the rest is taken for the next unit. -/
theorem C38_sizes_not_enforced :
    ((rtpIn .empty ([0x60, 0x01] ++ lengthPrefixed 2 [[0x46, 0x01, 0x50, 0x00, 0x02, 0x4c, 0x01], [0x46, 0x01, 0x50]])).bind (·.rtp_ap)).map
      (fun a => a.units.map fun u => (u.nal_unit_size, u.nal_unit_header.nal_unit_type)) = some [(7, 35), (2, 38), (3, 35)] := by
  decide +kernel

/-- C39, hypotheses met: the FU of h265_rtp_parser_unittest.cc:126-129 is a start fragment -/
example : let b0 : UInt8 := 0x62; let b1 : UInt8 := 0x01; let b2 : UInt8 := 0x93
    b0.toNat / 2 % 64 = 49 ∧ b1 ≠ 0 ∧ 128 ≤ b2.toNat ∧ nalByte0 b0 b2 = 0x26 := by decide

def apFu : List UInt8 := [0x62, 0x01, 0x93, 0xaf, 0x0d, 0x70, 0xfd, 0xf4, 0x6e, 0xf0, 0x3c, 0x7e, 0x63, 0xc8, 0x15, 0xf5, 0xf7, 0x6e, 0x52, 0x0f, 0xd3, 0xb5, 0x44,
  0x61, 0x58, 0x24, 0x68, 0xe0]

example : ((rtpIn (rtpState .empty ([0x60, 0x01] ++ lengthPrefixed 2 [apVps, apSps, apPps])) apFu).bind (·.rtp_fu)).map
      (fun f => [f.s_bit, f.e_bit, f.fu_type]) = some [1, 0, 19] ∧
    (((rtpIn (rtpState .empty ([0x60, 0x01] ++ lengthPrefixed 2 [apVps, apSps, apPps])) apFu).bind (·.rtp_fu)).bind fun f =>
      f.nal_unit_payload.bind (·.slice_segment_layer)).map (fun s => s.body.slice_qp_delta) = some 13 := by decide +kernel

/-- C37, hypotheses met -/
example : unescapeRbsp [0x46, 0x01, 0x50] = .ok [0x46, 0x01, 0x50] := by rfl

end H265
