/-
C45: the size of what the parsers return is linear in the size of the input.
-/
import Verif.Proof.Size
import Verif.Props.Rtp
import Verif.Props.NalLength
import Verif.Props.ConfigBox

namespace H265
open Spec

/-! ### sizes of the objects of the API -/

instance : Size HvccHeader where
  size := fun ⟨a0, a1, a2, a3, a4, a5, a6, a7, a8, a9, a10, a11, a12, a13, a14, a15, a16, a17, a18, a19,
    a20, a21, a22⟩ => size a0 + size a1 + size a2 + size a3 + size a4 + size a5 + size a6 + size a7 + size
    a8 + size a9 + size a10 + size a11 + size a12 + size a13 + size a14 + size a15 + size a16 + size a17 +
    size a18 + size a19 + size a20 + size a21 + size a22

instance : Size HvccArrayHead where
  size := fun ⟨a0, a1, a2, a3⟩ => size a0 + size a1 + size a2 + size a3

instance : Size NalUnitPayload where
  size := fun ⟨a0, a1, a2, a3, a4, a5⟩ => size a0 + size a1 + size a2 + size a3 + size a4 + size a5

instance : Size NalUnit where
  size := fun ⟨a0, a1, a2, a3, a4, a5⟩ => size a0 + size a1 + size a2 + size a3 + size a4 + size a5

instance : Size RtpSingle where
  size := fun ⟨a0, a1⟩ => size a0 + size a1

instance : Size RtpApUnit where
  size := fun ⟨a0, a1, a2⟩ => size a0 + size a1 + size a2

instance : Size RtpAp where
  size := fun ⟨a0, a1⟩ => size a0 + size a1

instance : Size RtpFu where
  size := fun ⟨a0, a1, a2, a3, a4⟩ => size a0 + size a1 + size a2 + size a3 + size a4

instance : Size Rtp where
  size := fun ⟨a0, a1, a2, a3⟩ => size a0 + size a1 + size a2 + size a3

instance : Size HvccUnit where
  size := fun ⟨a0, a1⟩ => size a0 + size a1

instance : Size HvccArray where
  size := fun ⟨a0, a1⟩ => size a0 + size a1

instance : Size ConfigurationBox where
  size := fun ⟨a0, a1⟩ => size a0 + size a1

/-! ### parameter sets, SEI, slices -/

theorem size_arith {y x z z1 z2 K : Nat} (hs : y ≤ K + 30 * x) (hl : x + z ≤ z1) (hf : z2 ≤ z) : y + 1 + 30 * z2 ≤ K + 1 + 30 * z1 := by omega

theorem C45_vps {bb bb' : BB} {s : Vps} (hw : bb.WF) (hr : parseVps.run bb = .ok s bb') :
    size s + 30 * bb'.rem.length ≤ 45 + 30 * bb.rem.length := by
  unfold parseVps at hr
  obtain ⟨body, b1, h1, h2⟩ := Prog.bind_ok hr
  obtain ⟨d, b2, h3, h4⟩ := Prog.bind_ok h2
  cases h4
  obtain ⟨hl, hv⟩ := (parseVpsBody_codec (H := Cond.any) (A := fun _ => False)).denote_size (denote_of_run_ok hw h1)
  have hf := Prog.run_forward (run_ok_wf hw h1).1 h3
  have hs := size_vps hv
  rw [Vps.size_eq, size_nat]
  exact size_arith hs hl hf

theorem C45_sps {bb bb' : BB} {s : Sps} (hw : bb.WF) (hr : parseSps.run bb = .ok s bb') :
    size s + 30 * bb'.rem.length ≤ 181 + 30 * bb.rem.length := by
  unfold parseSps at hr
  obtain ⟨body, b1, h1, h2⟩ := Prog.bind_ok hr
  obtain ⟨d, b2, h3, h4⟩ := Prog.bind_ok h2
  cases h4
  obtain ⟨hl, hv⟩ := (parseSpsBody_codec (H := Cond.canon) (A := fun k => k = .signedOverflow)).denote_size (denote_of_run_ok hw h1)
  have hf := Prog.run_forward (run_ok_wf hw h1).1 h3
  have hs := size_sps hv
  rw [Sps.size_eq, size_nat]
  exact size_arith hs hl hf

theorem ppsMultilayer_size {c : Nat} {bb bb' : BB} {o : Option PpsMultilayerExtension} (hw : bb.WF)
    (hr : (parsePpsMultilayerUnchecked c).run bb = .ok o bb') : size o + 20 * bb'.rem.length ≤ 6 + 20 * bb.rem.length := by
  have hf := Prog.run_forward hw hr
  unfold parsePpsMultilayerUnchecked at hr
  split at hr
  · rw [Prog.run_attempt] at hr
    split at hr
    · rename_i x b hx
      cases hr
      obtain ⟨hl, hv⟩ := (parsePpsMultilayerExtension_codec (H := Cond.canon) (A := fun k => k = .signedOverflow)).denote_size (denote_of_run_ok hw hx)
      have := size_ppsMultilayer hv
      rw [size_some]; omega
    · cases hr; rw [size_none]; omega
    · cases hr
  · cases hr; rw [size_none]; omega

theorem C45_pps {bb bb' : BB} {s : Pps} (hw : bb.WF) (hr : parsePps.run bb = .ok s bb') :
    size s + 30 * bb'.rem.length ≤ 63 + 30 * bb.rem.length := by
  unfold parsePps at hr
  obtain ⟨body, b1, h1, h2⟩ := Prog.bind_ok hr
  obtain ⟨d, b2, h3, h4⟩ := Prog.bind_ok h2
  cases h4
  have hf := Prog.run_forward (run_ok_wf hw h1).1 h3
  unfold parsePpsBody at h1
  obtain ⟨head, c1, g1, h1⟩ := Prog.bind_ok h1
  obtain ⟨ml, c2, g2, h1⟩ := Prog.bind_ok h1
  obtain ⟨_, c3, g3, h1⟩ := Prog.bind_ok h1
  obtain ⟨scc, c4, g4, h1⟩ := Prog.bind_ok h1
  cases h1
  obtain ⟨w1, _⟩ := run_ok_wf hw g1
  obtain ⟨w2, _⟩ := run_ok_wf w1 g2
  obtain ⟨w3, _⟩ := run_ok_wf w2 g3
  obtain ⟨hl, hv⟩ := (parsePpsHead_codec (H := Cond.canon) (A := fun k => k = .signedOverflow)).denote_size (denote_of_run_ok hw g1)
  have k2 := ppsMultilayer_size w1 g2
  have k3 := Prog.run_forward w2 g3
  obtain ⟨hl4, hv4⟩ := (maybe_codec (H := Cond.canon) (A := fun k => k = .signedOverflow) fun _ => parsePpsSccExtension_codec).denote_size (denote_of_run_ok w3 g4)
  have k4 := size_optional (W := ppsSccExtension) 11 3 hv4 fun a ha => size_ppsScc ha
  have k1 := size_ppsHead hv
  have k5 := Prog.run_forward w1 g2
  rw [Pps.size_eq, size_nat, PpsBody.size_eq]
  dsimp only
  generalize bb.rem.length = x0 at *
  generalize c1.rem.length = x1 at *
  generalize c2.rem.length = x2 at *
  generalize c3.rem.length = x3 at *
  generalize b1.rem.length = x4 at *
  generalize bb'.rem.length = x5 at *
  generalize (ppsHead head).length = y1 at *
  generalize (Spec.optional ppsSccExtension scc).length = y2 at *
  generalize size head = s1 at *
  generalize size ml = s2 at *
  generalize size scc = s3 at *
  clear h1 h2 h3 g1 g2 g3 g4 hr hw w1 w2 w3 hv hv4
  omega

theorem C45_aud {bb bb' : BB} {s : Aud} (hw : bb.WF) (hr : parseAud.run bb = .ok s bb') :
    size s + 30 * bb'.rem.length ≤ 1 + 30 * bb.rem.length := by
  have hf := Prog.run_forward hw hr
  rw [Aud.size_eq, size_nat]; omega

theorem C45_sei {bb bb' : BB} {s : SeiMessage} (hw : bb.WF) (hr : parseSei.run bb = .ok s bb') :
    size s + 30 * bb'.rem.length ≤ 33 + 30 * bb.rem.length := by
  unfold parseSei at hr
  obtain ⟨t, c1, g1, hr⟩ := Prog.bind_ok hr
  obtain ⟨n, c2, g2, hr⟩ := Prog.bind_ok hr
  obtain ⟨p, c3, g3, hr⟩ := Prog.bind_ok hr
  cases hr
  obtain ⟨w1, _⟩ := run_ok_wf hw g1
  obtain ⟨w2, _⟩ := run_ok_wf w1 g2
  have k1 := Prog.run_forward hw g1
  have k2 := Prog.run_forward w1 g2
  have k3 := Prog.run_forward w2 g3
  rw [SeiMessage.size_eq]
  simp only [size_nat]
  rw [Prog.run_attempt] at g3
  split at g3
  · rename_i x b hx
    cases g3
    obtain ⟨hl, hv⟩ := (parseSeiPayload_codec (H := Cond.canon) (A := fun k => k = .signedOverflow) (ty := t) (sz := n)
      (fun _ => ⟨inferInstance, inferInstance⟩)).denote_size (denote_of_run_ok w2 hx)
    have := size_seiPayload hv
    rw [size_some]; omega
  · cases g3; rw [size_none]; omega
  · cases g3

theorem C45_slice {t : Nat} {st : ParserState} {bb bb' : BB} {s : SliceSegmentHeader} (hs : StateOk st) (hw : bb.WF)
    (hr : (parseSliceSegmentLayer t st.pps st.sps).run bb = .ok s bb') : size s + 30 * bb'.rem.length ≤ 54 + 30 * bb.rem.length := by
  obtain ⟨P, S, b1, ⟨n1, n2⟩, _, h1, h2⟩ := slice_ok hr
  obtain ⟨w1, _⟩ := run_ok_wf hw h1
  have k1 := Prog.run_forward hw h1
  obtain ⟨hl, hv⟩ := (sliceBody_codec (H := Cond.canon) (A := fun k => k = .signedOverflow) (hs.pps _ _ n1).1 (hs.sps _ _ n2).1).denote_size
    (denote_of_run_ok w1 h2)
  have k2 := size_sliceBody hv
  rw [SliceSegmentHeader.size_eq, SliceHead.size_eq]
  simp only [size_nat]
  omega

/-! ### NAL units -/

theorem payload_size {t : Nat} {st st' : ParserState} {bb bb' : BB} {p : NalUnitPayload} (hs : StateOk st) (hw : bb.WF)
    (h : (parseNalUnitPayload t st).run bb = .ok (p, st') bb') : size p + 30 * bb'.rem.length ≤ 187 + 30 * bb.rem.length := by
  have hf := Prog.run_forward hw h
  have e : ∀ p : NalUnitPayload, size p = size p.vps + size p.sps + size p.pps + size p.aud + size p.slice_segment_layer + size p.sei := fun _ => rfl
  rw [e]
  cases payload_cases h with
  | slice o _ ho =>
    cases o with
    | none => simp only [size_none]; omega
    | some s => have := C45_slice hs hw ho; simp only [size_none, size_some]; omega
  | vps o _ ho =>
    cases o with
    | none => simp only [vpsOut, size_none]; omega
    | some s => have := C45_vps hw ho; simp only [vpsOut, size_none, size_some]; omega
  | sps o _ ho =>
    cases o with
    | none => simp only [spsOut, size_none]; omega
    | some s => have := C45_sps hw ho; simp only [spsOut, size_none, size_some]; omega
  | pps o _ ho =>
    cases o with
    | none => simp only [ppsOut, size_none]; omega
    | some s => have := C45_pps hw ho; simp only [ppsOut, size_none, size_some]; omega
  | aud o _ ho =>
    cases o with
    | none => simp only [size_none]; omega
    | some s => have := C45_aud hw ho; simp only [size_none, size_some]; omega
  | sei o _ ho =>
    cases o with
    | none => simp only [size_none]; omega
    | some s => have := C45_sei hw ho; simp only [size_none, size_some]; omega
  | other => simp only [size_none]; omega

theorem nalUnitHeader_size (h : NalUnitHeader) : size h = 4 := rfl

theorem size_bytes (l : List UInt8) : size l = 2 * l.length := by
  induction l with
  | nil => rfl
  | cons a l ih => rw [size_cons, ih]; show 1 + 1 + 2 * l.length = 2 * (l.length + 1); omega

/-- C45: a parsed NAL unit stores at most 203 + 240 values per byte of input. -/
theorem C45_nal_unit {cs : Bool} {st st' : ParserState} {data : List UInt8} {n : NalUnit} {b : BB} (hs : Reach st)
    (h : parseNalUnit cs st data = .ok (n, st') b) : size n ≤ 203 + 240 * data.length := by
  obtain ⟨rbsp, hu, ⟨b1, b2, h1, h2, _⟩, hc, _, _⟩ := parseNalUnit_ok h
  have hle := unesc_le hu
  have k1 := payload_size (C21_reachable_states hs) (run_ok_wf (BB.WF.init _) h1).1 h2
  have k2 := Prog.run_forward (BB.WF.init _) h1
  rw [BB.rem_init, bitsOf_length] at k2
  have e : size n = size n.offset + size n.length + size n.parsed_length + size n.checksum + size n.nal_unit_header + size n.nal_unit_payload := rfl
  have ec : size n.checksum ≤ 9 := by
    rw [hc]; cases cs
    · show 1 ≤ 9; omega
    · rw [if_pos rfl, size_some, size_bytes, beBytes_length]; omega
  rw [e, nalUnitHeader_size]
  simp only [size_nat]
  omega

/-- C45, several NAL units -/
theorem parseAll_size {cs : Bool} : ∀ {l : List (Nat × Nat × List UInt8)} {st st' : ParserState} {ns : List NalUnit}, Reach st →
    parseAll cs l st = .ok (ns, st') → size ns ≤ 342 * (l.map fun x => x.2.2.length).sum
  | [], st, st', ns, _, h => by cases h; decide
  | (off, len, nal) :: rest, st, st', ns, hs, h => by
    simp only [parseAll] at h
    simp only [List.map_cons, List.sum_cons, Nat.mul_add]
    cases hp : parseNalUnit cs st nal with
    | bad k => rw [hp] at h; cases h
    | fail b => rw [hp] at h; have := parseAll_size hs h; omega
    | ok x b =>
      obtain ⟨n, st1⟩ := x
      rw [hp] at h
      simp only at h
      cases hr : parseAll cs rest st1 with
      | error k => rw [hr] at h; cases h
      | ok y =>
        rw [hr] at h
        cases h
        have k1 := C45_nal_unit hs hp
        have k2 := parseAll_size (hs.step (parseNalUnit_steps hp)) hr
        have k3 : 2 ≤ nal.length := by
          obtain ⟨rbsp, hu, _, hle, _⟩ := C11_unescape_bounds nal
          by_cases h2 : rbsp.length < 2
          · obtain ⟨b', hb⟩ := (C22_dropped_iff hu).mpr h2
            rw [hp] at hb; cases hb
          · omega
        rw [size_cons]
        have e : size ({ n with offset := off, length := len } : NalUnit) = size n := rfl
        rw [e]
        omega

/-! ### whole streams -/

theorem entries_total (data : List UInt8) {e : Nat} : ∀ (p : Nat) (l : List Nat), (p :: l).Pairwise (· < ·) → (∀ q ∈ p :: l, q ≤ e) →
    ((entries data e (p :: l)).map (·.payloadSize)).sum ≤ e - p
  | p, [], _, _ => by simp only [entries, List.map_cons, List.map_nil, List.sum_cons, List.sum_nil]; omega
  | p, q :: r, hp, he => by
    have ih := entries_total data q r (List.Pairwise.of_cons hp) (fun x hx => he x (by simp [hx]))
    have h1 : p < q := (List.pairwise_cons.mp hp).1 q (by simp)
    have h2 := he q (by simp)
    have h3 := startCodeBegin_le data q
    simp only [entries, List.map_cons, List.sum_cons]
    omega

/-- C45, Annex B: the NAL units found in a stream are disjoint, and what is stored for all of them together is at most 342 values per byte of the stream. -/
theorem C45_bitstream {cs : Bool} {st st' : ParserState} {data : List UInt8} {ns : List NalUnit} (hs : Reach st) (hlen : data.length < 2 ^ 64)
    (h : parseBitstream cs st data = .ok (ns, st')) : size ns ≤ 342 * data.length := by
  rw [parseBitstream_eq cs st data hlen] at h
  refine Nat.le_trans (parseAll_size hs h) (Nat.mul_le_mul_left _ ?_)
  have h1 : (((entries data data.length (starts data)).map (spanOf data)).map fun x => x.2.2.length).sum
      ≤ ((entries data data.length (starts data)).map (·.payloadSize)).sum := by
    generalize entries data data.length (starts data) = l
    induction l with
    | nil => exact Nat.le_refl _
    | cons a t ih => simp only [List.map_cons, List.sum_cons, spanOf, List.length_take]; omega
  refine Nat.le_trans h1 ?_
  have h2 := starts_sorted data data.length
  have h3 : ∀ q ∈ starts data, q ≤ data.length := by
    intro q hq
    unfold starts startsBelow at hq
    rw [List.mem_filter, List.mem_range] at hq
    omega
  unfold starts at h3 ⊢
  cases hl : startsBelow data data.length with
  | nil => exact Nat.zero_le _
  | cons p l => rw [hl] at h2 h3; exact Nat.le_trans (entries_total data p l h2 h3) (Nat.sub_le _ _)

theorem framedBy_total {n : Nat} {data : List UInt8} {off : Nat} {l : List (Nat × Nat)} (h : FramedBy n data off l) :
    ((l.map fun x => (x.1, n, (data.drop x.1).take x.2)).map fun x => x.2.2.length).sum ≤ data.length - off := by
  induction h with
  | stop => exact Nat.zero_le _
  | unit h1 h2 _ ih => simp only [List.map_cons, List.sum_cons, List.length_take]; omega

/-- C45, length-prefixed streams. -/
theorem C45_length_stream {cs : Bool} {n : Nat} {st st' : ParserState} {data : List UInt8} {ns : List NalUnit} (hs : Reach st) (hn : n ≤ 7)
    (hlen : data.length < 2 ^ 63) (h : parseBitstreamNaluLength cs n st data = .ok (ns, st')) : size ns ≤ 342 * data.length := by
  by_cases h0 : n = 0
  · subst h0
    by_cases hd : data = []
    · subst hd; cases h; exact Nat.zero_le _
    · rw [C15_no_length cs st data hd (by omega)] at h
      have := parseAll_size hs h
      simpa using this
  · obtain ⟨l, hl, he⟩ := C15_length_framing cs n st data (by omega) hn hlen
    rw [he] at h
    exact Nat.le_trans (parseAll_size hs h) (Nat.mul_le_mul_left _ (framedBy_total hl))

/-! ### RTP packets -/

theorem payloadOn_size {t : Nat} {st st' : ParserState} {r r' : List Bool} {p : NalUnitPayload} (hs : Reach st) (h : PayloadOn t st r p st' r') :
    size p + 30 * r'.length ≤ 187 + 30 * r.length := by
  obtain ⟨b, b', hw, rfl, rfl, hr⟩ := h
  exact payload_size (C21_reachable_states hs) hw hr

theorem payloadOn_step {t : Nat} {st st' : ParserState} {r r' : List Bool} {p : NalUnitPayload} (hs : Reach st) (h : PayloadOn t st r p st' r') :
    Reach st' := by
  obtain ⟨b, b', hw, rfl, rfl, hr⟩ := h
  exact hs.step (.cons hw hr (.nil _))

theorem payloadOn_forward {t : Nat} {st st' : ParserState} {r r' : List Bool} {p : NalUnitPayload} (h : PayloadOn t st r p st' r') : r'.length ≤ r.length := by
  obtain ⟨b, b', hw, rfl, rfl, hr⟩ := h
  exact Prog.run_forward hw hr

theorem apUnit_size (n : Nat) (h : NalUnitHeader) (p : NalUnitPayload) : size (⟨n, h, p⟩ : RtpApUnit) = 5 + size p := by
  show 1 + size h + size p = _
  rw [nalUnitHeader_size]

theorem apUnits_size {st st' : ParserState} {r : List Bool} {us : List RtpApUnit} (h : ApUnits st r us st') (hs : Reach st) :
    size us ≤ 37 * r.length := by
  induction h with
  | nil => exact Nat.zero_le _
  | @cons st st1 st2 n h p r r' us h1 h2 h3 h4 _ ih =>
    have k1 := payloadOn_size hs h4
    have k2 := ih (payloadOn_step hs h4)
    have k3 := payloadOn_forward h4
    rw [size_cons, apUnit_size, List.length_append, List.length_append, nalUnitHeader_length, u_length]
    omega

/-- C45, RTP payloads (RFC 7798): single NAL unit packets, aggregation packets and fragmentation units store at most 206 + 296 values per byte of packet. -/
theorem C45_rtp {st st' : ParserState} {data : List UInt8} {x : Rtp} (hs : Reach st) (hlen : data.length < 2 ^ 32) (h : parseRtp st data = .ok (some x, st')) :
    size x ≤ 206 + 296 * data.length := by
  obtain ⟨rbsp, hu, _⟩ := C11_unescape_bounds data
  have hle := unesc_le hu
  rw [parseRtp_eq hu (by omega)] at h
  have e : ∀ x : Rtp, size x = size x.nal_unit_header + size x.rtp_single + size x.rtp_ap + size x.rtp_fu := fun _ => rfl
  match rbsp, hu, hle with
  | [], hu, _ => obtain ⟨b, hb⟩ := header_run_short [] (by simp); unfold parseRtpBB at h; rw [hb] at h; cases h
  | [x], hu, _ => obtain ⟨b, hb⟩ := header_run_short [x] (by simp); unfold parseRtpBB at h; rw [hb] at h; cases h
  | b0 :: b1 :: rest, hu, hle =>
    rw [parseRtpBB_eq] at h
    have hw := BB.WF.init (b0 :: b1 :: rest)
    have hrem : (BB.init (b0 :: b1 :: rest)).rem.length = 8 * (b0 :: b1 :: rest).length := by rw [BB.rem_init, bitsOf_length]
    split at h
    · unfold rtpOut at h
      split at h
      · rename_i y s b hx
        cases h
        unfold parseRtpSingle at hx
        obtain ⟨o1, c1, h1, hx⟩ := Prog.bind_ok hx
        obtain ⟨⟨p, s1⟩, c2, h2, hx⟩ := Prog.bind_ok hx
        cases hx
        have k1 := payload_size (C21_reachable_states hs) (run_ok_wf hw h1).1 h2
        have k2 := Prog.run_forward hw h1
        have k3 : size ({ nal_unit_header := o1, nal_unit_payload := p } : RtpSingle) = 4 + size p := rfl
        rw [e, nalUnitHeader_size]
        simp only [size_none, size_some]
        rw [k3]
        omega
      · cases h
      · cases h
    split at h
    · unfold rtpApOut at h
      split at h
      · rename_i y s b hx
        cases y with
        | none => cases h
        | some ap =>
          cases h
          obtain ⟨r, r1, _, ha⟩ := C38_sound hw hx
          have k1 := apUnits_size ha hs
          have k2 : (BB.init (b0 :: b1 :: rest)).rem.length = 16 + r.length := by rw [r1, List.length_append, nalUnitHeader_length]
          have k3 : size ap = 4 + size ap.units := rfl
          rw [e, nalUnitHeader_size]
          simp only [size_none, size_some]
          rw [k3]
          omega
      · cases h
      · cases h
    split at h
    · unfold rtpOut at h
      split at h
      · rename_i y s b hx
        cases h
        obtain ⟨r, r1, _, hsb, _, _, h0, h1⟩ := C39_sound hw hx
        have k2 : (BB.init (b0 :: b1 :: rest)).rem.length = 24 + r.length := by
          rw [r1]; simp only [List.length_append, nalUnitHeader_length, u_length]; omega
        have k3 : size y = 7 + size y.nal_unit_payload := rfl
        rw [e, nalUnitHeader_size]
        simp only [size_none, size_some]
        rw [k3]
        rcases (by omega : y.s_bit = 0 ∨ y.s_bit = 1) with hb | hb
        · rw [(h0 hb).1, size_none]; omega
        · obtain ⟨p, hp, hon⟩ := h1 hb
          have := payloadOn_size hs hon
          rw [hp, size_some]; omega
      · cases h
      · cases h
    · cases h
      rw [e, nalUnitHeader_size]
      simp only [size_none]
      omega

/-! ### configuration boxes -/

theorem size_nats (l : List Nat) : size l = 2 * l.length := by
  induction l with
  | nil => rfl
  | cons a l ih => rw [size_cons, ih]; show 1 + 1 + 2 * l.length = 2 * (l.length + 1); omega

theorem hvccHeader_size {h : HvccHeader} (hv : ValidHvccHeader h) : size h = 86 := by
  have e : size h = 4 + size h.general_profile_compatibility_flags + 18 := rfl
  rw [e, size_nats, hv.general_profile_compatibility_flags.1]

theorem hvccNals_size {cs : Bool} {st st' : ParserState} {nals : List (List UInt8)} {us : List HvccUnit} (h : HvccNals cs st nals us st') (hs : Reach st) :
    size us ≤ 30 * (nals.map hvccUnitBits).flatten.length ∧ Reach st' := by
  induction h with
  | nil => exact ⟨Nat.zero_le _, hs⟩
  | @ok st st1 st2 nal nals n us b h1 _ ih =>
    have k1 := C45_nal_unit hs h1
    obtain ⟨k2, k3⟩ := ih (hs.step (parseNalUnit_steps h1))
    refine ⟨?_, k3⟩
    have e : size (⟨nal.length, some n⟩ : HvccUnit) = 1 + (1 + size n) := rfl
    rw [size_cons, e, List.map_cons, List.flatten_cons, List.length_append, hvccUnitBits, List.length_append, u_length, bitsOf_length]
    omega
  | @null st st2 nal nals us b h1 _ ih =>
    obtain ⟨k2, k3⟩ := ih hs
    refine ⟨?_, k3⟩
    have e : size (⟨nal.length, none⟩ : HvccUnit) = 1 + 1 := rfl
    rw [size_cons, e, List.map_cons, List.flatten_cons, List.length_append, hvccUnitBits, List.length_append, u_length, bitsOf_length]
    omega

theorem hvccParsed_size {cs : Bool} {st st' : ParserState} {as : List (HvccArrayHead × List (List UInt8))} {bs : List HvccArray}
    (h : HvccParsed cs st as bs st') (hs : Reach st) : size bs ≤ 30 * (as.map hvccArrayBits).flatten.length := by
  induction h with
  | nil => exact Nat.zero_le _
  | @cons st st1 st2 h nals us as bs h1 _ ih =>
    obtain ⟨k1, k2⟩ := hvccNals_size h1 hs
    have k3 := ih k2
    have e : size (⟨h, us⟩ : HvccArray) = 4 + size us := rfl
    have e2 : (Spec.hvccArrayHead h).length = 24 := by simp [Spec.hvccArrayHead, Spec.seq]
    have e3 : (hvccArrayBits (h, nals)).length = 24 + (nals.map hvccUnitBits).flatten.length := by
      unfold hvccArrayBits; rw [List.length_append, e2]
    rw [size_cons, e, List.map_cons, List.flatten_cons, List.length_append, e3]
    omega

/-- C45, HEVC configuration boxes: all the parameter sets they carry together store at most 86 + 240 values per byte of box. -/
theorem C45_config_box {cs : Bool} {st st' : ParserState} {data : List UInt8} {box : ConfigurationBox} {b : BB} (hs : Reach st)
    (h : parseConfigurationBoxBytes cs st data = .ok (some box, st') b) : size box ≤ 86 + 240 * data.length := by
  unfold parseConfigurationBoxBytes Prog.runBytes at h
  split at h
  · have hw := BB.WF.init data
    obtain ⟨x, hv, hb, hh, hp⟩ := C43_sound hw h
    have k1 := hvccParsed_size hp hs
    have k2 : 8 * data.length = (Spec.hvccHeader x.head).length + ((x.arrays.map hvccArrayBits).flatten.length + b.rem.length) := by
      rw [← bitsOf_length, ← BB.rem_init, hb, Hvcc.bits, List.append_assoc, List.length_append, List.length_append]
    have e : size box = size box.head + size box.arrays := rfl
    rw [e, hh, hvccHeader_size hv.head]
    omega
  · cases h

/-! ### termination

In the model a loop that would go on for ever is the outcome `hang` (every `while` loop runs on fuel that is shown to be enough). -/

theorem C45_nal_unit_terminates {cs : Bool} {st : ParserState} {data : List UInt8} (hs : Reach st) (hlen : data.length < 2 ^ 32) :
    parseNalUnit cs st data ≠ .bad .hang := by
  intro h; have := C44_nal_unit_safe hs hlen h; cases this

theorem C45_bitstream_terminates {cs : Bool} {st : ParserState} {data : List UInt8} (hs : Reach st) (hlen : data.length < 2 ^ 32) :
    parseBitstream cs st data ≠ .error .hang := by
  intro h; have := C44_bitstream_safe hs hlen h; cases this

theorem C45_length_stream_terminates {cs : Bool} {n : Nat} {st : ParserState} {data : List UInt8} (hs : Reach st) (hn : n ≤ 7) (hlen : data.length < 2 ^ 32) :
    parseBitstreamNaluLength cs n st data ≠ .error .hang := by
  intro h; have := C15_safe hs hn hlen h; cases this

theorem C45_rtp_terminates {st : ParserState} {data : List UInt8} (hs : Reach st) (hlen : data.length < 2 ^ 32) : parseRtp st data ≠ .error .hang := by
  intro h; have := C44_rtp_safe hs hlen h; cases this

theorem C45_config_box_terminates {cs : Bool} {st : ParserState} {data : List UInt8} (hs : Reach st) (hlen : data.length < 2 ^ 32) :
    parseConfigurationBoxBytes cs st data ≠ .bad .hang := by
  intro h; have := C43_safe hs hlen h; cases this

/-! ### examples -/

/-- the stream of the tests: 4 NAL units, stored in a few hundred values -/
example : (match parseBitstream true .empty testStream with
    | .ok (ns, _) => some (ns.length, testStream.length, decide (300 ≤ size ns))
    | .error _ => none) = some (4, 100, true) := by decide +kernel

/-- a VPS cut short: nothing is stored -/
example : ∃ b, parseNalUnit false .empty ([0x40, 0x01] ++ [0x0c, 0x01, 0xff, 0xff, 0x01, 0x60, 0x00, 0x00, 0x03, 0x00, 0xb0, 0x00, 0x00, 0x03]) = b ∧
    (match b with | .ok (n, _) _ => decide (size n ≤ 20) | _ => false) = true := ⟨_, rfl, by decide +kernel⟩

/-- an RTP aggregation packet with three units -/
example : (rtpIn .empty ([0x60, 0x01] ++ lengthPrefixed 2 [apVps, apSps, apPps])).map (fun r => decide (200 ≤ size r)) = some true := by decide +kernel

/-- a box with three parameter sets -/
example : (boxIn testBox).map (fun x => decide (200 ≤ size x.1)) = some true := by decide +kernel

end H265
