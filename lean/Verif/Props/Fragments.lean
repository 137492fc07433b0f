/- C92: any NAL units, sent over RTP in fragments. -/
import Verif.Spec.Fragments
import Verif.Props.Trailing
import Verif.Props.Truncated
import Verif.Props.Remux
import Verif.Props.RtpSend

set_option autoImplicit false

namespace H265
open Spec Std

theorem fuByte0_toNat (b0 : UInt8) : (fuByte0 b0).toNat = b0.toNat / 128 * 128 + 49 * 2 + b0.toNat % 2 := by
  have h0 : b0.toNat < 256 := UInt8.toNat_lt b0
  unfold fuByte0
  rw [UInt8.toNat_ofNat', Nat.mod_eq_of_lt (by omega)]

theorem fuByte2_toNat (s e : Nat) (b0 : UInt8) (hs : s < 2) (he : e < 2) : (fuByte2 s e b0).toNat = s * 128 + e * 64 + b0.toNat / 2 % 64 := by
  unfold fuByte2
  rw [UInt8.toNat_ofNat', Nat.mod_eq_of_lt (by omega)]

/-- the receiver makes the first byte of the NAL unit again -/
theorem nalByte0_fu (b0 : UInt8) : nalByte0 (fuByte0 b0) (fuByte2 1 0 b0) = b0 := by
  apply UInt8.toNat_inj.mp
  have h0 : b0.toNat < 256 := UInt8.toNat_lt b0
  rw [nalByte0_toNat, fuByte0_toNat, fuByte2_toNat 1 0 b0 (by omega) (by omega)]
  omega

theorem fu_type_49 (b0 : UInt8) : (fuByte0 b0).toNat / 2 % 64 = 49 := by
  rw [fuByte0_toNat]; omega

/-- C92: a fragment behind the first one reports no NAL unit and changes nothing -/
theorem later_one {b0 b1 : UInt8} (hb1 : b1 ≠ 0) {e : Nat} (he : e < 2) (d : List UInt8) (hl : d.length + 3 < 2 ^ 32) (st : ParserState) :
    ∃ r : Rtp, parseRtp st (fuByte0 b0 :: b1 :: fuByte2 0 e b0 :: d) = .ok (some r, st) ∧ rtpUnits r = [] := by
  have hb2 : (fuByte2 0 e b0).toNat < 128 := by rw [fuByte2_toNat 0 e b0 (by omega) he]; omega
  obtain ⟨t, htl⟩ := unesc_first (b0 := fuByte2 0 e b0) (tail := d) (unescapeRbsp_eq _)
  have hu : unescapeRbsp (fuByte0 b0 :: b1 :: fuByte2 0 e b0 :: d) = .ok (fuByte0 b0 :: b1 :: fuByte2 0 e b0 :: t) := by
    rw [unescapeRbsp_eq, unesc_cons (fuByte0 b0) _ (by rintro ⟨r, h⟩; simp at h; exact hb1 h.2.1), unesc_nz hb1, htl]
  exact ⟨_, C39_not_start hu (by simpa using hl) (fu_type_49 b0) hb2 st, rfl⟩

theorem rtpResults_append : ∀ (a b : List (List UInt8)) (st : ParserState),
    rtpResults (a ++ b) st = (rtpResults a st).bind fun x => (rtpResults b x.2).map fun y => (x.1 ++ y.1, y.2)
  | [], b, st => by
    simp only [List.nil_append, rtpResults, Except.bind]
    cases rtpResults b st <;> simp [Except.map]
  | p :: ps, b, st => by
    simp only [List.cons_append, rtpResults]
    cases parseRtp st p with
    | error k => rfl
    | ok x =>
      dsimp only
      rw [rtpResults_append ps b x.2]
      cases rtpResults ps x.2 with
      | error k => rfl
      | ok y =>
        simp only [Except.bind]
        cases rtpResults b y.2 <;> simp [Except.map]

theorem later_all {b0 b1 : UInt8} (hb1 : b1 ≠ 0) (st : ParserState) : ∀ (more : List (List UInt8)), (∀ p ∈ laterFragments b0 b1 more, p.length < 2 ^ 32) →
    ∃ rs : List Rtp, rtpResults (laterFragments b0 b1 more) st = .ok (rs.map some, st) ∧ rs.flatMap rtpUnits = []
  | [], _ => ⟨[], rfl, rfl⟩
  | [d], hl => by
    have hd : d.length + 3 < 2 ^ 32 := by simpa using hl _ (List.mem_cons_self)
    obtain ⟨r, h1, h2⟩ := later_one (b0 := b0) hb1 (e := 1) (by omega) d hd st
    exact ⟨[r], by simp only [laterFragments, rtpResults, h1]; rfl, by simp [h2]⟩
  | d :: d2 :: ds, hl => by
    simp only [laterFragments] at hl
    have hd : d.length + 3 < 2 ^ 32 := by simpa using hl _ (List.mem_cons_self)
    obtain ⟨r, h1, h2⟩ := later_one (b0 := b0) hb1 (e := 0) (by omega) d hd st
    obtain ⟨rs, h3, h4⟩ := later_all hb1 st (d2 :: ds) (fun p hp => hl p (List.mem_cons_of_mem _ hp))
    exact ⟨r :: rs, by simp only [laterFragments, rtpResults, h1, h3]; rfl, by rw [List.flatMap_cons, h2, h4]; rfl⟩

/-- one NAL unit, in a packet of its own or in fragments: what is reported for the packets is what is reported for the NAL unit cut off behind the first fragment -/
theorem C92_one (s : Sending) (st : ParserState) (hs : s.Ok) (hlen : ∀ p ∈ s.packets, p.length < 2 ^ 32) :
    (rtpResults s.packets st).map reportedIn = (nalResults false [s.start] st).map contentsIn := by
  cases s with
  | whole x =>
    have hl : x.length < 2 ^ 32 := hlen x (by simp [Sending.packets])
    have hone : parseRtp st x = match parseNalUnit false st x with
        | .ok (n, st') _ => .ok (some { nal_unit_header := n.nal_unit_header, rtp_single := some ⟨n.nal_unit_header, n.nal_unit_payload⟩ }, st')
        | .fail _ => .ok (none, st)
        | .bad k => .error k := by
      match x, hl, hs with
      | [], _, _ =>
        obtain ⟨b, hb⟩ := (C22_dropped_iff (cs := false) (st := st) (data := []) (unescapeRbsp_eq _)).mpr (by decide)
        rw [C37_short (unescapeRbsp_eq _) (by decide), hb]
      | [x], _, _ =>
        obtain ⟨b, hb⟩ := (C22_dropped_iff (cs := false) (st := st) (data := [x]) (unescapeRbsp_eq _)).mpr (by simp [unesc])
        rw [C37_short (unescapeRbsp_eq _) (by simp [unesc]), hb]
      | b0 :: b1 :: r, hl, hs =>
        obtain ⟨r', hr⟩ := unesc_two b0 b1 r
        exact C37_single (b0 := b0) (b1 := b1) (rest := r') (by rw [unescapeRbsp_eq, hr]) hl (hs _ _ rfl) st
    simp only [Sending.packets, Sending.start, rtpResults, nalResults, hone]
    cases parseNalUnit false st x with
    | bad k => rfl
    | fail b => rfl
    | ok y b => rfl
  | fragments b0 b1 first more =>
    obtain ⟨_, hb1, _⟩ := hs
    simp only [Sending.packets, List.mem_cons, forall_eq_or_imp] at hlen
    have hst := C39_start (b0 := fuByte0 b0) (b1 := b1) (b2 := fuByte2 1 0 b0) (frag := first) (by simpa using hlen.1) (fu_type_49 b0) hb1
      (by rw [fuByte2_toNat 1 0 b0 (by omega) (by omega)]; omega) st
    rw [nalByte0_fu] at hst
    simp only [Sending.packets, Sending.start, rtpResults, nalResults, hst]
    have hh : (b0 :: b1 :: first).length < 2 ^ 32 := by have := hlen.1; simp only [List.length_cons] at this ⊢; omega
    cases hp : parseNalUnit false st (b0 :: b1 :: first) with
    | bad k => rfl
    | fail b =>
      obtain ⟨rs, h1, h2⟩ := later_all (b0 := b0) hb1 st more hlen.2
      dsimp only
      rw [h1]
      simp only [Except.map, reportedIn, contentsIn]
      simp [h2]
    | ok y b =>
      obtain ⟨n, st'⟩ := y
      obtain ⟨rs, h1, h2⟩ := later_all (b0 := b0) hb1 st' more hlen.2
      have hn : n.nal_unit_header = headerOf b0 b1 := by
        obtain ⟨rbsp, hu, hparts⟩ := parseNalUnit_ok hp
        rw [unescapeRbsp_eq] at hu
        cases hu
        obtain ⟨c1, c2, p1, _, _⟩ := hparts.parts
        obtain ⟨r, hr⟩ := unesc_two b0 b1 first
        rw [hr] at p1
        obtain ⟨bb, g1, _⟩ := header_run b0 b1 r
        rw [g1] at p1
        injection p1 with p1 _
        exact p1.symm
      have hty : ({ headerOf (fuByte0 b0) b1 with nal_unit_type := (fuByte2 1 0 b0).toNat % 64 } : NalUnitHeader) = headerOf b0 b1 := by
        have h0 : b0.toNat < 256 := UInt8.toNat_lt b0
        simp only [headerOf, fuByte0_toNat, fuByte2_toNat 1 0 b0 (by omega) (by omega), NalUnitHeader.mk.injEq]
        refine ⟨?_, ?_, ?_, trivial⟩ <;> omega
      dsimp only
      rw [h1]
      simp only [Except.map, reportedIn, contentsIn]
      simp [h2, rtpUnits, contentsOf, hn, hty]

/-! ### a whole session -/

theorem nalResults_cons (cs : Bool) (x : List UInt8) (rest : List (List UInt8)) (st : ParserState) :
    (nalResults cs (x :: rest) st).map contentsIn =
      ((nalResults cs [x] st).map contentsIn).bind fun a => ((nalResults cs rest a.2).map contentsIn).map fun b => (a.1 ++ b.1, b.2) := by
  simp only [nalResults]
  cases parseNalUnit cs st x with
  | bad k => rfl
  | fail b =>
    simp only [Except.map, Except.bind, contentsIn]
    cases nalResults cs rest st <;> simp
  | ok y b =>
    obtain ⟨n, st'⟩ := y
    simp only [Except.map, Except.bind, contentsIn]
    cases nalResults cs rest st' <;> simp

theorem rtpResults_reported (a b : List (List UInt8)) (st : ParserState) :
    (rtpResults (a ++ b) st).map reportedIn =
      ((rtpResults a st).map reportedIn).bind fun x => ((rtpResults b x.2).map reportedIn).map fun y => (x.1 ++ y.1, y.2) := by
  rw [rtpResults_append]
  cases rtpResults a st with
  | error k => rfl
  | ok x =>
    simp only [Except.map, Except.bind, reportedIn]
    cases rtpResults b x.2 <;> simp

/-- C92: any NAL units, in any state, each sent in a packet of its own or in fragments, cut anywhere: the headers and payloads reported, the parser state and undefined
behaviour are exactly those of the NAL units of which each fragmented one is cut off behind its first fragment. -/
theorem C92_session : ∀ (ss : List Sending) (st : ParserState), (∀ s ∈ ss, s.Ok ∧ ∀ p ∈ s.packets, p.length < 2 ^ 32) →
    (rtpResults (ss.flatMap Sending.packets) st).map reportedIn = (nalResults false (ss.map Sending.start) st).map contentsIn
  | [], st, _ => rfl
  | s :: ss, st, h => by
    rw [List.flatMap_cons, rtpResults_reported, List.map_cons, nalResults_cons, C92_one s st (h s (by simp)).1 (h s (by simp)).2]
    cases (nalResults false [s.start] st).map contentsIn with
    | error k => rfl
    | ok x =>
      dsimp only [Except.bind]
      rw [C92_session ss x.2 (fun s hs => h s (by simp [hs]))]

/-- C92: if the payload reported for each first fragment was parsed up to its end (and announces no extension data of unknown meaning), then the NAL units in full have the
same headers and payloads, null results at the same places, and leave the same parser state: nothing that is reported is changed by the bytes in the later fragments. -/
theorem C92_complete : ∀ (ss : List Sending) (st st' : ParserState) (rs : List (Option NalUnit)),
    (∀ s ∈ ss, s.nal.length < 2 ^ 32) → nalResults false (ss.map Sending.start) st = .ok (rs, st') →
    (∀ x ∈ ss.zip rs, x.1.isFragmented = true → ∀ n, x.2 = some n → Whole n.nal_unit_header.nal_unit_type n.nal_unit_payload) →
    ∃ rs', nalResults false (ss.map Sending.nal) st = .ok (rs', st') ∧ rs'.map (Option.map contentsOf) = rs.map (Option.map contentsOf)
  | [], st, st', rs, _, h, _ => by
    cases h
    exact ⟨[], rfl, rfl⟩
  | s :: ss, st, st', rs, hl, h, hw => by
    have hone : ∀ n st1 e, parseNalUnit false st s.start = .ok (n, st1) e →
        (s.isFragmented = true → Whole n.nal_unit_header.nal_unit_type n.nal_unit_payload) →
        ∃ n' e', parseNalUnit false st s.nal = .ok (n', st1) e' ∧ contentsOf n' = contentsOf n := by
      intro n st1 e h1 h2
      cases s with
      | whole x => exact ⟨n, e, h1, rfl⟩
      | fragments b0 b1 first more =>
        have h3 := hl (.fragments b0 b1 first more) (by simp)
        obtain ⟨n', e', q1, q2, q3⟩ := C66_more_bytes (cs' := false) (z := more.flatten) h1 (h2 rfl) (by simpa [Sending.start, Sending.nal] using h3)
        exact ⟨n', e', by simpa [Sending.start, Sending.nal] using q1, by simp only [contentsOf, q2, q3]⟩
    have hnull : ∀ e, parseNalUnit false st s.start = .fail e → ∃ e', parseNalUnit false st s.nal = .fail e' := by
      intro e h1
      cases s with
      | whole x => exact ⟨e, h1⟩
      | fragments b0 b1 first more =>
        obtain ⟨r, hr⟩ := unesc_two b0 b1 first
        have := (C22_dropped_iff (cs := false) (st := st) (data := b0 :: b1 :: first) (unescapeRbsp_eq _)).mp ⟨e, h1⟩
        rw [hr] at this
        simp only [List.length_cons] at this
        omega
    simp only [List.map_cons, nalResults] at h ⊢
    cases h1 : parseNalUnit false st s.start with
    | bad k => rw [h1] at h; cases h
    | fail e =>
      rw [h1] at h
      dsimp only at h
      obtain ⟨e', h2⟩ := hnull e h1
      rw [h2]
      dsimp only
      cases h3 : nalResults false (ss.map Sending.start) st with
      | error k => rw [h3] at h; cases h
      | ok y =>
        rw [h3] at h
        dsimp only at h
        cases h
        obtain ⟨rs', q1, q2⟩ := C92_complete ss st _ _ (fun s hs => hl s (by simp [hs])) h3 (fun x hx => hw x (by simp only [List.zip_cons_cons, List.mem_cons]; exact .inr hx))
        exact ⟨none :: rs', by rw [q1], by simp only [List.map_cons, q2]⟩
    | ok y e =>
      obtain ⟨n, st1⟩ := y
      rw [h1] at h
      dsimp only at h
      cases h3 : nalResults false (ss.map Sending.start) st1 with
      | error k => rw [h3] at h; cases h
      | ok y =>
        rw [h3] at h
        dsimp only at h
        cases h
        obtain ⟨n', e', h4, h5⟩ := hone n st1 e h1 (fun hf => hw (s, some n) (by simp) hf n rfl)
        rw [h4]
        dsimp only
        obtain ⟨rs', q1, q2⟩ := C92_complete ss st1 _ _ (fun s hs => hl s (by simp [hs])) h3 (fun x hx => hw x (by simp only [List.zip_cons_cons, List.mem_cons]; exact .inr hx))
        exact ⟨some n' :: rs', by rw [q1], by simp only [List.map_cons, q2, Option.map_some, h5]⟩

theorem parseAll_nalResults (cs : Bool) : ∀ (l : List (Nat × Nat × List UInt8)) (st : ParserState),
    (parseAll cs l st).map (fun x => (x.1.map contentsOf, x.2)) = (nalResults cs (l.map (·.2.2)) st).map contentsIn
  | [], st => rfl
  | (off, len, x) :: rest, st => by
    rw [List.map_cons, nalResults_cons]
    simp only [parseAll, nalResults]
    cases parseNalUnit cs st x with
    | bad k => rfl
    | fail b =>
      dsimp only
      rw [parseAll_nalResults cs rest st]
      simp only [Except.map, Except.bind, contentsIn]
      cases nalResults cs (rest.map (·.2.2)) st <;> simp
    | ok y b =>
      obtain ⟨n, st'⟩ := y
      have ih := parseAll_nalResults cs rest st'
      simp only [Except.map, Except.bind, contentsIn]
      cases h1 : parseAll cs rest st' with
      | error k =>
        rw [h1] at ih
        cases h2 : nalResults cs (rest.map (·.2.2)) st' with
        | error k' => rw [h2] at ih; simpa [Except.map] using ih
        | ok z => rw [h2] at ih; cases ih
      | ok z =>
        rw [h1] at ih
        cases h2 : nalResults cs (rest.map (·.2.2)) st' with
        | error k' => rw [h2] at ih; cases ih
        | ok w =>
          rw [h2] at ih
          simp only [Except.map, contentsIn, Except.ok.injEq, Prod.mk.injEq] at ih
          simp [ih.1, ih.2, contentsOf]

/-- C92: the NAL units of any byte stream (as `FindNaluIndices` finds them), sent over RTP in any fragments, of which the first ones hold what is parsed: the same headers,
payloads and parser state as for the byte stream. -/
theorem C92_stream {data : List UInt8} (hd : data.length < 2 ^ 64) {ss : List Sending} {st st' : ParserState} {rs : List (Option NalUnit)}
    (hn : nalUnitsOf data = ss.map Sending.nal) (hok : ∀ s ∈ ss, s.Ok ∧ s.nal.length < 2 ^ 32 ∧ ∀ p ∈ s.packets, p.length < 2 ^ 32)
    (h : nalResults false (ss.map Sending.start) st = .ok (rs, st'))
    (hw : ∀ x ∈ ss.zip rs, x.1.isFragmented = true → ∀ n, x.2 = some n → Whole n.nal_unit_header.nal_unit_type n.nal_unit_payload) :
    (rtpResults (ss.flatMap Sending.packets) st).map reportedIn = (parseBitstream false st data).map (fun x => (x.1.map contentsOf, x.2)) := by
  obtain ⟨rs', q1, q2⟩ := C92_complete ss st st' rs (fun s hs => (hok s hs).2.1) h hw
  rw [C92_session ss st (fun s hs => ⟨(hok s hs).1, (hok s hs).2.2⟩), parseBitstream_eq false st data hd, parseAll_nalResults, ← nalUnitsOf_eq hd, hn, h, q1]
  have : ∀ a b : List (Option NalUnit), a.map (Option.map contentsOf) = b.map (Option.map contentsOf) →
      (a.filterMap id).map contentsOf = (b.filterMap id).map contentsOf := by
    intro a b e
    have hf : ∀ l : List (Option NalUnit), (l.filterMap id).map contentsOf = (l.map (Option.map contentsOf)).filterMap id := by
      intro l
      induction l with
      | nil => rfl
      | cons o l ih => cases o <;> simp [ih]
    rw [hf, hf, e]
  simp only [Except.map, contentsIn, this rs' rs q2]

/-- C92: a parameter set (without extension data of unknown meaning, a PPS without multilayer extension) whose first fragment ends before its syntax does: one NAL unit
without a payload is reported, and the parser state is as it was. -/
theorem C92_cut_parameter_set {st st' : ParserState} {b0 b1 : UInt8} {first rbsp : List UInt8} {more : List (List UInt8)} {n : NalUnit} {e : BB}
    (hs : (Sending.fragments b0 b1 first more).Ok) (hp : ∀ p ∈ (Sending.fragments b0 b1 first more).packets, p.length < 2 ^ 32)
    (h : parseNalUnit false st (b0 :: b1 :: (first ++ more.flatten)) = .ok (n, st') e) (ht : n.nal_unit_header.nal_unit_type ∈ [32, 33, 34])
    (hw : Whole n.nal_unit_header.nal_unit_type n.nal_unit_payload) (hm : ∀ x, n.nal_unit_payload.pps = some x → x.body.head.pps_multilayer_extension_flag = 0)
    (hu : unescapeRbsp (b0 :: b1 :: first) = .ok rbsp) (hcut : rbsp.length + 1 < n.parsed_length) :
    (rtpResults (Sending.fragments b0 b1 first more).packets st).map reportedIn = .ok ([(n.nal_unit_header, {})], st) := by
  have hle := unesc_le hu
  have hl : (b0 :: b1 :: first).length < 2 ^ 32 := by
    have := hp _ List.mem_cons_self
    simp only [List.length_cons] at this ⊢; omega
  have h2 : 2 ≤ rbsp.length := by
    rw [unescapeRbsp_eq] at hu
    cases hu
    obtain ⟨r', hr⟩ := unesc_two b0 b1 first
    rw [hr]; simp
  obtain ⟨n', e', q1, q2, q3⟩ := C67_truncated (cs' := false) (a := b0 :: b1 :: first) (b := more.flatten) (by simpa using h) ht hw hm hu h2 (by omega) hcut
  rw [C92_one _ st hs hp]
  simp only [Sending.start, nalResults, q1, Except.map, contentsIn]
  simp [contentsOf, q2, q3]

/-- C92: a slice NAL unit whose first fragment ends before the slice header does: one NAL unit without a payload is reported, and the parser state is as it was. -/
theorem C92_cut_slice {st st' : ParserState} {b0 b1 : UInt8} {first rbsp : List UInt8} {more : List (List UInt8)} {n : NalUnit} {e : BB}
    (hs : (Sending.fragments b0 b1 first more).Ok) (hp : ∀ p ∈ (Sending.fragments b0 b1 first more).packets, p.length < 2 ^ 32)
    (h : parseNalUnit false st (b0 :: b1 :: (first ++ more.flatten)) = .ok (n, st') e) (ht : n.nal_unit_payload.slice_segment_layer ≠ none)
    (hu : unescapeRbsp (b0 :: b1 :: first) = .ok rbsp) (hcut : rbsp.length < n.parsed_length) :
    (rtpResults (Sending.fragments b0 b1 first more).packets st).map reportedIn = .ok ([(n.nal_unit_header, {})], st) := by
  have hle := unesc_le hu
  have hl : (b0 :: b1 :: first).length < 2 ^ 32 := by
    have := hp _ List.mem_cons_self
    simp only [List.length_cons] at this ⊢; omega
  have h2 : 2 ≤ rbsp.length := by
    rw [unescapeRbsp_eq] at hu
    cases hu
    obtain ⟨r', hr⟩ := unesc_two b0 b1 first
    rw [hr]; simp
  have hpre : rbsp <+: unesc (b0 :: b1 :: (first ++ more.flatten)) := by
    rw [unescapeRbsp_eq] at hu
    cases hu
    exact unesc_prefix (b0 :: b1 :: first) more.flatten
  obtain ⟨n', e', q1, q2, q3⟩ := C65_truncated (cs' := false) (data' := b0 :: b1 :: first) h ht (unescapeRbsp_eq _) hu (by omega) hpre h2 hcut
  rw [C92_one _ st hs hp]
  simp only [Sending.start, nalResults, q1, Except.map, contentsIn]
  simp [contentsOf, q2, q3]

/-! ### hypotheses met -/

/-- the four NAL units of the test stream: VPS and PPS in packets of their own, the SPS in fragments with `k` bytes in the first, the slice in three fragments -/
def exSendings (k : Nat) : List Sending :=
  [.whole [0x40, 0x01, 0x0c, 0x01, 0xff, 0xff, 0x01, 0x60, 0x00, 0x00, 0x03, 0x00, 0xb0, 0x00, 0x00, 0x03, 0x00, 0x00, 0x03, 0x00, 0x5d, 0xac, 0x59],
   .fragments 0x42 0x01 (testSps.take k) [testSps.drop k], .whole [0x44, 0x01, 0xc0, 0xf3, 0xc0, 0x02, 0x10],
   .fragments 0x26 0x01 (testSlice.take 8) [(testSlice.drop 8).take 2, testSlice.drop 10]]

/-- type of each NAL unit that is reported, and which contents it has -/
def shapes (x : Except Bad (List (NalUnitHeader × NalUnitPayload) × ParserState)) : Option (List (Nat × List Bool)) :=
  match x with
  | .ok (l, _) => some (l.map fun y => (y.1.nal_unit_type, [y.2.vps.isSome, y.2.sps.isSome, y.2.pps.isSome, y.2.slice_segment_layer.isSome]))
  | .error _ => none

/-- the seven packets, and what is reported for them -/
example : ((exSendings 37).flatMap Sending.packets).map (·.take 3) =
      [[0x40, 0x01, 0x0c], [0x62, 0x01, 0xa1], [0x62, 0x01, 0x61], [0x44, 0x01, 0xc0], [0x62, 0x01, 0x93], [0x62, 0x01, 0x13], [0x62, 0x01, 0x53]] ∧
    shapes ((rtpResults ((exSendings 37).flatMap Sending.packets) .empty).map reportedIn) =
      some [(32, [true, false, false, false]), (33, [false, true, false, false]), (34, [false, false, true, false]), (19, [false, false, false, true])] := by
  decide +kernel

/-- hypotheses of `C92_stream` met: all but `Whole` -/
example : nalUnitsOf testStream = (exSendings 37).map Sending.nal ∧ testStream.length < 2 ^ 64 ∧
    (∀ s ∈ exSendings 37, s.Ok ∧ s.nal.length < 2 ^ 32 ∧ ∀ p ∈ s.packets, p.length < 2 ^ 32) := by
  refine ⟨by decide +kernel, by decide, ?_⟩
  intro s hs
  simp only [exSendings, List.mem_cons, List.not_mem_nil, or_false] at hs
  rcases hs with rfl | rfl | rfl | rfl
  · refine ⟨fun b0 r h => ?_, by decide, by decide⟩
    cases h; decide
  · exact ⟨⟨by decide, by decide, by decide⟩, by decide, by decide⟩
  · refine ⟨fun b0 r h => ?_, by decide, by decide⟩
    cases h; decide
  · exact ⟨⟨by decide, by decide, by decide⟩, by decide, by decide⟩

/-- the fragmented NAL units of the example were parsed up to their end -/
example : ∃ rs st', nalResults false ((exSendings 37).map Sending.start) .empty = .ok (rs, st') ∧
    ∀ x ∈ (exSendings 37).zip rs, x.1.isFragmented = true → ∀ n, x.2 = some n → Whole n.nal_unit_header.nal_unit_type n.nal_unit_payload := by
  have hc : (match nalResults false ((exSendings 37).map Sending.start) .empty with
      | .ok (rs, _) => ((exSendings 37).zip rs).all fun x => !x.1.isFragmented || match x.2 with
          | some n => (n.nal_unit_header.nal_unit_type == 19 && n.nal_unit_payload.slice_segment_layer.isSome) ||
              (n.nal_unit_header.nal_unit_type == 33 && (n.nal_unit_payload.sps.map (·.body.sps_extension_4bits)) == some 0)
          | none => true
      | .error _ => false) = true := by decide +kernel
  cases h : nalResults false ((exSendings 37).map Sending.start) .empty with
  | error k => rw [h] at hc; cases hc
  | ok y =>
    obtain ⟨rs, st'⟩ := y
    rw [h] at hc
    dsimp only at hc
    refine ⟨rs, st', rfl, fun x hx hf n hn => ?_⟩
    have := List.all_eq_true.mp hc x hx
    rw [hf, hn] at this
    simp only [Bool.not_true, Bool.false_or, Bool.or_eq_true, Bool.and_eq_true, beq_iff_eq] at this
    rcases this with ⟨h1, h2⟩ | ⟨h1, h2⟩
    · rw [h1]; exact whole_of (fun _ => h2) (fun h => absurd h (by decide)) (fun h => absurd h (by decide)) (fun h => absurd h (by decide)) (fun h => absurd h (by decide)) (fun h => absurd h (by decide))
    · rw [h1]; exact whole_of (fun h => absurd h (by decide)) (fun h => absurd h (by decide)) (fun _ => h2) (fun h => absurd h (by decide)) (fun h => absurd h (by decide)) (fun h => absurd h (by decide))

/-- Cut inside the SPS, as `C92_cut_parameter_set` says, the SPS is not reported; and then the slice is not either, although its own first fragment holds its header: the
condition of `C92_complete` on every fragmented NAL unit is needed. -/
example : shapes ((rtpResults ((exSendings 20).flatMap Sending.packets) .empty).map reportedIn) =
    some [(32, [true, false, false, false]), (33, [false, false, false, false]), (34, [false, false, true, false]), (19, [false, false, false, false])] := by
  decide +kernel

end H265
