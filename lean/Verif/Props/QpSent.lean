/- C79: slice QPs of a conforming stream. -/
import Verif.Spec.QpSent
import Verif.Props.RtpSendAp
import Verif.Props.Utils

set_option autoImplicit false

namespace H265
open Prog Spec

/-! ### GetSliceQpY for RTP packets, in terms of the NAL units reported -/

/-- the payload of a fragmentation unit is there exactly for the first fragment -/
theorem parseRtpFu_payload {st st' : ParserState} {bb bb' : BB} {x : RtpFu} (h : (parseRtpFu st).run bb = .ok (x, st') bb') :
    (x.s_bit = 0 → x.nal_unit_payload = none) ∧ (x.s_bit ≠ 0 → x.nal_unit_payload.isSome = true) := by
  unfold parseRtpFu at h
  obtain ⟨hd, c, _, h⟩ := Prog.bind_ok h
  obtain ⟨s, c2, _, h⟩ := Prog.bind_ok h
  obtain ⟨e, c3, _, h⟩ := Prog.bind_ok h
  obtain ⟨t, c4, _, h⟩ := Prog.bind_ok h
  split at h
  · next hs => cases h; exact ⟨fun _ => rfl, fun hne => absurd hs hne⟩
  · next hs =>
    obtain ⟨⟨p, s1⟩, c5, _, h⟩ := Prog.bind_ok h
    cases h
    exact ⟨fun h0 => absurd h0 hs, fun _ => rfl⟩

theorem rtp_fu_payload {st st' : ParserState} {data : List UInt8} {r : Rtp} {fu : RtpFu} (hlen : data.length < 2 ^ 32)
    (h : parseRtp st data = .ok (some r, st')) (hf : r.rtp_fu = some fu) :
    (fu.s_bit = 0 → fu.nal_unit_payload = none) ∧ (fu.s_bit ≠ 0 → fu.nal_unit_payload.isSome = true) := by
  obtain ⟨rbsp, hu, _⟩ := C11_unescape_bounds data
  have hle := unesc_le hu
  rw [parseRtp_eq hu (by omega)] at h
  unfold parseRtpBB at h
  split at h
  · cases h
  · cases h
  · dsimp only at h
    split at h
    · unfold rtpOut at h
      split at h
      · cases h; cases hf
      · cases h
      · cases h
    split at h
    · unfold rtpApOut at h
      split at h
      · rename_i o s b hx
        cases o with
        | none => cases h
        | some x => cases h; cases hf
      · cases h
      · cases h
    split at h
    · unfold rtpOut at h
      split at h
      · rename_i x s b hx
        cases h; cases hf
        exact parseRtpFu_payload hx
      · cases h
      · cases h
    · cases h; cases hf

/-- C41: GetSliceQpY for an RTP packet that was parsed is the value of the last NAL unit reported for the packet; there is none if no NAL unit was reported (a later
fragment or a packet of another kind), except that an aggregation packet without units is read out of bounds. -/
theorem C41_rtp_units {st st' : ParserState} {data : List UInt8} {r : Rtp} (hlen : data.length < 2 ^ 32) (h : parseRtp st data = .ok (some r, st')) (st2 : ParserState)
    (hn : (Std.rtpUnits r).length < 2 ^ 64) :
    getSliceQpYRtp r st2 =
      match (Std.rtpUnits r).getLast? with
      | some (hd, p) => getSliceQpYInternal hd.nal_unit_type (some p) st2
      | none => if r.rtp_ap.isSome then .error .oob else .ok none := by
  obtain ⟨rbsp, hu, _⟩ := C11_unescape_bounds data
  obtain ⟨b0, b1, rest, _, hh, h1, h2, h3, h4⟩ := C37_dispatch hu hlen h
  have ht : r.nal_unit_header.nal_unit_type = b0.toNat / 2 % 64 := by rw [hh]
  obtain ⟨q1, q2, q3, q4, q5⟩ := C41_rtp r st2
  rw [ht] at q1 q2 q3 q4 q5
  by_cases c1 : b0.toNat / 2 % 64 ≤ 47
  · obtain ⟨x, hx, _, e1, e2⟩ := h1 c1
    rw [q1 c1 x hx]
    simp [Std.rtpUnits, hx, e1, e2]
  by_cases c2 : b0.toNat / 2 % 64 = 48
  · obtain ⟨ap, hx, _, e1, e2⟩ := h2 c2
    have hun : Std.rtpUnits r = ap.units.map fun u => (u.nal_unit_header, u.nal_unit_payload) := by simp [Std.rtpUnits, hx, e1, e2]
    rw [hun, List.length_map] at hn
    rw [hun]
    cases hl : ap.units.getLast? with
    | some u => rw [q2 c2 ap u hx hl hn, List.getLast?_map, hl]; rfl
    | none =>
      rw [List.getLast?_map, hl]
      rw [List.getLast?_eq_none_iff] at hl
      unfold getSliceQpYRtp
      rw [ht, if_neg c1, if_pos c2, hx]
      dsimp only
      rw [hl]; rfl
  by_cases c3 : b0.toNat / 2 % 64 = 49
  · obtain ⟨fu, hx, _, e1, e2⟩ := h3 c3
    obtain ⟨p1, p2⟩ := rtp_fu_payload hlen h hx
    by_cases hs : fu.s_bit = 0
    · rw [q4 c3 fu hx hs]
      simp [Std.rtpUnits, hx, e1, e2, p1 hs]
    · rw [q3 c3 fu hx hs]
      have := p2 hs
      cases hp : fu.nal_unit_payload with
      | none => rw [hp] at this; cases this
      | some p => simp [Std.rtpUnits, hx, e1, e2, hp]
  · obtain ⟨e1, e2, e3, _⟩ := h4 (by omega)
    rw [q5 (by omega)]
    simp [Std.rtpUnits, e1, e2, e3]

/-! ### conforming streams -/

namespace Std

/-- the NAL units of a sequence after which the parameter sets are `d'` all came before: the PPS of that id at the end -/
theorem qp_kept {d d' : StdParams} {l : List StdNal} (h : SentAll d l d') {i : Nat} {P : PpsBody} (hp : d.pps i = some P)
    (hk : ∀ y ∈ l, ∀ Q, y.unit = .pps Q → Q.head.pps_pic_parameter_set_id = i → Q.head.init_qp_minus26 = P.head.init_qp_minus26) :
    ∃ Q, d'.pps i = some Q ∧ Q.head.init_qp_minus26 = P.head.init_qp_minus26 := by
  induction h generalizing P with
  | nil => exact ⟨P, hp, rfl⟩
  | @cons d d' n ns h1 h2 ih =>
    have step : ∃ Q, (d.after n.unit).pps i = some Q ∧ Q.head.init_qp_minus26 = P.head.init_qp_minus26 := by
      cases hu : n.unit with
      | pps Q =>
        by_cases he : i = Q.head.pps_pic_parameter_set_id
        · exact ⟨Q, by simp [StdParams.after, he], hk n (by simp) Q hu he.symm⟩
        · exact ⟨P, by simp [StdParams.after, he, hp], rfl⟩
      | _ => exact ⟨P, hp, rfl⟩
    obtain ⟨Q, e1, e2⟩ := step
    obtain ⟨R, r1, r2⟩ := ih e1 (fun y hy R hR hi => (hk y (by simp [hy]) R hR hi).trans e2.symm)
    exact ⟨R, r1, r2.trans e2⟩

/-- one slice: the value, if the state holds a PPS with its init_qp_minus26 -/
theorem qp_one {d : StdParams} {st : ParserState} {x : StdNal} {p : NalUnitPayload} {t : Nat} (hg : GoodParams d) (ht : t = x.header.nal_unit_type) (hx : SentNal d x) (hp : ReportsPayload x p)
    (hk : ∀ hd s e P, x.unit = .slice hd s e → d.pps hd.slice_pic_parameter_set_id = some P →
      ∃ V, st.pps hd.slice_pic_parameter_set_id = some V ∧ V.body.head.init_qp_minus26 = P.head.init_qp_minus26) :
    getSliceQpYInternal t (some p) st = .ok (sentQp d x.unit) := by
  obtain ⟨w, hw, _⟩ := hx.contents
  obtain ⟨hdr, un, tail, rbsp⟩ := x
  simp only at hw hp hk ht ⊢
  subst ht
  cases hw with
  | slice hd s e P ptl S h1 h2 h3 h4 h5 h6 =>
    have hp : p = { slice_segment_layer := some ⟨hdr.nal_unit_type, hd, s⟩ } := hp
    obtain ⟨V, v1, v2⟩ := hk hd s e P rfl h2
    have hty : isSliceSegment hdr.nal_unit_type = true := by
      simp only [isSliceSegment, List.contains_iff_mem, List.mem_cons, List.not_mem_nil, or_false]
      omega
    rw [C41_internal hty, hp]
    dsimp only
    rw [v1]
    dsimp only
    have hfit : QpFits V ⟨hdr.nal_unit_type, hd, s⟩ := by
      have b1 := (hg.pps _ _ h2).1.head.init_qp_minus26
      have b2 := (hg.sps _ _ _ h3).1.bit_depth_luma_minus8
      have b3 := h5.slice_qp_delta
      unfold QpFits sliceQpY
      rw [v2]
      by_cases hd0 : s.dependent_slice_segment_flag = 0
      · have := b3.present hd0
        simp only
        omega
      · have := b3.absent hd0
        simp only [this]
        omega
    rw [if_pos hfit]
    simp [sentQp, sliceQpY, h2, v2]
  | vps ptl s h1 => exact C41_internal_other (by rw [h1]; decide)
  | sps ptl s h1 => exact C41_internal_other (by rw [h1]; decide)
  | pps s h1 => exact C41_internal_other (by rw [h1]; decide)
  | aud a h1 => exact C41_internal_other (by rw [h1]; decide)
  | sei t size q h1 => exact C41_internal_other (by rcases h1 with h1 | h1 <;> rw [h1] <;> decide)
  | other h1 h2 h3 h4 h5 =>
    refine C41_internal_other fun hc => ?_
    simp only [isSliceSegment, List.contains_iff_mem, List.mem_cons, List.not_mem_nil, or_false] at hc
    omega

/-- the loop over the NAL units -/
theorem qp_loop {d d' : StdParams} {st : ParserState} : ∀ {l : List StdNal} {ns : List NalUnit}, GoodParams d → SentAll d l d' → Holds d' st → NoOtherQpLater d l →
    ns.length = l.length → (∀ x ∈ l.zip ns, Reports x.1 x.2) → sliceQpLoop st ns = .ok (sentQps d l) := by
  intro l ns hg hs hh hk hn hr
  induction hs generalizing ns with
  | nil => rw [List.length_nil, List.length_eq_zero_iff] at hn; subst hn; rfl
  | @cons d d' x l h1 h2 ih =>
    cases ns with
    | nil => simp at hn
    | cons n ns =>
      obtain ⟨w, hw, _⟩ := h1.contents
      obtain ⟨k1, k2⟩ := hk
      obtain ⟨r1, r2⟩ := hr (x, n) (by simp)
      simp only at r1 r2
      have e := qp_one (st := st) hg (congrArg (·.nal_unit_type) r1) h1 r2 fun hd s e P hu hP => by
        have hP' : (d.after x.unit).pps hd.slice_pic_parameter_set_id = some P := by rw [hu]; exact hP
        obtain ⟨Q, q1, q2⟩ := qp_kept h2 hP' (k1 hd s e P hu hP)
        obtain ⟨V, v1, v2⟩ := hh.pps _ _ q1
        exact ⟨V, v1, by rw [v2, q2]⟩
      unfold sliceQpLoop
      rw [e]
      dsimp only
      rw [ih (hg.after hw) hh k2 (by simpa using hn) (fun y hy => hr y (by simp [hy]))]
      rfl

/-- C79: the slice QPs of an Annex B byte stream of NAL units written after the standard: GetSliceQpY succeeds and gives 26 + init_qp_minus26 + slice_qp_delta for
each slice NAL unit, in order, with the values that were sent, provided no later PPS takes the id of the PPS of a slice with another init_qp_minus26. -/
theorem C79_stream (st : ParserState) (start : List Bool) (l : List StdNal) (d' : StdParams) (hr : Reach st)
    (hs : SentAll .none l d') (hk : NoOtherQpLater .none l) (hn : start.length = l.length)
    (hlen : (annexB (start.zip (l.map fun x => escape x.rbsp))).length < 2 ^ 32) :
    ∃ st', getSliceQpY st (annexB (start.zip (l.map fun x => escape x.rbsp))) = .ok (sentQps .none l, st') ∧ Holds d' st' := by
  obtain ⟨ns, st', h1, h2, h3, h4, _⟩ := C48_annexB false st start l d' hr hs hn hlen
  refine ⟨st', ?_, h4⟩
  unfold getSliceQpY
  rw [h1]
  dsimp only
  rw [qp_loop GoodParams.none hs h4 hk h2 h3]

theorem qp_range {d : StdParams} {x : StdNal} {q : Int} (hg : GoodParams d) (hx : SentNal d x) (hq : sentQp d x.unit = some q) : -48 ≤ q ∧ q ≤ 51 := by
  obtain ⟨w, hw, _⟩ := hx.contents
  obtain ⟨hdr, un, tail, rbsp⟩ := x
  simp only at hw hq
  cases hw with
  | slice hd s e P ptl S h1 h2 h3 h4 h5 h6 =>
    simp only [sentQp, h2, Option.map_some, Option.some.injEq] at hq
    have b1 := (hg.pps _ _ h2).1.head.init_qp_minus26
    have b2 := (hg.sps _ _ _ h3).1.bit_depth_luma_minus8
    by_cases hd0 : s.dependent_slice_segment_flag = 0
    · have := h5.slice_qp_delta.present hd0
      omega
    · have := h5.slice_qp_delta.absent hd0
      omega
  | _ => cases hq

/-- C79: the values are in the range of the standard: at most 51, and at least -6 * bit_depth_luma_minus8 >= -48. -/
theorem C79_range {l : List StdNal} {d' : StdParams} (hs : SentAll .none l d') : ∀ q ∈ sentQps .none l, -48 ≤ q ∧ q ≤ 51 := by
  have key : ∀ {d d' : StdParams} {l : List StdNal}, SentAll d l d' → GoodParams d → ∀ q ∈ sentQps d l, -48 ≤ q ∧ q ≤ 51 := by
    intro d d' l hs
    induction hs with
    | nil d => intro _ q hq; simp [sentQps] at hq
    | cons hx hs ih =>
      intro hg q hq
      simp only [sentQps, List.mem_append, Option.mem_toList] at hq
      rcases hq with hq | hq
      · exact qp_range hg hx hq
      · obtain ⟨w, hw, _⟩ := hx.contents
        exact ih (hg.after hw) q hq
  exact key hs GoodParams.none

/-- A receiver that asks for the slice QP after each packet, with the parser state at that time. -/
def rtpQps : List (List UInt8) → ParserState → Except Bad (List Int × ParserState)
  | [], st => .ok ([], st)
  | p :: ps, st =>
    match parseRtp st p with
    | .error k => .error k
    | .ok (r, st1) =>
      match r.elim (.ok none) (getSliceQpYRtp · st1) with
      | .error k => .error k
      | .ok q =>
        match rtpQps ps st1 with
        | .error k => .error k
        | .ok (qs, st2) => .ok (q.toList ++ qs, st2)

theorem rtpQps_append : ∀ (ps qs : List (List UInt8)) (st st1 : ParserState) (a : List Int), rtpQps ps st = .ok (a, st1) →
    rtpQps (ps ++ qs) st = match rtpQps qs st1 with | .error k => .error k | .ok (b, st2) => .ok (a ++ b, st2)
  | [], qs, st, st1, a, h => by
    cases h
    simp only [List.nil_append]
    cases rtpQps qs st with
    | error k => rfl
    | ok v => rfl
  | p :: ps, qs, st, st1, a, h => by
    simp only [rtpQps] at h
    simp only [List.cons_append, rtpQps]
    cases hp : parseRtp st p with
    | error k => rw [hp] at h; cases h
    | ok v =>
      obtain ⟨r, s1⟩ := v
      rw [hp] at h
      dsimp only at h ⊢
      cases hq : r.elim (.ok none) (getSliceQpYRtp · s1) with
      | error k => rw [hq] at h; cases h
      | ok q =>
        rw [hq] at h
        dsimp only at h ⊢
        cases hrest : rtpQps ps s1 with
        | error k => rw [hrest] at h; cases h
        | ok v2 =>
          obtain ⟨b, s2⟩ := v2
          rw [hrest] at h
          dsimp only at h
          cases h
          rw [rtpQps_append ps qs s1 _ b hrest]
          cases rtpQps qs st1 with
          | error k => rfl
          | ok v3 => simp

/-- the value asked for after a packet for which one NAL unit was reported -/
theorem qp_packet {d : StdParams} {st st1 : ParserState} {x : StdNal} {packet : List UInt8} {r : Rtp} {p : NalUnitPayload} (hg : GoodParams d) (hx : SentNal d x)
    (hlen : packet.length < 2 ^ 32) (h : parseRtp st packet = .ok (some r, st1)) (hu : rtpUnits r = [(x.header, p)]) (hp : ReportsPayload x p)
    (hh : Holds (d.after x.unit) st1) : getSliceQpYRtp r st1 = .ok (sentQp d x.unit) := by
  rw [C41_rtp_units hlen h st1 (by rw [hu]; simp), hu]
  simp only [List.getLast?_singleton]
  refine qp_one hg rfl hx hp fun hd s e P hun hP => ?_
  obtain ⟨V, v1, v2⟩ := hh.pps hd.slice_pic_parameter_set_id P (by rw [hun]; exact hP)
  exact ⟨V, v1, by rw [v2]⟩

/-- later fragments -/
theorem qp_later {h : NalUnitHeader} (hv : ValidNalUnitHeader h) (ht : h.nuh_temporal_id_plus1 ≠ 0) (st : ParserState) :
    ∀ {datas packets : List (List UInt8)}, FuRest h datas packets → (∀ p ∈ packets, p.length < 2 ^ 32) → rtpQps packets st = .ok ([], st) := by
  have one : ∀ {e : Nat} {data packet : List UInt8}, e < 2 → FuPacket h 0 e data packet → packet.length < 2 ^ 32 →
      ∃ r : Rtp, parseRtp st packet = .ok (some r, st) ∧ getSliceQpYRtp r st = .ok none := by
    intro e data packet he hp hl
    obtain ⟨r, h1, h2, h3⟩ := later_fragment hv ht st he hp hl
    refine ⟨r, h1, ?_⟩
    rw [C41_rtp_units hl h1 st (by rw [h2]; simp), h2, h3]
    rfl
  intro datas packets hr
  induction hr with
  | last hp =>
    intro hl
    obtain ⟨r, h1, h2⟩ := one (by omega) hp (hl _ (by simp))
    simp only [rtpQps, h1, Option.elim, h2]; rfl
  | more hp _ ih =>
    intro hl
    obtain ⟨r, h1, h2⟩ := one (by omega) hp (hl _ (by simp))
    simp only [rtpQps, h1, Option.elim, h2, ih fun p hp => hl p (by simp [hp])]; rfl

theorem sentQps_closed {d d' : StdParams} {l : List StdNal} (h : SentAll d l d') (hc : ∀ x ∈ l, Closed x) (xs : List StdNal) : sentQps d (l ++ xs) = sentQps d' xs := by
  induction h with
  | nil => rfl
  | @cons d d' n ns h1 h2 ih =>
    have : sentQp d n.unit = none := by
      have hn := hc n (by simp)
      unfold Closed at hn
      cases hu : n.unit with
      | slice a b c => rw [hu] at hn; exact hn.elim
      | _ => rfl
    simp only [List.cons_append, sentQps, this, Option.toList_none, List.nil_append]
    exact ih fun x hx => hc x (by simp [hx])

/-- an aggregation packet of parameter sets, access unit delimiters and NAL units without contents -/
theorem qp_aggregate {d d' : StdParams} {st2 : ParserState} {h : NalUnitHeader} {xs : List StdNal} {us : List RtpApUnit} (hs : SentAll d xs d') (hne : xs ≠ [])
    (hc : ∀ x ∈ xs, Closed x) (hh : h.nal_unit_type = 48) (hn : us.length = xs.length) (hb : us.length < 2 ^ 64)
    (hu : ∀ y ∈ xs.zip us, y.2.nal_unit_header = y.1.header) :
    getSliceQpYRtp { nal_unit_header := h, rtp_ap := some ⟨h, us⟩ } st2 = .ok none := by
  have hus : us ≠ [] := by intro h0; rw [h0] at hn; exact hne (List.length_eq_zero_iff.mp hn.symm)
  rw [(C41_rtp _ st2).2.1 hh ⟨h, us⟩ (us.getLast hus) rfl (List.getLast?_eq_some_getLast hus) hb]
  have hz : (xs.getLast hne, us.getLast hus) ∈ xs.zip us := by
    rw [List.getLast_eq_getElem, List.getLast_eq_getElem]
    refine List.mem_iff_getElem.mpr ⟨us.length - 1, ?_, ?_⟩
    · have := List.length_pos_iff.mpr hus
      simp only [List.length_zip]; omega
    · simp [hn]
  have e1 := hu _ hz
  simp only at e1
  rw [e1]
  have hcl := hc _ (List.getLast_mem hne)
  have hsn : ∃ d0, SentNal d0 (xs.getLast hne) := by
    have : ∀ {d d' : StdParams} {l : List StdNal}, SentAll d l d' → ∀ x ∈ l, ∃ d0, SentNal d0 x := by
      intro d d' l h
      induction h with
      | nil => intro x hx; simp at hx
      | cons h1 _ ih =>
        intro x hx
        simp only [List.mem_cons] at hx
        rcases hx with rfl | hx
        · exact ⟨_, h1⟩
        · exact ih x hx
    exact this hs _ (List.getLast_mem hne)
  obtain ⟨d0, hsn⟩ := hsn
  obtain ⟨w, hw, _⟩ := hsn.contents
  refine C41_internal_other fun hty => ?_
  generalize xs.getLast hne = x at hcl hw hty
  obtain ⟨hdr, un, tail, rbsp⟩ := x
  simp only at hcl hw hty
  simp only [isSliceSegment, List.contains_iff_mem, List.mem_cons, List.not_mem_nil, or_false] at hty
  cases hw with
  | slice => exact hcl
  | sei => exact hcl
  | vps _ _ h1 => omega
  | sps _ _ h1 => omega
  | pps _ h1 => omega
  | aud _ h1 => omega
  | other h1 h2 => omega

theorem qp_session {d d' : StdParams} {l : List StdNal} {ps : List (List UInt8)} (h : SentRtp d l ps d') : ∀ {st : ParserState}, GoodParams d → Holds d st → Reach st →
    (∀ p ∈ ps, p.length < 2 ^ 32) → ∃ st', rtpQps ps st = .ok (sentQps d l, st') ∧ Holds d' st' := by
  induction h with
  | nil => intro st _ hh hr _; exact ⟨st, rfl, hh⟩
  | @single d d' x xs ps hx ht _ ih =>
    intro st hg hh hr hl
    obtain ⟨w, hw, _⟩ := hx.contents
    obtain ⟨r, st1, h1, ⟨p, h2, h3⟩, h4, h5⟩ := C77_single hg hh hr hx ht (hl _ (by simp))
    obtain ⟨st', g1, g2⟩ := ih (hg.after hw) h4 h5 (fun p hp => hl p (by simp [hp]))
    refine ⟨st', ?_, g2⟩
    simp only [rtpQps, h1, Option.elim, qp_packet hg hx (hl _ (by simp)) h1 h2 h3 h4, g1, sentQps]
  | @fragments d d' x xs head first p datas qs ps hx ht he hh2 hsh hp hq _ ih =>
    intro st hg hh hr hl
    obtain ⟨w, hw, _⟩ := hx.contents
    obtain ⟨r, st1, h1, ⟨q, h2, h3⟩, h4, h5⟩ := C77_first_fragment hg hh hr hx ht ⟨datas.flatten, by rw [he, List.append_assoc]⟩ hh2 hsh hp (hl _ (by simp))
    have k1 := qp_later hx.header ht st1 hq (fun y hy => hl y (by simp [hy]))
    obtain ⟨st', g1, g2⟩ := ih (hg.after hw) h4 h5 (fun y hy => hl y (by simp [hy]))
    refine ⟨st', ?_, g2⟩
    simp only [rtpQps, h1, Option.elim, qp_packet hg hx (hl _ (by simp)) h1 h2 h3 h4, rtpQps_append _ _ _ _ _ k1, g1, sentQps, List.nil_append]
  | @aggregate d d1 d' hd as xs p ps hs hne hc hf hp _ ih =>
    intro st hg hh hr hl
    obtain ⟨us, st1, h1, h2, h3, h4, h5⟩ := C77_aggregate hg hh hs hc hf hp (hl _ (by simp))
    obtain ⟨st', g1, g2⟩ := ih h4 h5 (hr.step (C37_steps (hl _ (by simp)) h1).choose_spec) (fun p hp => hl p (by simp [hp]))
    refine ⟨st', ?_, g2⟩
    have hlt : us.length < 2 ^ 64 := by
      have hpl := hl p (by simp)
      obtain ⟨head, e1, _⟩ := hp
      have : as.length ≤ p.length := by
        rw [e1, List.length_append]
        have hgen : ∀ ys : List (List UInt8), ys.length ≤ (lengthPrefixed 2 ys).length := by
          intro ys
          induction ys with
          | nil => simp
          | cons y ys ih => simp only [lengthPrefixed, List.map_cons, List.flatten_cons, List.length_append, List.length_cons, beBytes_length] at ih ⊢; omega
        have := hgen (as.map fun x => escape x.rbsp)
        simp only [List.length_map] at this
        omega
      omega
    have hq := qp_aggregate (st2 := st1) hs hne hc hp.choose_spec.2.2.1 h2 hlt (fun y hy => (h3 y hy).2.1)
    simp only [rtpQps, h1, Option.elim, hq, g1, sentQps_closed hs hc]
    rfl

/-- C79: the same over RTP: a receiver that parses each packet and then asks for its slice QP gets the values of the slices, in order, each with the PPS in force when
it was sent (later PPSs do not matter), and nothing for the other packets. -/
theorem C79_rtp (st : ParserState) (l : List StdNal) (ps : List (List UInt8)) (d' : StdParams) (hr : Reach st) (hs : SentRtp .none l ps d')
    (hlen : ∀ p ∈ ps, p.length < 2 ^ 32) : ∃ st', rtpQps ps st = .ok (sentQps .none l, st') ∧ Holds d' st' :=
  qp_session hs GoodParams.none (Holds.none st) hr hlen

/-! ### hypotheses met: the five NAL units of `exNals`, whose slices have slice_qp_delta 9 and -3 -/

theorem exNals_qps : sentQps .none exNals = [35, 23] := by decide +kernel

theorem exNals_noOther : NoOtherQpLater .none exNals := by
  simp only [exNals, NoOtherQpLater, exNal]
  refine ⟨?_, ?_, ?_, ?_, ?_, trivial⟩
  all_goals
    intro hd s e P hx hP y hy Q hQ
    first
    | (cases hx; done)
    | (simp only [List.mem_cons, List.not_mem_nil, or_false] at hy
       subst hy
       cases hQ)
    | cases hy

example : ∃ st', getSliceQpY ParserState.empty (annexB ((List.replicate 5 true).zip (exNals.map fun x => escape x.rbsp))) = .ok ([35, 23], st') := by
  obtain ⟨d, h⟩ := exNals_sent
  obtain ⟨st', h1, _⟩ := C79_stream .empty (List.replicate 5 true) exNals d .empty h exNals_noOther rfl (by decide +kernel)
  exact ⟨st', by rw [h1, exNals_qps]⟩

example : ∃ st', rtpQps exPackets ParserState.empty = .ok ([35, 23], st') := by
  obtain ⟨d, h⟩ := exPackets_sent
  obtain ⟨st', h1, _⟩ := C79_rtp .empty exNals exPackets d .empty h (by decide +kernel)
  exact ⟨st', by rw [h1, exNals_qps]⟩

end Std

end H265
