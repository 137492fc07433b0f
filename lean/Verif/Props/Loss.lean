/-
C72: RTP packets that get lost.
-/
import Verif.Spec.Loss
import Verif.Props.Containers

set_option autoImplicit false

namespace H265
open Spec

theorem PayloadOn.steps {t : Nat} {st st' : ParserState} {r r' : List Bool} {p : NalUnitPayload} (h : PayloadOn t st r p st' r') : Steps st [p] st' := by
  obtain ⟨b, b', hw, _, _, hr⟩ := h
  exact .cons hw hr (.nil _)

theorem apUnits_steps {st st' : ParserState} {r : List Bool} {us : List RtpApUnit} (h : ApUnits st r us st') :
    Steps st (us.map (·.nal_unit_payload)) st' := by
  induction h with
  | nil => exact .nil _
  | cons _ _ _ hp _ ih => exact hp.steps.append ih

/-- the state after a packet that is reported is that of the payloads reported -/
theorem rtp_payload_steps {st st' : ParserState} {data : List UInt8} {r : Rtp} (hlen : data.length < 2 ^ 32) (h : parseRtp st data = .ok (some r, st')) :
    Steps st (rtpPayloads r) st' := by
  obtain ⟨rbsp, hu, _⟩ := C11_unescape_bounds data
  have hle := unesc_le hu
  match rbsp, hu, hle with
  | [], hu, _ => rw [C37_short hu (by simp)] at h; cases h
  | [x], hu, _ => rw [C37_short hu (by simp)] at h; cases h
  | b0 :: b1 :: rest, hu, hle =>
    rw [parseRtp_eq hu (by omega), parseRtpBB_eq] at h
    have hw := BB.WF.init (b0 :: b1 :: rest)
    split at h
    · unfold rtpOut at h
      split at h
      · rename_i x s b hx
        cases h
        unfold parseRtpSingle at hx
        obtain ⟨a, c, ha, hx⟩ := Prog.bind_ok hx
        obtain ⟨⟨p, s1⟩, c2, hp, hx⟩ := Prog.bind_ok hx
        cases hx
        exact .cons (run_ok_wf hw ha).1 hp (.nil _)
      · cases h
      · cases h
    split at h
    · unfold rtpApOut at h
      split at h
      · rename_i o s b hx
        cases o with
        | none => cases h
        | some x =>
          cases h
          obtain ⟨_, _, _, hau⟩ := C38_sound hw hx
          simpa [rtpPayloads] using apUnits_steps hau
      · cases h
      · cases h
    split at h
    · unfold rtpOut at h
      split at h
      · rename_i x s b hx
        cases h
        obtain ⟨_, _, _, hb, _, _, h0, hp⟩ := C39_sound hw hx
        by_cases hz : x.s_bit = 0
        · rw [(h0 hz).2.1]
          simp only [rtpPayloads, (h0 hz).1, Option.toList, List.append_nil]
          exact .nil _
        · obtain ⟨p, h4, h5⟩ := hp (by omega)
          simp only [rtpPayloads, h4, Option.toList, List.nil_append]
          exact h5.steps
      · cases h
      · cases h
    · cases h; exact .nil _

/-- null for anything but an aggregation packet: the state stays -/
theorem rtp_null_state {st st' : ParserState} {data : List UInt8} (hlen : data.length < 2 ^ 32) (h : parseRtp st data = .ok (none, st'))
    (ht : ∀ h, rawHeader data = some h → h.nal_unit_type ≠ 48) : st' = st := by
  match data, hlen with
  | [], _ => rw [C37_short (unescapeRbsp_eq _) (by decide)] at h; cases h; rfl
  | [x], _ => rw [C37_short (unescapeRbsp_eq _) (by simp [unesc])] at h; cases h; rfl
  | b0 :: b1 :: r, hlen =>
    obtain ⟨r', hr⟩ := unesc_two b0 b1 r
    have hu := unescapeRbsp_eq (b0 :: b1 :: r)
    rw [hr] at hu
    have hle := unesc_le hu
    have ht : (headerOf b0 b1).nal_unit_type ≠ 48 := ht _ rfl
    rw [parseRtp_eq hu (by omega), parseRtpBB_eq, if_neg ht] at h
    split at h
    · unfold rtpOut at h
      split at h <;> cases h
      rfl
    split at h
    · unfold rtpOut at h
      split at h <;> cases h
      rfl
    · cases h

theorem steps_current {st st' : ParserState} {ps : List NalUnitPayload} (h : Steps st ps st') (hn : ∀ p ∈ ps, Current st p) : st' = st := by
  induction h with
  | nil => rfl
  | @cons a b c t bb bb' p ps hwf hr _ ih =>
    have : b = a := by rw [payload_effect_eq hr]; exact effect_current (hn p (by simp))
    subst this
    exact ih fun q hq => hn q (by simp [hq])

/-- C72: a packet that brings nothing new leaves the parser state as it is. -/
theorem C72_state {st st' : ParserState} {data : List UInt8} {o : Option Rtp} (hlen : data.length < 2 ^ 32) (h : parseRtp st data = .ok (o, st'))
    (hn : MayGetLost st data o) : st' = st := by
  cases o with
  | none => exact rtp_null_state hlen h hn
  | some r => exact steps_current (rtp_payload_steps hlen h) hn

/-- C72: when packets get lost that bring nothing new, the results for the packets that arrive and the parameter sets known in the end are those of the complete
session. -/
theorem C72_loss : ∀ (packets : List (List UInt8 × Bool)) (st st' : ParserState) (rs : List (Option Rtp)), (∀ x ∈ packets, x.1.length < 2 ^ 32) →
    LossHarmless st packets → rtpResults (packets.map (·.1)) st = .ok (rs, st') →
    rtpResults ((packets.filter (·.2)).map (·.1)) st = .ok (((packets.zip rs).filter (·.1.2)).map (·.2), st')
  | [], st, st', rs, _, _, h => by cases h; rfl
  | (p, b) :: rest, st, st', rs, hlen, hh, h => by
    simp only [List.map_cons, rtpResults, LossHarmless] at h hh
    cases h1 : parseRtp st p with
    | error k => rw [h1] at h; cases h
    | ok x =>
      obtain ⟨o, st1⟩ := x
      rw [h1] at h hh
      dsimp only at h hh
      cases h2 : rtpResults (rest.map (·.1)) st1 with
      | error k => rw [h2] at h; cases h
      | ok y =>
        obtain ⟨qs, st2⟩ := y
        rw [h2] at h
        cases h
        have ih := C72_loss rest st1 _ qs (fun x hx => hlen x (by simp [hx])) hh.2 h2
        cases b with
        | true =>
          simp only [List.filter_cons, List.map_cons, List.zip_cons_cons, if_true, rtpResults, h1, ih]
        | false =>
          have e : st1 = st := C72_state (hlen (p, false) (by simp)) h1 (hh.1 rfl)
          subst e
          simpa [List.filter_cons] using ih

/-- C72: which packets may get lost can be told from their first three bytes, whatever was received before. -/
theorem C72_by_header {st st' : ParserState} {data : List UInt8} {o : Option Rtp} (hlen : data.length < 2 ^ 32) (hc : carriesNoParameterSet data = true)
    (h : parseRtp st data = .ok (o, st')) : MayGetLost st data o ∧ st' = st := by
  have key : MayGetLost st data o := by
    have none_of : ∀ {t : Nat} {s s' : ParserState} {bb bb' : BB} {p : NalUnitPayload}, (parseNalUnitPayload t s).run bb = .ok (p, s') bb' →
        t ∉ [32, 33, 34] → Current st p := by
      intro t s s' bb bb' p hp ht
      obtain ⟨g1, g2, g3, _⟩ := C21_payload hp
      simp only [List.mem_cons, List.not_mem_nil, or_false, not_or] at ht
      exact ⟨fun x hx => absurd (g1 x hx).1 ht.1, fun x hx => absurd (g2 x hx).1 ht.2.1, fun x hx => absurd (g3 x hx).1 ht.2.2⟩
    match data, hlen with
    | [], _ => rw [C37_short (unescapeRbsp_eq _) (by decide)] at h; cases h; intro h hh; cases hh
    | [x], _ => rw [C37_short (unescapeRbsp_eq _) (by simp [unesc])] at h; cases h; intro h hh; cases hh
    | b0 :: b1 :: r, hlen =>
      have ht : (headerOf b0 b1).nal_unit_type = b0.toNat / 2 % 64 := rfl
      have h48 : b0.toNat / 2 % 64 ≠ 48 := by
        intro e
        simp [carriesNoParameterSet, e] at hc
      cases o with
      | none =>
        intro h hh
        cases hh
        exact h48
      | some x =>
        intro p hp
        obtain ⟨r', hr⟩ := unesc_two b0 b1 r
        have hu := unescapeRbsp_eq (b0 :: b1 :: r)
        rw [hr] at hu
        have hle := unesc_le hu
        have hw := BB.WF.init (b0 :: b1 :: r')
        rw [parseRtp_eq hu (by omega), parseRtpBB_eq, ht, if_neg h48] at h
        split at h
        · rename_i h47
          unfold rtpOut at h
          split at h
          · rename_i y s b hx
            cases h
            unfold parseRtpSingle at hx
            obtain ⟨a, c, ha, hx⟩ := Prog.bind_ok hx
            obtain ⟨⟨q, s1⟩, c2, hq, hx⟩ := Prog.bind_ok hx
            cases hx
            obtain ⟨c', hr', _⟩ := header_run b0 b1 r'
            rw [hr'] at ha
            cases ha
            simp only [rtpPayloads, List.append_nil, List.mem_singleton] at hp
            subst hp
            refine none_of hq ?_
            rw [ht]
            intro hm
            have h49 : b0.toNat / 2 % 64 ≠ 49 := by omega
            simp only [carriesNoParameterSet, if_neg h49, Bool.not_eq_true', decide_eq_false_iff_not] at hc
            apply hc
            simp only [List.mem_cons, List.not_mem_nil, or_false] at hm ⊢
            omega
          · cases h
          · cases h
        split at h
        · rename_i h47 h49
          unfold rtpOut at h
          split at h
          · rename_i y s b hx
            cases h
            match r', hr, hu, hx with
            | [], hr, hu, hx =>
              exfalso
              obtain ⟨_, hrem, _, _⟩ := C39_sound hw hx
              have := congrArg List.length hrem
              rw [BB.rem_init] at this
              simp [Spec.nalUnitHeader, Spec.seq] at this
              omega
            | b2 :: r'', hr, hu, hx =>
              have hb2 : ∃ q, r = b2 :: q := by
                match r, hr with
                | [], hr =>
                  have := congrArg List.length hr
                  have h2 := unesc_le (unescapeRbsp_eq [b0, b1])
                  simp only [List.length_cons, List.length_nil] at this h2
                  omega
                | x :: q, hr =>
                  have hz : b0 ≠ 0 := by intro e; subst e; simp at h49
                  rw [unesc_nz hz] at hr
                  simp only [List.cons.injEq, true_and] at hr
                  obtain ⟨q', hq'⟩ := unesc_two b1 x q
                  rw [hq'] at hr
                  simp only [List.cons.injEq, true_and] at hr
                  exact ⟨q, by rw [hr.1]⟩
              obtain ⟨q, rfl⟩ := hb2
              simp only [carriesNoParameterSet, if_pos h49, Bool.or_eq_true, decide_eq_true_eq, Bool.not_eq_true', decide_eq_false_iff_not] at hc
              obtain ⟨c, _, _, hf⟩ := fu_run st b0 b1 b2 r''
              rw [hf] at hx
              split at hx
              · cases hx
                simp only [rtpPayloads, fuOf, Option.toList, List.append_nil] at hp
                cases hp
              · rename_i h0
                rcases hc with hc | hc
                · omega
                cases hq : (parseNalUnitPayload (b2.toNat % 64) st).run c with
                | ok z c' =>
                  rw [hq] at hx
                  cases hx
                  simp only [rtpPayloads, fuOf, Option.toList, List.nil_append, List.mem_singleton] at hp
                  subst hp
                  exact none_of (s' := z.2) hq hc
                | fail c' => rw [hq] at hx; cases hx
                | bad k => rw [hq] at hx; cases hx
          · cases h
          · cases h
        · cases h
          simp [rtpPayloads] at hp
  exact ⟨key, C72_state hlen h key⟩

/-- C72: losing packets chosen by their first three bytes, none of them an aggregation packet, a parameter set or the first fragment of one, takes their results
away and changes no other result, nor the parameter sets known in the end. -/
theorem C72_loss_by_header (packets : List (List UInt8 × Bool)) (st st' : ParserState) (rs : List (Option Rtp)) (hlen : ∀ x ∈ packets, x.1.length < 2 ^ 32)
    (hc : ∀ x ∈ packets, x.2 = false → carriesNoParameterSet x.1 = true) (h : rtpResults (packets.map (·.1)) st = .ok (rs, st')) :
    rtpResults ((packets.filter (·.2)).map (·.1)) st = .ok (((packets.zip rs).filter (·.1.2)).map (·.2), st') := by
  refine C72_loss packets st st' rs hlen ?_ h
  have ok : ∀ (l : List (List UInt8 × Bool)) (st st' : ParserState) (rs : List (Option Rtp)), (∀ x ∈ l, x.1.length < 2 ^ 32) →
      (∀ x ∈ l, x.2 = false → carriesNoParameterSet x.1 = true) → rtpResults (l.map (·.1)) st = .ok (rs, st') → LossHarmless st l := by
    intro l
    induction l with
    | nil => intro st st' rs _ _ _; trivial
    | cons x l ih =>
      intro st st' rs hlen hc h
      obtain ⟨p, b⟩ := x
      simp only [List.map_cons, rtpResults] at h
      cases h1 : parseRtp st p with
      | error k => rw [h1] at h; cases h
      | ok x =>
        obtain ⟨o, st1⟩ := x
        rw [h1] at h
        dsimp only at h
        cases h2 : rtpResults (l.map (·.1)) st1 with
        | error k => rw [h2] at h; cases h
        | ok y =>
          simp only [LossHarmless, h1]
          exact ⟨fun hb => (C72_by_header (hlen (p, b) (by simp)) (hc (p, b) (by simp) hb) h1).1,
            ih st1 y.2 y.1 (fun x hx => hlen x (by simp [hx])) (fun x hx => hc x (by simp [hx])) h2⟩
  exact ok _ _ _ _ hlen hc h

/-- C72: packets without parameter sets do not influence one another: each has the result it would have alone. -/
theorem C72_independent : ∀ (packets : List (List UInt8)) (st st' : ParserState) (rs : List (Option Rtp)), (∀ x ∈ packets, x.length < 2 ^ 32) →
    (∀ x ∈ packets, carriesNoParameterSet x = true) → rtpResults packets st = .ok (rs, st') →
    st' = st ∧ packets.map (parseRtp st) = rs.map fun o => .ok (o, st)
  | [], st, st', rs, _, _, h => by cases h; exact ⟨rfl, rfl⟩
  | p :: rest, st, st', rs, hlen, hc, h => by
    simp only [rtpResults] at h
    cases h1 : parseRtp st p with
    | error k => rw [h1] at h; cases h
    | ok x =>
      obtain ⟨o, st1⟩ := x
      rw [h1] at h
      dsimp only at h
      have e := (C72_by_header (hlen p (by simp)) (hc p (by simp)) h1).2
      subst e
      cases h2 : rtpResults rest st1 with
      | error k => rw [h2] at h; cases h
      | ok y =>
        obtain ⟨qs, st2⟩ := y
        rw [h2] at h
        cases h
        obtain ⟨e, ih⟩ := C72_independent rest st1 _ qs (fun x hx => hlen x (by simp [hx])) (fun x hx => hc x (by simp [hx])) h2
        exact ⟨e, by rw [List.map_cons, List.map_cons, ih, h1]⟩

theorem results_of_map : ∀ (packets : List (List UInt8)) (st : ParserState) (rs : List (Option Rtp)), packets.map (parseRtp st) = rs.map (fun o => .ok (o, st)) →
    rtpResults packets st = .ok (rs, st)
  | [], st, rs, h => by
    cases rs with
    | nil => rfl
    | cons o rs => cases h
  | p :: ps, st, rs, h => by
    cases rs with
    | nil => cases h
    | cons o rs =>
      simp only [List.map_cons, List.cons.injEq] at h
      simp only [rtpResults, h.1, results_of_map ps st rs h.2]

/-- C72: packets without parameter sets may arrive in any order: each packet has the same result, in its new place. -/
theorem C72_reorder (packets arrived : List (List UInt8)) (hp : packets.Perm arrived) (st st' : ParserState) (rs : List (Option Rtp))
    (hlen : ∀ x ∈ packets, x.length < 2 ^ 32) (hc : ∀ x ∈ packets, carriesNoParameterSet x = true) (h : rtpResults packets st = .ok (rs, st')) :
    ∃ qs, rtpResults arrived st = .ok (qs, st') ∧ (packets.zip rs).Perm (arrived.zip qs) := by
  obtain ⟨rfl, h1⟩ := C72_independent packets st st' rs hlen hc h
  have key : ∀ {l m : List (List UInt8)}, l.Perm m → ∀ rs : List (Option Rtp), l.map (parseRtp st') = rs.map (fun o => .ok (o, st')) →
      ∃ qs : List (Option Rtp), m.map (parseRtp st') = qs.map (fun o => .ok (o, st')) ∧ (l.zip rs).Perm (m.zip qs) := by
    intro l m hp
    induction hp with
    | nil => intro rs _; exact ⟨[], rfl, .refl _⟩
    | cons x _ ih =>
      intro rs hr
      cases rs with
      | nil => cases hr
      | cons o rs =>
        simp only [List.map_cons, List.cons.injEq] at hr
        obtain ⟨qs, e, hz⟩ := ih rs hr.2
        exact ⟨o :: qs, by simp only [List.map_cons, hr.1, e], hz.cons _⟩
    | swap x y l =>
      intro rs hr
      match rs, hr with
      | [], hr => cases hr
      | [_], hr => simp at hr
      | o :: o' :: rs, hr =>
        simp only [List.map_cons, List.cons.injEq] at hr
        exact ⟨o' :: o :: rs, by simp only [List.map_cons, hr.1, hr.2.1, hr.2.2], .swap _ _ _⟩
    | trans _ _ ih1 ih2 =>
      intro rs hr
      obtain ⟨qs, e, hz⟩ := ih1 rs hr
      obtain ⟨qs', e', hz'⟩ := ih2 qs e
      exact ⟨qs', e', hz.trans hz'⟩
  obtain ⟨qs, e, hz⟩ := key hp rs h1
  exact ⟨qs, results_of_map _ _ _ e, hz⟩

/-- what the examples look at: a result is there, with a slice header -/
def lossView (o : Option Rtp) : Bool × Bool := (o.isSome, match o with | some r => (rtpPayloads r).any (·.slice_segment_layer.isSome) | none => false)

def lossResults (l : List (List UInt8)) : Option (List (Bool × Bool)) := (rtpResults l .empty).toOption.map fun x => x.1.map lossView

/-- hypotheses met: the four NAL units of the test stream, a packet of a reserved type, a fragment that is not the first one and the slice again; these three and
the first slice get lost, and the others are parsed as before -/
example : (∀ x ∈ [[0x64, 0x01, 0x00], [0x62, 0x01, 0x13, 0xaf], []], carriesNoParameterSet x = true) ∧
    (testUnits.map fun x => carriesNoParameterSet x.2) = [false, false, false, true] ∧
    lossResults (testUnits.map (·.2) ++ [[0x64, 0x01, 0x00], [0x62, 0x01, 0x13, 0xaf], []]) =
      some [(true, false), (true, false), (true, false), (true, true), (true, false), (true, false), (false, false)] := by
  refine ⟨by decide, by decide, by decide +kernel⟩

/-- hypotheses of `C72_loss` met: an SPS that is repeated may get lost (it is known already), a new one may not: without it a slice cannot be parsed -/
example : (match parseRtp .empty (testUnits.map (·.2))[1]! with
    | .ok (some r, st') =>
      (rtpPayloads r).all (fun p => p.vps.isNone && p.pps.isNone && (match p.sps with | some x => st'.sps x.body.sps_seq_parameter_set_id == some x | none => false))
    | _ => false) = true ∧
    lossResults ((testUnits.map (·.2)).eraseIdx 1) = some [(true, false), (true, false), (true, false)] := by
  exact ⟨by decide +kernel, by decide +kernel⟩

end H265
