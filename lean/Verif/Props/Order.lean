/-
C73: the order of NAL units.
-/
import Verif.Spec.Order
import Verif.Props.History

set_option autoImplicit false

namespace H265
open Spec

/-- a slice that is reported: the same result in every state with the two parameter sets it names -/
theorem nal_used {cs : Bool} {a b a' : ParserState} {data : List UInt8} {n : NalUnit} {e : BB} (h : parseNalUnit cs a data = .ok (n, a') e)
    (ht : isSliceSegment n.nal_unit_header.nal_unit_type = true) {hd : SliceSegmentHeader} (hs : n.nal_unit_payload.slice_segment_layer = some hd) :
    ∃ P S, Names a.pps a.sps hd.head.slice_pic_parameter_set_id P S ∧
      (Names b.pps b.sps hd.head.slice_pic_parameter_set_id P S → parseNalUnit cs b data = .ok (n, effect b n.nal_unit_payload) e) := by
  obtain ⟨rbsp, hu, hle⟩ := C11_unescape_bounds data
  by_cases hlen : rbsp.length < 2 ^ 32
  · rw [parseNalUnit_eq cs a data rbsp hu hlen] at h
    rw [parseNalUnit_eq cs b data rbsp hu hlen]
    cases hr : (parseNalUnitParts a).run (BB.init rbsp) with
    | fail x => rw [hr] at h; cases h
    | bad k => rw [hr] at h; cases h
    | ok x e' =>
      obtain ⟨hh, p, st'⟩ := x
      rw [hr] at h
      obtain ⟨b1, h1, h2⟩ := parts_ok hr
      cases h
      simp only at hs ht
      have h3 := ((C21_payload h2).2.2.2.2.1 hd hs).2
      obtain ⟨P, S, bb1, hn, ht', h4, h5⟩ := slice_ok h3
      refine ⟨P, S, hn, fun hnb => ?_⟩
      have h6 : (parseSliceSegmentLayer hh.nal_unit_type b.pps b.sps).run b1 = .ok hd e := by
        unfold parseSliceSegmentLayer
        rw [slice_run h4 hnb, h5]
        obtain ⟨t', hd', bd⟩ := hd
        simp only at ht'
        subst ht'
        rfl
      have h7 : ∃ b', (parseNalUnitPayload hh.nal_unit_type b).run b1 = .ok (p, b') e := by
        have hst := (sliceType_iff _).mpr ht
        rw [parseNalUnitPayload_eq, if_pos hst] at h2 ⊢
        obtain ⟨o, ho, he⟩ := attempt_ok h2
        cases he
        simp only at hs
        subst hs
        exact ⟨b, by rw [Prog.bind_of_ok (returned_run (o := some hd) h6)]; rfl⟩
      obtain ⟨b', h7⟩ := h7
      rw [payload_effect_eq h7] at h7
      have h8 : (parseNalUnitParts b).run (BB.init rbsp) = .ok (hh, p, effect b p) e := by
        unfold parseNalUnitParts
        rw [Prog.run_seq, h1]
        simp only [Res.andThen]
        rw [Prog.run_seq, h7]
        rfl
      rw [h8]
  · unfold parseNalUnit parseNalUnitUnescaped at h
    rw [hu] at h
    dsimp only at h
    rw [if_neg (by omega)] at h
    cases h

theorem nal_effect {cs : Bool} {a a' : ParserState} {data : List UInt8} {n : NalUnit} {e : BB} (h : parseNalUnit cs a data = .ok (n, a') e) :
    a' = effect a n.nal_unit_payload := by
  obtain ⟨rbsp, hu, hp⟩ := parseNalUnit_ok h
  obtain ⟨b1, _, _, h2, _⟩ := hp.parts
  exact payload_effect_eq h2

theorem mapSet_comm {β : Type} {m : Nat → Option β} {i j : Nat} {x y : β} (h : i = j → x = y) : mapSet (mapSet m i x) j y = mapSet (mapSet m j y) i x := by
  funext k
  unfold mapSet
  by_cases h1 : k = j
  · by_cases h2 : k = i
    · rw [if_pos h1, if_pos h2, h (by omega)]
    · rw [if_pos h1, if_neg h2, if_pos h1]
  · by_cases h2 : k = i
    · rw [if_neg h1, if_pos h2, if_pos h2]
    · rw [if_neg h1, if_neg h2, if_neg h2, if_neg h1]

theorem effect_comm {p q : NalUnitPayload} (h : NoClash p q) (st : ParserState) : effect (effect st p) q = effect (effect st q) p := by
  simp only [effect, ParserState.mk.injEq]
  refine ⟨?_, ?_, ?_⟩
  · cases hp : p.vps <;> cases hq : q.vps <;> simp only
    exact mapSet_comm (h.vps _ _ hp hq)
  · cases hp : p.sps <;> cases hq : q.sps <;> simp only
    exact mapSet_comm (h.sps _ _ hp hq)
  · cases hp : p.pps <;> cases hq : q.pps <;> simp only
    exact mapSet_comm (h.pps _ _ hp hq)

/-- the parameter sets of an untouched slice are the same before and after `q` -/
theorem names_effect {st : ParserState} {q : NalUnitPayload} {i : Nat} (h1 : ∀ P, q.pps = some P → P.body.head.pps_pic_parameter_set_id ≠ i)
    (h2 : ∀ S, q.sps = some S → ∀ P, st.pps i = some P → S.body.sps_seq_parameter_set_id ≠ P.body.head.pps_seq_parameter_set_id) (P : Pps) (S : Sps) :
    Names (effect st q).pps (effect st q).sps i P S ↔ Names st.pps st.sps i P S := by
  have e1 : (effect st q).pps i = st.pps i := by
    cases hq : q.pps with
    | none => simp only [effect, hq]
    | some x => simp only [effect, hq, mapSet]; rw [if_neg (fun h => h1 x hq h.symm)]
  unfold Names
  rw [e1]
  have e2 : ∀ P, st.pps i = some P → (effect st q).sps P.body.head.pps_seq_parameter_set_id = st.sps P.body.head.pps_seq_parameter_set_id := by
    intro P hP
    cases hq : q.sps with
    | none => simp only [effect, hq]
    | some x => simp only [effect, hq, mapSet]; rw [if_neg (fun h => h2 x hq P hP h.symm)]
  constructor
  · rintro ⟨g1, g2⟩; exact ⟨g1, by rw [← e2 P g1]; exact g2⟩
  · rintro ⟨g1, g2⟩; exact ⟨g1, by rw [e2 P g1]; exact g2⟩

/-- C73: two NAL units that follow one another and do not depend on one another (no different parameter sets for the same id, no slice and a parameter set it
uses) may be exchanged: each has the same result, and the parameter sets known afterwards are the same. -/
theorem C73_exchange {cs : Bool} {st s1 s2 : ParserState} {x y : List UInt8} {n m : NalUnit} {e1 e2 : BB} (h1 : parseNalUnit cs st x = .ok (n, s1) e1)
    (h2 : parseNalUnit cs s1 y = .ok (m, s2) e2) (hi : Independent st n m) :
    ∃ s1', parseNalUnit cs st y = .ok (m, s1') e2 ∧ parseNalUnit cs s1' x = .ok (n, s2) e1 := by
  have hs1 := nal_effect h1
  have hs2 := nal_effect h2
  refine ⟨effect st m.nal_unit_payload, ?_, ?_⟩
  · cases hm : isSliceSegment m.nal_unit_header.nal_unit_type with
    | false => exact nal_any_state h2 hm
    | true =>
      obtain ⟨hd, hh, g1, g2⟩ := hi.right hm
      obtain ⟨P, S, hn, hb⟩ := nal_used (b := st) h2 hm hh
      refine hb ?_
      rw [hs1] at hn
      exact (names_effect g1 g2 P S).mp hn
  · rw [hs2, hs1, effect_comm hi.clash]
    cases hm : isSliceSegment n.nal_unit_header.nal_unit_type with
    | false => exact nal_any_state h1 hm
    | true =>
      obtain ⟨hd, hh, g1, g2⟩ := hi.left hm
      obtain ⟨P, S, hn, hb⟩ := nal_used (b := effect st m.nal_unit_payload) h1 hm hh
      exact hb ((names_effect g1 g2 P S).mpr hn)

/-- C73: NAL units in another order, made by exchanging neighbours that do not depend on one another: each has the same result, and the parameter sets known in
the end are the same. -/
theorem C73_reorder {cs : Bool} {st st' : ParserState} {l l' : List (List UInt8 × NalUnit)} (h : Reports cs st l st') (hr : Reordered cs st l l') :
    Reports cs st l' st' := by
  induction hr generalizing st' with
  | refl => exact h
  | later hp _ ih =>
    cases h with
    | cons hp' h =>
      rw [hp] at hp'
      cases hp'
      exact .cons hp (ih h)
  | swap l hi =>
    cases h with
    | cons h1 h =>
      cases h with
      | cons h2 h =>
        obtain ⟨s, g1, g2⟩ := C73_exchange h1 h2 hi
        exact .cons g1 (.cons g2 h)
  | trans _ _ ih1 ih2 => exact ih2 (ih1 h)

/-- C73: NAL units that are unrelated (all slices with their headers and no SPS or PPS among them, or no slices and no two different parameter sets for one id) may
come in any order. -/
theorem C73_any_order {cs : Bool} {st st' : ParserState} {l l' : List (List UInt8 × NalUnit)} (h : Reports cs st l st') (hp : l.Perm l')
    (hi : ∀ a ∈ l, ∀ b ∈ l, Unrelated a.2 b.2) : Reports cs st l' st' := by
  induction hp generalizing st st' with
  | nil => exact h
  | cons x _ ih =>
    cases h with
    | cons h1 h => exact .cons h1 (ih h fun a ha b hb => hi a (by simp [ha]) b (by simp [hb]))
  | swap x y l =>
    obtain ⟨x, n⟩ := x
    obtain ⟨y, m⟩ := y
    have untouched : ∀ {n m : NalUnit}, Unrelated n m → Untouched st n m.nal_unit_payload := by
      intro n m hu hs
      obtain ⟨h1, h2, h3⟩ := hu.slice hs
      cases hh : n.nal_unit_payload.slice_segment_layer with
      | none => exact absurd hh h1
      | some hd => exact ⟨hd, rfl, fun P hP => (by rw [h3] at hP; cases hP), fun S hS => (by rw [h2] at hS; cases hS)⟩
    have u1 := hi (y, m) (by simp) (x, n) (by simp)
    have u2 := hi (x, n) (by simp) (y, m) (by simp)
    exact C73_reorder h (.swap l ⟨u1.clash, untouched u1, untouched u2⟩)
  | trans p1 _ ih1 ih2 => exact ih2 (ih1 h hi) fun a ha b hb => hi a (p1.mem_iff.mpr ha) b (p1.mem_iff.mpr hb)

/-- units with their reports are what is reported for a stream -/
theorem parseAll_of_reports {cs : Bool} : ∀ {l : List (Nat × Nat × List UInt8)} {st st' : ParserState} {r : List (List UInt8 × NalUnit)},
    Reports cs st r st' → l.map (·.2.2) = r.map (·.1) → ∃ ns, parseAll cs l st = .ok (ns, st') ∧ ns.map contents = r.map fun x => contents x.2
  | [], _, _, _, .nil _, _ => ⟨[], rfl, rfl⟩
  | [], _, _, _, .cons _ _, h => by cases h
  | _ :: _, _, _, _, .nil _, h => by cases h
  | (off, len, x) :: l, _, _, _, .cons h1 hr, h => by
    simp only [List.map_cons, List.cons.injEq] at h
    obtain ⟨h0, h⟩ := h
    subst h0
    obtain ⟨ns, h2, h3⟩ := parseAll_of_reports hr h
    refine ⟨_, by rw [parseAll, h1]; dsimp only; rw [h2], ?_⟩
    rw [List.map_cons, List.map_cons, h3]
    rfl

/-- C73 for byte streams: the NAL units of a stream in another order, made by exchanging neighbours that do not depend on one another, have the same contents in the
new order and leave the same parameter sets. -/
theorem C73_annexB (cs : Bool) {st st' : ParserState} {l l' : List (List UInt8 × NalUnit)} (h : Reports cs st l st') (hr : Reordered cs st l l')
    (units : List (Bool × List UInt8)) (hu : units.map (·.2) = l'.map (·.1)) (hn : ∀ x ∈ units, NalBytes x.2) (hlen : (annexB units).length < 2 ^ 64) :
    ∃ ns, parseBitstream cs st (annexB units) = .ok (ns, st') ∧ ns.map contents = l'.map fun x => contents x.2 := by
  rw [C25_annexB cs st units hn hlen]
  exact parseAll_of_reports (C73_reorder h hr) (by rw [nalPlaces_nals, hu])

/-- the other way round: what is reported for a stream, unit by unit -/
theorem reports_of_parseAll {cs : Bool} : ∀ {l : List (Nat × Nat × List UInt8)} {st st' : ParserState} {ns : List NalUnit}, parseAll cs l st = .ok (ns, st') →
    (∀ x ∈ l, rawHeader x.2.2 ≠ none) → ∃ r, Reports cs st r st' ∧ r.map (·.1) = l.map (·.2.2) ∧ (r.map fun x => contents x.2) = ns.map contents
  | [], st, st', ns, h, _ => by cases h; exact ⟨[], .nil _, rfl, rfl⟩
  | (off, len, x) :: l, st, st', ns, h, hx => by
    simp only [parseAll] at h
    cases hp : parseNalUnit cs st x with
    | bad k => rw [hp] at h; cases h
    | fail b =>
      exfalso
      have := hx (off, len, x) (by simp)
      have h2 := (C22_dropped_iff (cs := cs) (st := st) (data := x) (unescapeRbsp_eq _)).mp ⟨b, hp⟩
      match x, this, h2 with
      | [], h, _ => exact h rfl
      | [_], h, _ => exact h rfl
      | b0 :: b1 :: r, _, h2 =>
        obtain ⟨r', hr⟩ := unesc_two b0 b1 r
        rw [hr] at h2
        simp at h2
        omega
    | ok y b =>
      obtain ⟨n, st1⟩ := y
      rw [hp] at h
      dsimp only at h
      cases hr : parseAll cs l st1 with
      | error k => rw [hr] at h; cases h
      | ok z =>
        obtain ⟨ms, st2⟩ := z
        rw [hr] at h
        cases h
        obtain ⟨r, h1, h2, h3⟩ := reports_of_parseAll hr fun x hx' => hx x (by simp [hx'])
        exact ⟨(x, n) :: r, .cons hp h1, by simp [h2], by simp only [List.map_cons, h3]; rfl⟩

/-- C73: what is reported for a byte stream is reported unit by unit (this is where the reports of `C73_annexB` come from). -/
theorem C73_reports (cs : Bool) {st st' : ParserState} (units : List (Bool × List UInt8)) (hn : ∀ x ∈ units, NalBytes x.2 ∧ 2 ≤ x.2.length)
    (hlen : (annexB units).length < 2 ^ 64) {ns : List NalUnit} (h : parseBitstream cs st (annexB units) = .ok (ns, st')) :
    ∃ l, Reports cs st l st' ∧ l.map (·.1) = units.map (·.2) ∧ (l.map fun x => contents x.2) = ns.map contents := by
  rw [C25_annexB cs st units (fun x hx => (hn x hx).1) hlen] at h
  obtain ⟨r, h1, h2, h3⟩ := reports_of_parseAll h (by
    intro x hx
    have : x.2.2 ∈ units.map (·.2) := by rw [← nalPlaces_nals 0 units]; exact List.mem_map_of_mem hx
    obtain ⟨y, hy, he⟩ := List.mem_map.1 this
    have := (hn y hy).2
    rw [he] at this
    match x.2.2, this with
    | _ :: _ :: _, _ => intro h; cases h)
  exact ⟨r, h1, by rw [h2, nalPlaces_nals], h3⟩

/-- NAL units that are reported for the stream of the unit tests -/
def orderUnits : List NalUnit := match parseBitstream false .empty testStream with | .ok x => x.1 | .error _ => []

/-- which parameter set a NAL unit has; whether it is a slice, and whether it has a slice header -/
def orderView (n : NalUnit) : Bool × Bool × Bool × Bool × Bool :=
  (n.nal_unit_payload.vps.isSome, n.nal_unit_payload.sps.isSome, n.nal_unit_payload.pps.isSome, isSliceSegment n.nal_unit_header.nal_unit_type,
    n.nal_unit_payload.slice_segment_layer.isSome)

theorem orderUnits_view : orderUnits.map orderView =
    [(true, false, false, false, false), (false, true, false, false, false), (false, false, true, false, false), (false, false, false, true, true)] := by
  decide +kernel

/-- hypotheses met: the VPS, SPS and PPS of the test stream are unrelated, and so are the VPS and the slice; the SPS and the slice are not -/
example : ∃ v s p h, orderUnits = [v, s, p, h] ∧ Unrelated v s ∧ Unrelated s p ∧ Unrelated p v ∧ Unrelated v h ∧ Unrelated h v ∧ ¬ Unrelated h s := by
  have hv := orderUnits_view
  match hu : orderUnits with
  | [] => rw [hu] at hv; cases hv
  | [_] => rw [hu] at hv; simp at hv
  | [_, _] => rw [hu] at hv; simp at hv
  | [_, _, _] => rw [hu] at hv; simp at hv
  | _ :: _ :: _ :: _ :: _ :: _ => rw [hu] at hv; simp at hv
  | [v, s, p, h] =>
    rw [hu] at hv
    simp only [orderView, List.map_cons, List.map_nil, List.cons.injEq, Prod.mk.injEq, and_true, Option.isSome_iff_ne_none, ne_eq, Option.isSome_eq_false_iff,
      Option.isNone_iff_eq_none] at hv
    obtain ⟨⟨v1, v2, v3, v4, v5⟩, ⟨s1, s2, s3, s4, s5⟩, ⟨p1, p2, p3, p4, p5⟩, h1, h2, h3, h4, h5⟩ := hv
    refine ⟨v, s, p, h, rfl, ⟨⟨?_, ?_, ?_⟩, ?_⟩, ⟨⟨?_, ?_, ?_⟩, ?_⟩, ⟨⟨?_, ?_, ?_⟩, ?_⟩, ⟨⟨?_, ?_, ?_⟩, ?_⟩, ⟨⟨?_, ?_, ?_⟩, ?_⟩, fun hx => ?_⟩
    all_goals first
      | exact s2 (hx.slice h4).2.1
      | exact fun _ => ⟨h5, v2, v3⟩
      | (intro x; simp_all; done)
      | (intro x y hx hy; simp_all; done)

end H265
