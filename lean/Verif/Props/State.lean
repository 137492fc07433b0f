/- C21, C22, C44: parser state, safety of NAL unit parsing. -/
import Verif.Proof.Nal
import Verif.Spec.State

namespace H265
open Spec

/-- A sequence of NAL unit payloads parsed with one parser state: `Steps st ps st'` says that starting with state `st`, parsing some inputs in order
returned the payloads `ps` and left the state `st'`.  Each step is one call of `ParseNalUnitPayload` with any NAL unit type on any reader. -/
inductive Steps : ParserState → List NalUnitPayload → ParserState → Prop
  | nil (st) : Steps st [] st
  | cons {st st1 st2 : ParserState} {t : Nat} {bb bb' : BB} {p : NalUnitPayload} {ps : List NalUnitPayload} :
      bb.WF → (parseNalUnitPayload t st).run bb = .ok (p, st1) bb' → Steps st1 ps st2 → Steps st (p :: ps) st2

/-- States a user can get into, starting from a new parser state. -/
def Reach (st : ParserState) : Prop := ∃ ps, Steps .empty ps st

theorem Steps.append {a b c : ParserState} {ps qs : List NalUnitPayload} (h : Steps a ps b) (g : Steps b qs c) : Steps a (ps ++ qs) c := by
  induction h with
  | nil => exact g
  | cons h1 h2 _ ih => exact .cons h1 h2 (ih g)

theorem Reach.step {st st' : ParserState} {ps : List NalUnitPayload} (h : Reach st) (g : Steps st ps st') : Reach st' := by
  obtain ⟨qs, hq⟩ := h
  exact ⟨_, hq.append g⟩

theorem Reach.empty : Reach .empty := ⟨_, .nil _⟩

/-- the effect of one payload on the state, in terms of the payload returned -/
theorem payload_effect {t : Nat} {st st' : ParserState} {bb bb' : BB} {p : NalUnitPayload} (h : (parseNalUnitPayload t st).run bb = .ok (p, st') bb') :
    (st'.vps = match p.vps with | some x => mapSet st.vps x.body.vps_video_parameter_set_id x | none => st.vps) ∧
    (st'.sps = match p.sps with | some x => mapSet st.sps x.body.sps_seq_parameter_set_id x | none => st.sps) ∧
    (st'.pps = match p.pps with | some x => mapSet st.pps x.body.head.pps_pic_parameter_set_id x | none => st.pps) := by
  cases payload_cases h with
  | vps o => cases o <;> exact ⟨rfl, rfl, rfl⟩
  | sps o => cases o <;> exact ⟨rfl, rfl, rfl⟩
  | pps o => cases o <;> exact ⟨rfl, rfl, rfl⟩
  | _ => exact ⟨rfl, rfl, rfl⟩

/-- one more result in front of the history -/
theorem latest_cons {α β : Type} (f : α → Option β) (id : β → Nat) (i : Nat) (a : α) (l : List α) (old : Option β) :
    (latest f id i (a :: l)).or old = (latest f id i l).or (match f a with | some b => if id b = i then some b else old | none => old) := by
  unfold latest
  cases hf : f a with
  | none => rw [List.filterMap_cons_none hf]
  | some b =>
    rw [List.filterMap_cons_some hf]
    by_cases hi : id b = i
    · rw [List.filter_cons_of_pos (by simpa using hi)]
      simp only [hi, if_true]
      rw [List.getLast?_cons]
      cases (List.filter (fun b => decide (id b = i)) (List.filterMap f l)).getLast? <;> rfl
    · rw [List.filter_cons_of_neg (by simpa using hi)]
      simp only [hi, if_false]

/-- C21: after any sequence of payloads, looking up an id gives the latest parameter set with that id that was returned, and otherwise what
the state held before. -/
theorem C21_latest {st st' : ParserState} {ps : List NalUnitPayload} (h : Steps st ps st') (i : Nat) :
    st'.vps i = (latest (·.vps) (·.body.vps_video_parameter_set_id) i ps).or (st.vps i) ∧
    st'.sps i = (latest (·.sps) (·.body.sps_seq_parameter_set_id) i ps).or (st.sps i) ∧
    st'.pps i = (latest (·.pps) (·.body.head.pps_pic_parameter_set_id) i ps).or (st.pps i) := by
  induction h with
  | nil => exact ⟨rfl, rfl, rfl⟩
  | @cons a b c t bb bb' p ps hwf hr _ ih =>
    obtain ⟨e1, e2, e3⟩ := payload_effect hr
    rw [latest_cons, latest_cons, latest_cons]
    refine ⟨ih.1.trans ?_, ih.2.1.trans ?_, ih.2.2.trans ?_⟩
    · rw [e1]; cases p.vps with
      | none => rfl
      | some x => simp only [mapSet, eq_comm (a := i)]
    · rw [e2]; cases p.sps with
      | none => rfl
      | some x => simp only [mapSet, eq_comm (a := i)]
    · rw [e3]; cases p.pps with
      | none => rfl
      | some x => simp only [mapSet, eq_comm (a := i)]

/-- C21: in particular, from a new parser state. -/
theorem C21_latest_from_empty {st : ParserState} {ps : List NalUnitPayload} (h : Steps .empty ps st) (i : Nat) :
    st.vps i = latest (·.vps) (·.body.vps_video_parameter_set_id) i ps ∧
    st.sps i = latest (·.sps) (·.body.sps_seq_parameter_set_id) i ps ∧
    st.pps i = latest (·.pps) (·.body.head.pps_pic_parameter_set_id) i ps := by
  have := C21_latest h i
  simpa [ParserState.empty] using this

/-- C21: each payload field is present only for its NAL unit type, and is what the parser of that syntax structure returns on the payload. -/
theorem C21_payload {t : Nat} {st st' : ParserState} {bb bb' : BB} {p : NalUnitPayload} (h : (parseNalUnitPayload t st).run bb = .ok (p, st') bb') :
    (∀ x, p.vps = some x → t = 32 ∧ parseVps.run bb = .ok x bb') ∧
    (∀ x, p.sps = some x → t = 33 ∧ parseSps.run bb = .ok x bb') ∧
    (∀ x, p.pps = some x → t = 34 ∧ parsePps.run bb = .ok x bb') ∧
    (∀ x, p.aud = some x → t = 35 ∧ parseAud.run bb = .ok x bb') ∧
    (∀ x, p.slice_segment_layer = some x → isSliceSegment t = true ∧ (parseSliceSegmentHeader t st.pps st.sps).run bb = .ok x bb') ∧
    (∀ x, p.sei = some x → (t = 39 ∨ t = 40) ∧ parseSei.run bb = .ok x bb') := by
  cases payload_cases h with
  | slice o h1 h2 => refine ⟨?_, ?_, ?_, ?_, ?_, ?_⟩ <;> intro x hx <;> first | (cases hx; done) | (simp only at hx; subst hx; exact ⟨(sliceType_iff t).mp h1, h2⟩)
  | vps o h1 h2 =>
    cases o with
    | none => refine ⟨?_, ?_, ?_, ?_, ?_, ?_⟩ <;> intro x hx <;> cases hx
    | some y => refine ⟨?_, ?_, ?_, ?_, ?_, ?_⟩ <;> intro x hx <;> cases hx; exact ⟨h1, h2⟩
  | sps o h1 h2 =>
    cases o with
    | none => refine ⟨?_, ?_, ?_, ?_, ?_, ?_⟩ <;> intro x hx <;> cases hx
    | some y => refine ⟨?_, ?_, ?_, ?_, ?_, ?_⟩ <;> intro x hx <;> cases hx; exact ⟨h1, h2⟩
  | pps o h1 h2 =>
    cases o with
    | none => refine ⟨?_, ?_, ?_, ?_, ?_, ?_⟩ <;> intro x hx <;> cases hx
    | some y => refine ⟨?_, ?_, ?_, ?_, ?_, ?_⟩ <;> intro x hx <;> cases hx; exact ⟨h1, h2⟩
  | aud o h1 h2 => refine ⟨?_, ?_, ?_, ?_, ?_, ?_⟩ <;> intro x hx <;> first | (cases hx; done) | (simp only at hx; subst hx; exact ⟨h1, h2⟩)
  | sei o h1 h2 => refine ⟨?_, ?_, ?_, ?_, ?_, ?_⟩ <;> intro x hx <;> first | (cases hx; done) | (simp only at hx; subst hx; exact ⟨h1, h2⟩)
  | other => refine ⟨?_, ?_, ?_, ?_, ?_, ?_⟩ <;> intro x hx <;> cases hx

/-- C22: a payload that is not a parameter set, or a parameter set that cannot be parsed, leaves the state as it was. -/
theorem C22_state_unchanged {t : Nat} {st st' : ParserState} {bb bb' : BB} {p : NalUnitPayload} (h : (parseNalUnitPayload t st).run bb = .ok (p, st') bb')
    (hn : t ∉ [32, 33, 34] ∨ (t = 32 ∧ ∀ x b, parseVps.run bb ≠ .ok x b) ∨ (t = 33 ∧ ∀ x b, parseSps.run bb ≠ .ok x b) ∨
      (t = 34 ∧ ∀ x b, parsePps.run bb ≠ .ok x b)) : st' = st := by
  have hs : sliceType t → t ≠ 32 ∧ t ≠ 33 ∧ t ≠ 34 := by unfold sliceType; omega
  cases payload_cases h with
  | vps o h1 h2 =>
    cases o with
    | none => rfl
    | some y =>
      exfalso
      rcases hn with hn | ⟨_, hn⟩ | ⟨h3, _⟩ | ⟨h3, _⟩
      · exact hn (by rw [h1]; decide)
      · exact hn _ _ h2
      · omega
      · omega
  | sps o h1 h2 =>
    cases o with
    | none => rfl
    | some y =>
      exfalso
      rcases hn with hn | ⟨h3, _⟩ | ⟨_, hn⟩ | ⟨h3, _⟩
      · exact hn (by rw [h1]; decide)
      · omega
      · exact hn _ _ h2
      · omega
  | pps o h1 h2 =>
    cases o with
    | none => rfl
    | some y =>
      exfalso
      rcases hn with hn | ⟨h3, _⟩ | ⟨h3, _⟩ | ⟨_, hn⟩
      · exact hn (by rw [h1]; decide)
      · omega
      · omega
      · exact hn _ _ h2
  | _ => rfl

/-- C22: one parameter set changes the entry of its own id only, in its own map only. -/
theorem C22_only_own_entry {t : Nat} {st st' : ParserState} {bb bb' : BB} {p : NalUnitPayload} (h : (parseNalUnitPayload t st).run bb = .ok (p, st') bb') :
    (t ≠ 32 → st'.vps = st.vps) ∧ (t ≠ 33 → st'.sps = st.sps) ∧ (t ≠ 34 → st'.pps = st.pps) ∧
    (∀ i, (∀ x, p.vps = some x → x.body.vps_video_parameter_set_id ≠ i) → st'.vps i = st.vps i) ∧
    (∀ i, (∀ x, p.sps = some x → x.body.sps_seq_parameter_set_id ≠ i) → st'.sps i = st.sps i) ∧
    (∀ i, (∀ x, p.pps = some x → x.body.head.pps_pic_parameter_set_id ≠ i) → st'.pps i = st.pps i) := by
  obtain ⟨e1, e2, e3⟩ := payload_effect h
  obtain ⟨d1, d2, d3, _⟩ := C21_payload h
  refine ⟨fun ht => ?_, fun ht => ?_, fun ht => ?_, fun i hi => ?_, fun i hi => ?_, fun i hi => ?_⟩
  · cases hp : p.vps with
    | none => rw [hp] at e1; exact e1
    | some x => exact absurd (d1 x hp).1 ht
  · cases hp : p.sps with
    | none => rw [hp] at e2; exact e2
    | some x => exact absurd (d2 x hp).1 ht
  · cases hp : p.pps with
    | none => rw [hp] at e3; exact e3
    | some x => exact absurd (d3 x hp).1 ht
  · cases hp : p.vps with
    | none => rw [hp] at e1; rw [e1]
    | some x => rw [hp] at e1; rw [e1]; simp only [mapSet]; rw [if_neg (fun hx => hi x hp hx.symm)]
  · cases hp : p.sps with
    | none => rw [hp] at e2; rw [e2]
    | some x => rw [hp] at e2; rw [e2]; simp only [mapSet]; rw [if_neg (fun hx => hi x hp hx.symm)]
  · cases hp : p.pps with
    | none => rw [hp] at e3; rw [e3]
    | some x => rw [hp] at e3; rw [e3]; simp only [mapSet]; rw [if_neg (fun hx => hi x hp hx.symm)]

/-- Everything stored was returned by a parser on some input, under its own id. -/
structure StateOk (st : ParserState) : Prop where
  vps : ∀ i V, st.vps i = some V → Parsed parseVps V ∧ V.body.vps_video_parameter_set_id = i
  sps : ∀ i S, st.sps i = some S → Parsed parseSps S ∧ S.body.sps_seq_parameter_set_id = i
  pps : ∀ i P, st.pps i = some P → Parsed parsePps P ∧ P.body.head.pps_pic_parameter_set_id = i

theorem StateOk.empty : StateOk .empty := by constructor <;> intro i V h <;> cases h

theorem StateOk.payload {t : Nat} {st st' : ParserState} {bb bb' : BB} {p : NalUnitPayload} (hs : StateOk st) (hwf : bb.WF)
    (h : (parseNalUnitPayload t st).run bb = .ok (p, st') bb') : StateOk st' := by
  obtain ⟨e1, e2, e3⟩ := payload_effect h
  obtain ⟨d1, d2, d3, _⟩ := C21_payload h
  constructor
  · intro i V hV
    cases hp : p.vps with
    | none => rw [hp] at e1; rw [e1] at hV; exact hs.vps i V hV
    | some x =>
      rw [hp] at e1
      rw [e1] at hV
      simp only [mapSet] at hV
      split at hV
      · rename_i hi
        obtain rfl := Option.some.inj hV
        exact ⟨⟨bb, bb', hwf, (d1 _ hp).2⟩, hi.symm⟩
      · exact hs.vps i V hV
  · intro i V hV
    cases hp : p.sps with
    | none => rw [hp] at e2; rw [e2] at hV; exact hs.sps i V hV
    | some x =>
      rw [hp] at e2
      rw [e2] at hV
      simp only [mapSet] at hV
      split at hV
      · rename_i hi
        obtain rfl := Option.some.inj hV
        exact ⟨⟨bb, bb', hwf, (d2 _ hp).2⟩, hi.symm⟩
      · exact hs.sps i V hV
  · intro i V hV
    cases hp : p.pps with
    | none => rw [hp] at e3; rw [e3] at hV; exact hs.pps i V hV
    | some x =>
      rw [hp] at e3
      rw [e3] at hV
      simp only [mapSet] at hV
      split at hV
      · rename_i hi
        obtain rfl := Option.some.inj hV
        exact ⟨⟨bb, bb', hwf, (d3 _ hp).2⟩, hi.symm⟩
      · exact hs.pps i V hV

theorem StateOk.steps {st st' : ParserState} {ps : List NalUnitPayload} (h : Steps st ps st') (hs : StateOk st) : StateOk st' := by
  induction h with
  | nil => exact hs
  | cons h1 h2 _ ih => exact ih (hs.payload h1 h2)

/-- C21: in a state reached by parsing, whatever is found under an id was parsed successfully and carries that id. -/
theorem C21_reachable_states {st : ParserState} (h : Reach st) : StateOk st := by
  obtain ⟨ps, hp⟩ := h
  exact StateOk.empty.steps hp

/-- A parser state that may be handed to the parsers, whoever made it: every SPS and PPS in it is usable; `A` is the undefined behaviour that
is tolerated, which includes signed overflow, and the computation of the slice address length if some SPS has no picture size. -/
structure UsableFor (A : Bad → Prop) (st : ParserState) : Prop where
  overflow : A .signedOverflow
  sps : ∀ i S, st.sps i = some S → Spec.SpsUsable S.body ∧ (0 < S.body.getPicSizeInCtbsY ∨ A .floatCast)
  pps : ∀ i P, st.pps i = some P → Spec.PpsUsable P.body

theorem StateOk.usable {st : ParserState} (h : StateOk st) : UsableFor (fun k => k = .signedOverflow) st :=
  ⟨rfl, fun i S hS => ⟨(h.sps i S hS).1.spsUsable, .inl (h.sps i S hS).1.spsPicSize⟩, fun i P hP => (h.pps i P hP).1.ppsScc⟩

theorem Reach.usable {st : ParserState} (h : Reach st) : UsableFor (fun k => k = .signedOverflow) st := (C21_reachable_states h).usable

theorem UsableFor.payload {A : Bad → Prop} {t : Nat} {st st' : ParserState} {bb bb' : BB} {p : NalUnitPayload} (hs : UsableFor A st) (hwf : bb.WF)
    (h : (parseNalUnitPayload t st).run bb = .ok (p, st') bb') : UsableFor A st' := by
  obtain ⟨e1, e2, e3⟩ := payload_effect h
  obtain ⟨d1, d2, d3, _⟩ := C21_payload h
  refine ⟨hs.overflow, ?_, ?_⟩
  · intro i V hV
    cases hp : p.sps with
    | none => rw [hp] at e2; rw [e2] at hV; exact hs.sps i V hV
    | some x =>
      rw [hp] at e2
      rw [e2] at hV
      simp only [mapSet] at hV
      split at hV
      · obtain rfl := Option.some.inj hV
        have hq : Parsed parseSps x := ⟨bb, bb', hwf, (d2 _ hp).2⟩
        exact ⟨hq.spsUsable, .inl hq.spsPicSize⟩
      · exact hs.sps i V hV
  · intro i V hV
    cases hp : p.pps with
    | none => rw [hp] at e3; rw [e3] at hV; exact hs.pps i V hV
    | some x =>
      rw [hp] at e3
      rw [e3] at hV
      simp only [mapSet] at hV
      split at hV
      · obtain rfl := Option.some.inj hV
        exact Parsed.ppsScc ⟨bb, bb', hwf, (d3 _ hp).2⟩
      · exact hs.pps i V hV

/-- parsing keeps a usable state usable -/
theorem UsableFor.step {A : Bad → Prop} {st st' : ParserState} {ps : List NalUnitPayload} (hs : UsableFor A st) (h : Steps st ps st') : UsableFor A st' := by
  induction h with
  | nil => exact hs
  | cons h1 h2 _ ih => exact ih (hs.payload h1 h2)

theorem payload_safe_for {A : Bad → Prop} {t : Nat} {st : ParserState} {bb : BB} {k : Bad} (hs : UsableFor A st) (hwf : bb.WF)
    (h : (parseNalUnitPayload t st).run bb = .bad k) : A k := by
  rw [parseNalUnitPayload_eq] at h
  by_cases h1 : sliceType t
  · rw [if_pos h1] at h
    exact slice_safe_for hs.overflow hs.pps hs.sps hwf (attempt_bad h)
  rw [if_neg h1] at h
  by_cases h2 : t = 32
  · rw [if_pos h2] at h
    exact (C28_vps_inverts.safe bb k hwf (attempt_bad h)).elim
  rw [if_neg h2] at h
  by_cases h3 : t = 33
  · rw [if_pos h3] at h
    rw [C27_sps_inverts.safe bb k hwf (attempt_bad h)]; exact hs.overflow
  rw [if_neg h3] at h
  by_cases h4 : t = 34
  · rw [if_pos h4] at h
    rw [C29_pps_safe hwf (attempt_bad h)]; exact hs.overflow
  rw [if_neg h4] at h
  by_cases h5 : t = 35
  · rw [if_pos h5] at h
    have hb := attempt_bad h
    rcases C19_aud hwf with ⟨b, hr, _⟩ | ⟨b, hr, _⟩ <;> rw [hr] at hb <;> cases hb
  rw [if_neg h5] at h
  by_cases h6 : t = 39 ∨ t = 40
  · rw [if_pos h6] at h
    rw [(C40_sei_safe hwf (attempt_bad h)).1]; exact hs.overflow
  rw [if_neg h6] at h
  cases h

/-- C44 (payloads): whatever was parsed before and whatever the input, the only undefined behaviour is signed 32-bit overflow. -/
theorem C44_payload_safe {t : Nat} {st : ParserState} {bb : BB} {k : Bad} (hs : Reach st) (hwf : bb.WF)
    (h : (parseNalUnitPayload t st).run bb = .bad k) : k = .signedOverflow :=
  payload_safe_for (A := fun k => k = .signedOverflow) hs.usable hwf h

end H265
