/-
C23 for NAL units and streams: the parameter sets of reported slice headers.
-/
import Verif.Props.Order

set_option autoImplicit false

namespace H265
open Spec

/-- C23: a slice header is reported for a NAL unit only if the state holds the PPS it names and the SPS named by that PPS; the state is left as it is. -/
theorem C23_nal_unit {cs : Bool} {st st' : ParserState} {data : List UInt8} {n : NalUnit} {h : SliceSegmentHeader} {e : BB}
    (hp : parseNalUnit cs st data = .ok (n, st') e) (hs : n.nal_unit_payload.slice_segment_layer = some h) :
    st' = st ∧ ∃ P S, st.pps h.head.slice_pic_parameter_set_id = some P ∧ st.sps P.body.head.pps_seq_parameter_set_id = some S := by
  obtain ⟨rbsp, _, hparts⟩ := parseNalUnit_ok hp
  obtain ⟨b1, b2, _, p2, _⟩ := hparts.parts
  obtain ⟨ht, _⟩ := (C21_payload p2).2.2.2.2.1 h hs
  obtain ⟨P, S, hn, _⟩ := nal_used (b := st) hp ht hs
  refine ⟨(C22_nal_unit hp).2 ?_, P, S, hn.1, hn.2⟩
  have := (sliceType_iff _).mpr ht
  unfold sliceType at this
  simp only [List.mem_cons, List.not_mem_nil, or_false]
  omega

/-- a NAL unit in the middle of a result -/
theorem parseAll_middle {cs : Bool} : ∀ {l : List (Nat × Nat × List UInt8)} {st st' : ParserState} {a b : List NalUnit} {n : NalUnit},
    parseAll cs l st = .ok (a ++ n :: b, st') → ∃ s1 s2 data e n0, Steps st (a.map (·.nal_unit_payload)) s1 ∧ parseNalUnit cs s1 data = .ok (n0, s2) e ∧
      n0.nal_unit_header = n.nal_unit_header ∧ n0.nal_unit_payload = n.nal_unit_payload ∧ Steps s2 (b.map (·.nal_unit_payload)) st'
  | [], st, st', a, b, n, h => by
    simp only [parseAll, Except.ok.injEq, Prod.mk.injEq] at h
    have := h.1
    cases a <;> cases this
  | (off, len, nal) :: rest, st, st', a, b, n, h => by
    simp only [parseAll] at h
    cases hp : parseNalUnit cs st nal with
    | bad k => rw [hp] at h; cases h
    | fail e => rw [hp] at h; exact parseAll_middle h
    | ok x e =>
      obtain ⟨m, st1⟩ := x
      rw [hp] at h
      dsimp only at h
      cases hr : parseAll cs rest st1 with
      | error k => rw [hr] at h; cases h
      | ok y =>
        obtain ⟨ms, st2⟩ := y
        rw [hr] at h
        simp only [Except.ok.injEq, Prod.mk.injEq] at h
        obtain ⟨h, rfl⟩ := h
        cases a with
        | nil =>
          simp only [List.nil_append, List.cons.injEq] at h
          obtain ⟨rfl, rfl⟩ := h
          exact ⟨st, st1, nal, e, m, .nil _, hp, rfl, rfl, parseAll_steps hr⟩
        | cons x a =>
          simp only [List.cons_append, List.cons.injEq] at h
          obtain ⟨rfl, rfl⟩ := h
          obtain ⟨s1, s2, data, e', n0, h1, h2, h3, h4, h5⟩ := parseAll_middle hr
          exact ⟨s1, s2, data, e', n0, (parseNalUnit_steps hp).append h1, h2, h3, h4, h5⟩

theorem parseAll_slice_sets {cs : Bool} {l : List (Nat × Nat × List UInt8)} {st st' : ParserState} {before after : List NalUnit} {n : NalUnit} {h : SliceSegmentHeader}
    (hp : parseAll cs l st = .ok (before ++ n :: after, st')) (hs : n.nal_unit_payload.slice_segment_layer = some h) :
    ∃ P S, (latest (·.nal_unit_payload.pps) (·.body.head.pps_pic_parameter_set_id) h.head.slice_pic_parameter_set_id before).or
        (st.pps h.head.slice_pic_parameter_set_id) = some P ∧
      (latest (·.nal_unit_payload.sps) (·.body.sps_seq_parameter_set_id) P.body.head.pps_seq_parameter_set_id before).or
        (st.sps P.body.head.pps_seq_parameter_set_id) = some S := by
  obtain ⟨s1, s2, data, e, n0, h1, h2, _, h4, _⟩ := parseAll_middle hp
  obtain ⟨_, P, S, hP, hS⟩ := C23_nal_unit (h := h) h2 (by rw [h4]; exact hs)
  refine ⟨P, S, ?_, ?_⟩
  · have := (C21_latest h1 h.head.slice_pic_parameter_set_id).2.2
    rw [latest_map] at this
    rw [← this]; exact hP
  · have := (C21_latest h1 P.body.head.pps_seq_parameter_set_id).2.1
    rw [latest_map] at this
    rw [← this]; exact hS

/-- C23 for byte streams: every slice header that is reported has its PPS (the latest with the id it names) and the SPS (the latest with the id named there) among the NAL
units reported before it, or in the state the parse began with. -/
theorem C23_annexB {cs : Bool} {data : List UInt8} {st st' : ParserState} {before after : List NalUnit} {n : NalUnit} {h : SliceSegmentHeader} (hlen : data.length < 2 ^ 64)
    (hp : parseBitstream cs st data = .ok (before ++ n :: after, st')) (hs : n.nal_unit_payload.slice_segment_layer = some h) :
    ∃ P S, (latest (·.nal_unit_payload.pps) (·.body.head.pps_pic_parameter_set_id) h.head.slice_pic_parameter_set_id before).or
        (st.pps h.head.slice_pic_parameter_set_id) = some P ∧
      (latest (·.nal_unit_payload.sps) (·.body.sps_seq_parameter_set_id) P.body.head.pps_seq_parameter_set_id before).or
        (st.sps P.body.head.pps_seq_parameter_set_id) = some S := by
  rw [parseBitstream_eq cs st data hlen] at hp
  exact parseAll_slice_sets hp hs

/-- C23 for streams with length fields -/
theorem C23_length_stream {cs : Bool} {w : Nat} {data : List UInt8} {st st' : ParserState} {before after : List NalUnit} {n : NalUnit} {h : SliceSegmentHeader}
    (hw0 : 0 < w) (hw : w ≤ 7) (hlen : data.length < 2 ^ 63) (hp : parseBitstreamNaluLength cs w st data = .ok (before ++ n :: after, st'))
    (hs : n.nal_unit_payload.slice_segment_layer = some h) :
    ∃ P S, (latest (·.nal_unit_payload.pps) (·.body.head.pps_pic_parameter_set_id) h.head.slice_pic_parameter_set_id before).or
        (st.pps h.head.slice_pic_parameter_set_id) = some P ∧
      (latest (·.nal_unit_payload.sps) (·.body.sps_seq_parameter_set_id) P.body.head.pps_seq_parameter_set_id before).or
        (st.sps P.body.head.pps_seq_parameter_set_id) = some S := by
  obtain ⟨l, _, he⟩ := C15_length_framing cs w st data hw0 hw hlen
  rw [he] at hp
  exact parseAll_slice_sets hp hs

/-- hypotheses met: the slice of the test stream is the fourth NAL unit, with the PPS and SPS before it -/
example : (match orderUnits with
    | [_, s, p, n] => (n.nal_unit_payload.slice_segment_layer.map fun h =>
        (p.nal_unit_payload.pps.map fun P => (decide (P.body.head.pps_pic_parameter_set_id = h.head.slice_pic_parameter_set_id),
          s.nal_unit_payload.sps.map fun S => decide (S.body.sps_seq_parameter_set_id = P.body.head.pps_seq_parameter_set_id))))
    | _ => none) = some (some (true, some true)) := by decide +kernel

end H265
