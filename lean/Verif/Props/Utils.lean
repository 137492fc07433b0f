/- C41: slice QP. -/
import Verif.Props.Stream
import Verif.Props.Rtp
import Verif.Model.Utils

namespace H265
open Spec

/-- SliceQpY = 26 + init_qp_minus26 + slice_qp_delta (equation 7-54) -/
def sliceQpY (P : Pps) (s : SliceSegmentHeader) : Int := 26 + P.body.head.init_qp_minus26 + s.body.slice_qp_delta

/-- the value fits in an `int32_t` at every step of the computation -/
def QpFits (P : Pps) (s : SliceSegmentHeader) : Prop :=
  -(2 ^ 31) ≤ 26 + P.body.head.init_qp_minus26 ∧ 26 + P.body.head.init_qp_minus26 ≤ 2 ^ 31 - 1 ∧ -(2 ^ 31) ≤ sliceQpY P s ∧ sliceQpY P s ≤ 2 ^ 31 - 1

instance (P : Pps) (s : SliceSegmentHeader) : Decidable (QpFits P s) := by unfold QpFits; infer_instance

theorem sliceQpSum_eq (P : Pps) (s : SliceSegmentHeader) :
    sliceQpSum P.body.head.init_qp_minus26 s.body.slice_qp_delta = if QpFits P s then .ok (sliceQpY P s) else .error .signedOverflow := by
  unfold sliceQpSum
  simp only
  by_cases h : QpFits P s
  · rw [if_pos h, if_pos ⟨⟨h.1, h.2.1⟩, h.2.2⟩]; rfl
  · rw [if_neg h, if_neg (fun h2 => h ⟨h2.1.1, h2.1.2, h2.2⟩)]

/-- C41: one NAL unit: the value for a slice whose PPS is known, nothing otherwise. -/
theorem C41_internal {t : Nat} {p : NalUnitPayload} {st : ParserState} (ht : isSliceSegment t = true) :
    getSliceQpYInternal t (some p) st = match p.slice_segment_layer with
      | none => .ok none
      | some s => match st.pps s.head.slice_pic_parameter_set_id with
        | none => .ok none
        | some P => if QpFits P s then .ok (some (sliceQpY P s)) else .error .signedOverflow := by
  unfold getSliceQpYInternal
  rw [if_pos ht]
  simp only [Option.bind_some]
  cases p.slice_segment_layer with
  | none => rfl
  | some s =>
    dsimp only
    cases st.pps s.head.slice_pic_parameter_set_id with
    | none => rfl
    | some P =>
      dsimp only
      rw [sliceQpSum_eq]
      by_cases h : QpFits P s
      · rw [if_pos h, if_pos h]
      · rw [if_neg h, if_neg h]

theorem C41_internal_other {t : Nat} {o : Option NalUnitPayload} {st : ParserState} (ht : isSliceSegment t ≠ true) :
    getSliceQpYInternal t o st = .ok none := by
  unfold getSliceQpYInternal; rw [if_neg ht]

/-- the value of a NAL unit under a state, for the definition of the expected result -/
def qpOf (st : ParserState) (n : NalUnit) : Option Int :=
  n.nal_unit_payload.slice_segment_layer.bind fun s => (st.pps s.head.slice_pic_parameter_set_id).map fun P => sliceQpY P s

/-- a payload with a slice comes from a NAL unit of slice type -/
def SliceTyped (n : NalUnit) : Prop := n.nal_unit_payload.slice_segment_layer.isSome → isSliceSegment n.nal_unit_header.nal_unit_type = true

theorem sliceQpLoop_ok (st : ParserState) : ∀ (ns : List NalUnit) (qs : List Int), (∀ n ∈ ns, SliceTyped n) → sliceQpLoop st ns = .ok qs →
    qs = ns.filterMap (qpOf st) ∧
    ∀ n ∈ ns, ∀ s P, n.nal_unit_payload.slice_segment_layer = some s → st.pps s.head.slice_pic_parameter_set_id = some P → QpFits P s
  | [], qs, _, h => by cases h; exact ⟨rfl, fun n hn => absurd hn (by simp)⟩
  | n :: ns, qs, ht, h => by
    simp only [sliceQpLoop] at h
    split at h
    · cases h
    · rename_i q hq
      split at h
      · cases h
      · rename_i qs' hqs
        cases h
        obtain ⟨h1, h2⟩ := sliceQpLoop_ok st ns qs' (fun m hm => ht m (by simp [hm])) hqs
        have hn := ht n (by simp)
        have key : q = qpOf st n ∧ ∀ s P, n.nal_unit_payload.slice_segment_layer = some s → st.pps s.head.slice_pic_parameter_set_id = some P → QpFits P s := by
          by_cases hty : isSliceSegment n.nal_unit_header.nal_unit_type = true
          · rw [C41_internal hty] at hq
            unfold qpOf
            cases hs : n.nal_unit_payload.slice_segment_layer with
            | none => rw [hs] at hq; cases hq; exact ⟨rfl, fun s P h => by cases h⟩
            | some s =>
              rw [hs] at hq
              dsimp only at hq
              simp only [Option.bind_some]
              cases hp : st.pps s.head.slice_pic_parameter_set_id with
              | none => rw [hp] at hq; cases hq; exact ⟨rfl, fun s' P h h' => by cases h; rw [hp] at h'; cases h'⟩
              | some P =>
                rw [hp] at hq
                dsimp only at hq
                split at hq
                · rename_i hf
                  cases hq
                  exact ⟨rfl, fun s' P' h h' => by cases h; rw [hp] at h'; cases h'; exact hf⟩
                · cases hq
          · rw [C41_internal_other hty] at hq
            have : n.nal_unit_payload.slice_segment_layer = none := by
              cases hs : n.nal_unit_payload.slice_segment_layer with
              | none => rfl
              | some s => exact absurd (hn (by rw [hs]; rfl)) hty
            cases hq
            unfold qpOf
            rw [this]
            exact ⟨rfl, fun s P h => by cases h⟩
        refine ⟨?_, fun m hm => ?_⟩
        · rw [h1, key.1, List.filterMap_cons]
          cases qpOf st n <;> rfl
        · rcases List.mem_cons.mp hm with rfl | hm
          · exact key.2
          · exact h2 m hm

theorem sliceQpLoop_error (st : ParserState) : ∀ (ns : List NalUnit) (k : Bad), sliceQpLoop st ns = .error k → k = .signedOverflow
  | [], k, h => by cases h
  | n :: ns, k, h => by
    simp only [sliceQpLoop] at h
    split at h
    · rename_i k' hk
      cases h
      by_cases hty : isSliceSegment n.nal_unit_header.nal_unit_type = true
      · rw [C41_internal hty] at hk
        split at hk
        · cases hk
        · split at hk
          · cases hk
          · split at hk
            · cases hk
            · cases hk; rfl
      · rw [C41_internal_other hty] at hk; cases hk
    · split at h
      · rename_i k' hk; cases h; exact sliceQpLoop_error st ns _ hk
      · cases h

/-- The slice in a parsed NAL unit was parsed with the state before it. -/
theorem parseAll_split {cs : Bool} : ∀ {l : List (Nat × Nat × List UInt8)} {st st' : ParserState} {a b : List NalUnit} {n : NalUnit},
    parseAll cs l st = .ok (a ++ n :: b, st') →
    ∃ st1 st2, Steps st (a.map (·.nal_unit_payload)) st1 ∧ Steps st1 [n.nal_unit_payload] st2 ∧ Steps st2 (b.map (·.nal_unit_payload)) st' ∧
      ∀ s, n.nal_unit_payload.slice_segment_layer = some s → isSliceSegment n.nal_unit_header.nal_unit_type = true ∧
        Parsed (parseSliceSegmentHeader n.nal_unit_header.nal_unit_type st1.pps st1.sps) s
  | [], st, st', a, b, n, h => by simp only [parseAll] at h; cases a <;> cases h
  | (off, len, nal) :: rest, st, st', a, b, n, h => by
    simp only [parseAll] at h
    cases hp : parseNalUnit cs st nal with
    | bad k => rw [hp] at h; cases h
    | fail c => rw [hp] at h; exact parseAll_split h
    | ok x c =>
      obtain ⟨m, st1⟩ := x
      rw [hp] at h
      simp only at h
      cases hr : parseAll cs rest st1 with
      | error k => rw [hr] at h; cases h
      | ok y =>
        obtain ⟨ns, st2⟩ := y
        rw [hr] at h
        simp only [Except.ok.injEq, Prod.mk.injEq] at h
        obtain ⟨h, rfl⟩ := h
        have hst := parseNalUnit_steps hp
        cases a with
        | nil =>
          simp only [List.nil_append, List.cons.injEq] at h
          obtain ⟨rfl, rfl⟩ := h
          refine ⟨st, st1, .nil _, hst, parseAll_steps hr, fun s hs => ?_⟩
          obtain ⟨rbsp, _, hq⟩ := parseNalUnit_ok hp
          obtain ⟨b1, b2, h1, h2, _⟩ := hq.parts
          obtain ⟨h3, h4⟩ := (C21_payload h2).2.2.2.2.1 s hs
          exact ⟨h3, b1, b2, (run_ok_wf (BB.WF.init rbsp) h1).1, h4⟩
        | cons m' a =>
          simp only [List.cons_append, List.cons.injEq] at h
          obtain ⟨rfl, rfl⟩ := h
          obtain ⟨s1, s2, g1, g2, g3, g4⟩ := parseAll_split hr
          exact ⟨s1, s2, hst.append g1, g2, g3, g4⟩

theorem getSliceQpY_ok {st st' : ParserState} {data : List UInt8} {qs : List Int} (h : getSliceQpY st data = .ok (qs, st')) :
    ∃ ns, parseBitstream false st data = .ok (ns, st') ∧ sliceQpLoop st' ns = .ok qs := by
  unfold getSliceQpY at h
  split at h
  · cases h
  · rename_i ns s hp
    split at h
    · cases h
    · rename_i qs' hq; cases h; exact ⟨ns, hp, hq⟩

/-- C41: a stream gives one value for each slice with a parsed header, in order: 26 + init_qp_minus26 + slice_qp_delta with the PPS that the slice names, as it is
known at the end of the stream. -/
theorem C41_stream {st st' : ParserState} {data : List UInt8} {qs : List Int} (hlen : data.length < 2 ^ 64) (h : getSliceQpY st data = .ok (qs, st')) :
    ∃ ns, parseBitstream false st data = .ok (ns, st') ∧
      qs = ns.filterMap (fun n => n.nal_unit_payload.slice_segment_layer.bind fun s =>
        (st'.pps s.head.slice_pic_parameter_set_id).map fun P => 26 + P.body.head.init_qp_minus26 + s.body.slice_qp_delta) ∧
      ∀ n ∈ ns, ∀ s, n.nal_unit_payload.slice_segment_layer = some s → ∃ P, st'.pps s.head.slice_pic_parameter_set_id = some P := by
  obtain ⟨ns, hp, hq⟩ := getSliceQpY_ok h
  have hsplit : ∀ n ∈ ns, ∀ s, n.nal_unit_payload.slice_segment_layer = some s → isSliceSegment n.nal_unit_header.nal_unit_type = true ∧
      ∃ P, st'.pps s.head.slice_pic_parameter_set_id = some P := by
    intro n hn s hs
    obtain ⟨a, b, rfl⟩ := List.append_of_mem hn
    rw [parseBitstream_eq false st data hlen] at hp
    obtain ⟨s1, s2, g1, g2, g3, g4⟩ := parseAll_split hp
    obtain ⟨h1, b1, b2, _, h3⟩ := g4 s hs
    obtain ⟨P, S, h4, _⟩ := C23_slice_needs_parameter_sets h3
    refine ⟨h1, ?_⟩
    have h5 := (C21_latest (g2.append g3) s.head.slice_pic_parameter_set_id).2.2
    rw [h4] at h5
    rw [h5]
    cases latest (·.pps) (·.body.head.pps_pic_parameter_set_id) s.head.slice_pic_parameter_set_id ([n.nal_unit_payload] ++ b.map (·.nal_unit_payload)) with
    | none => exact ⟨P, rfl⟩
    | some Q => exact ⟨Q, rfl⟩
  refine ⟨ns, hp, (sliceQpLoop_ok st' ns qs (fun n hn hs => ?_) hq).1, fun n hn s hs => (hsplit n hn s hs).2⟩
  obtain ⟨s, hs⟩ := Option.isSome_iff_exists.mp hs
  exact (hsplit n hn s hs).1

/-- C41: so there are as many values as slices with a parsed header. -/
theorem C41_count {st st' : ParserState} {data : List UInt8} {qs : List Int} (hlen : data.length < 2 ^ 64) (h : getSliceQpY st data = .ok (qs, st')) :
    ∃ ns, parseBitstream false st data = .ok (ns, st') ∧ qs.length = (ns.filter fun n => n.nal_unit_payload.slice_segment_layer.isSome).length := by
  obtain ⟨ns, h1, h2, h3⟩ := C41_stream hlen h
  refine ⟨ns, h1, ?_⟩
  rw [h2]
  clear h h1 h2
  induction ns with
  | nil => rfl
  | cons n ns ih =>
    have := ih (fun m hm => h3 m (by simp [hm]))
    rw [List.filterMap_cons]
    cases hs : n.nal_unit_payload.slice_segment_layer with
    | none => simp only [Option.bind_none]; rw [List.filter_cons_of_neg (by simp [hs])]; exact this
    | some s =>
      obtain ⟨P, hP⟩ := h3 n (by simp) s hs
      simp only [Option.bind_some, hP, Option.map_some]
      rw [List.filter_cons_of_pos (by simp [hs]), List.length_cons, List.length_cons, this]

/-- C41: the value is that of the PPS the slice was parsed with, provided that no PPS with the same id comes later in the stream. -/
theorem C41_own_pps {st st' : ParserState} {data : List UInt8} {a b : List NalUnit} {n : NalUnit} {s : SliceSegmentHeader} (hlen : data.length < 2 ^ 64)
    (h : parseBitstream false st data = .ok (a ++ n :: b, st')) (hs : n.nal_unit_payload.slice_segment_layer = some s)
    (hb : ∀ m ∈ b, ∀ P, m.nal_unit_payload.pps = some P → P.body.head.pps_pic_parameter_set_id ≠ s.head.slice_pic_parameter_set_id) :
    ∃ st1 P, Steps st (a.map (·.nal_unit_payload)) st1 ∧ Parsed (parseSliceSegmentHeader n.nal_unit_header.nal_unit_type st1.pps st1.sps) s ∧
      st1.pps s.head.slice_pic_parameter_set_id = some P ∧ st'.pps s.head.slice_pic_parameter_set_id = some P := by
  rw [parseBitstream_eq false st data hlen] at h
  obtain ⟨s1, s2, g1, g2, g3, g4⟩ := parseAll_split h
  obtain ⟨h1, hpar⟩ := g4 s hs
  have hpar' := hpar
  obtain ⟨b1, b2, _, h3⟩ := hpar'
  obtain ⟨P, S, h4, _⟩ := C23_slice_needs_parameter_sets h3
  refine ⟨s1, P, g1, hpar, h4, ?_⟩
  -- a payload with a slice has no PPS
  have hn : n.nal_unit_payload.pps = none := by
    cases g2 with
    | cons _ hr _ =>
      cases hp : n.nal_unit_payload.pps with
      | none => rfl
      | some x =>
        obtain ⟨_, _, d3, _, d5, _⟩ := C21_payload hr
        obtain ⟨e1, _⟩ := d3 x hp
        obtain ⟨e2, _⟩ := d5 s hs
        rw [e1] at e2
        exact absurd e2 (by decide)
  have h5 := (C21_latest (g2.append g3) s.head.slice_pic_parameter_set_id).2.2
  have hnone : latest (·.pps) (·.body.head.pps_pic_parameter_set_id) s.head.slice_pic_parameter_set_id ([n.nal_unit_payload] ++ b.map (·.nal_unit_payload)) = none := by
    unfold latest
    rw [List.getLast?_eq_none_iff, List.filter_eq_nil_iff]
    intro P hP
    rw [List.mem_filterMap] at hP
    obtain ⟨p, hp, hq⟩ := hP
    rw [List.singleton_append, List.mem_cons, List.mem_map] at hp
    rcases hp with rfl | ⟨m, hm, rfl⟩
    · rw [hn] at hq; cases hq
    · simpa using hb m hm P hq
  rw [h5, hnone, h4]
  rfl

theorem sliceQp_safe_for {A : Bad → Prop} {st : ParserState} {data : List UInt8} {k : Bad} (hs : UsableFor A st) (hlen : data.length < 2 ^ 32) (h : getSliceQpY st data = .error k) :
    A k := by
  unfold getSliceQpY at h
  split at h
  · rename_i k' hk; cases h; exact bitstream_safe_for hs hlen hk
  · split at h
    · rename_i k' hk; cases h; rw [sliceQpLoop_error _ _ _ hk]; exact hs.overflow
    · cases h

/-- C41, C44: computing the values of any stream after any history does nothing undefined except possibly a signed 32-bit overflow. -/
theorem C41_safe {st : ParserState} {data : List UInt8} {k : Bad} (hs : Reach st) (hlen : data.length < 2 ^ 32) (h : getSliceQpY st data = .error k) :
    k = .signedOverflow :=
  sliceQp_safe_for (A := fun k => k = .signedOverflow) hs.usable hlen h

/-! ### RTP -/

/-- C41: for an RTP packet, the value is that of its slice: the NAL unit itself, the last aggregated unit, or a start fragment; there is none in other fragments. -/
theorem C41_rtp (rtp : Rtp) (st : ParserState) :
    (rtp.nal_unit_header.nal_unit_type ≤ 47 → ∀ x, rtp.rtp_single = some x →
      getSliceQpYRtp rtp st = getSliceQpYInternal x.nal_unit_header.nal_unit_type (some x.nal_unit_payload) st) ∧
    (rtp.nal_unit_header.nal_unit_type = 48 → ∀ ap u, rtp.rtp_ap = some ap → ap.units.getLast? = some u → ap.units.length < 2 ^ 64 →
      getSliceQpYRtp rtp st = getSliceQpYInternal u.nal_unit_header.nal_unit_type (some u.nal_unit_payload) st) ∧
    (rtp.nal_unit_header.nal_unit_type = 49 → ∀ fu, rtp.rtp_fu = some fu → fu.s_bit ≠ 0 →
      getSliceQpYRtp rtp st = getSliceQpYInternal fu.fu_type fu.nal_unit_payload st) ∧
    (rtp.nal_unit_header.nal_unit_type = 49 → ∀ fu, rtp.rtp_fu = some fu → fu.s_bit = 0 → getSliceQpYRtp rtp st = .ok none) ∧
    (50 ≤ rtp.nal_unit_header.nal_unit_type → getSliceQpYRtp rtp st = .ok none) := by
  unfold getSliceQpYRtp
  refine ⟨fun h x hx => ?_, fun h ap u hx hl hn => ?_, fun h fu hx hs => ?_, fun h fu hx hs => ?_, fun h => ?_⟩
  · rw [if_pos h, hx]
  · rw [if_neg (by omega), if_pos h, hx]
    dsimp only
    have hpos : 0 < ap.units.length := by
      cases hu : ap.units with
      | nil => rw [hu] at hl; cases hl
      | cons y ys => simp
    have hi : (ap.units.length + 2 ^ 64 - 1) % 2 ^ 64 = ap.units.length - 1 := by omega
    rw [hi, ← List.getLast?_eq_getElem?, hl]
  · rw [if_neg (by omega), if_neg (by omega), if_pos h, hx]
    dsimp only
    rw [if_neg hs]
  · rw [if_neg (by omega), if_neg (by omega), if_pos h, hx]
    dsimp only
    rw [if_pos hs]
  · rw [if_neg (by omega), if_neg (by omega), if_neg (by omega)]

/-- C41, a limit of the code: the aggregation packet that consists of its header only is parsed successfully, and asking for its slice QP reads outside the (empty)
vector of headers. -/
theorem C41_empty_ap_oob : ∃ r st, parseRtp .empty [0x60, 0x01] = .ok (some r, st) ∧ getSliceQpYRtp r st = .error .oob := by
  have h := C38_packet_complete (b0 := 0x60) (b1 := 0x01) (data := [0x60, 0x01]) (rest := []) rfl (by decide) (by decide) (st := .empty) (.nil _)
  exact ⟨_, _, h, by decide +kernel⟩

/-- C41: that is the only problem of its own that the function has on packets that were parsed: otherwise only the sum can overflow. -/
theorem C41_rtp_safe {st st' st2 : ParserState} {data : List UInt8} {r : Rtp} {k : Bad} (hlen : data.length < 2 ^ 32) (h : parseRtp st data = .ok (some r, st'))
    (hq : getSliceQpYRtp r st2 = .error k) : k = .signedOverflow ∨ (k = .oob ∧ ∃ ap, r.rtp_ap = some ap ∧ (ap.units = [] ∨ 2 ^ 64 ≤ ap.units.length)) := by
  have hint : ∀ t o, getSliceQpYInternal t o st2 = .error k → k = .signedOverflow := by
    intro t o hk
    cases o with
    | none => unfold getSliceQpYInternal at hk; split at hk <;> cases hk
    | some p =>
      by_cases hty : isSliceSegment t = true
      · rw [C41_internal hty] at hk
        split at hk
        · cases hk
        · split at hk
          · cases hk
          · split at hk
            · cases hk
            · cases hk; rfl
      · rw [C41_internal_other hty] at hk; cases hk
  obtain ⟨rbsp, hu, _⟩ := C11_unescape_bounds data
  obtain ⟨b0, b1, rest, _, hh, h1, h2, h3, h4⟩ := C37_dispatch hu hlen h
  have ht : r.nal_unit_header.nal_unit_type = b0.toNat / 2 % 64 := by rw [hh]
  obtain ⟨q1, q2, q3, q4, q5⟩ := C41_rtp r st2
  rw [ht] at q1 q2 q3 q4 q5
  by_cases c1 : b0.toNat / 2 % 64 ≤ 47
  · obtain ⟨x, hx, _⟩ := h1 c1
    rw [q1 c1 x hx] at hq
    exact .inl (hint _ _ hq)
  by_cases c2 : b0.toNat / 2 % 64 = 48
  · obtain ⟨ap, hx, _⟩ := h2 c2
    by_cases hbig : ap.units.length < 2 ^ 64
    · cases hl : ap.units.getLast? with
      | some u => rw [q2 c2 ap u hx hl hbig] at hq; exact .inl (hint _ _ hq)
      | none =>
        rw [List.getLast?_eq_none_iff] at hl
        refine .inr ⟨?_, ap, hx, .inl hl⟩
        unfold getSliceQpYRtp at hq
        rw [ht, if_neg c1, if_pos c2, hx] at hq
        dsimp only at hq
        rw [hl] at hq
        cases hq; rfl
    · unfold getSliceQpYRtp at hq
      rw [ht, if_neg c1, if_pos c2, hx] at hq
      dsimp only at hq
      split at hq
      · cases hq; exact .inr ⟨rfl, ap, hx, .inr (by omega)⟩
      · exact .inl (hint _ _ hq)
  by_cases c3 : b0.toNat / 2 % 64 = 49
  · obtain ⟨fu, hx, _⟩ := h3 c3
    by_cases hz : fu.s_bit = 0
    · rw [q4 c3 fu hx hz] at hq; cases hq
    · rw [q3 c3 fu hx hz] at hq; exact .inl (hint _ _ hq)
  · rw [q5 (by omega)] at hq; cases hq

/-! ### limits of the code -/

/-- C41: the value of a dependent slice segment is 26 + init_qp_minus26, whatever the slice_qp_delta of the slice it belongs to: that value is not inferred. -/
theorem C41_dependent_slice {t : Nat} {st : ParserState} {s : SliceSegmentHeader} {P : Pps} (hst : Reach st)
    (hs : Parsed (parseSliceSegmentHeader t st.pps st.sps) s) (hd : s.body.dependent_slice_segment_flag ≠ 0) :
    sliceQpY P s = 26 + P.body.head.init_qp_minus26 := by
  have hok := C21_reachable_states hst
  obtain ⟨bb, bb', hwf, hr⟩ := hs
  obtain ⟨P', S, _, hv, _⟩ := C36_slice_sound (fun i P hP => (hok.pps i P hP).1) (fun i P hP => (hok.sps i P hP).1) hwf hr
  have := hv.body.slice_qp_delta.absent hd
  unfold sliceQpY
  rw [this]
  omega

/-- hypotheses met: the stream of h265_bitstream_parser_unittest.cc gives one value, 35 = 26 + 0 + 9 -/
example : ((getSliceQpY .empty testStream).toOption.map (·.1)) = some [35] := by decide +kernel

/-- and the start fragment of h265_rtp_parser_unittest.cc gives 35 = 26 - 4 + 13 -/
example : ((rtpIn (rtpState .empty ([0x60, 0x01] ++ lengthPrefixed 2 [apVps, apSps, apPps])) apFu).bind fun r =>
    (getSliceQpYRtp r (rtpState .empty ([0x60, 0x01] ++ lengthPrefixed 2 [apVps, apSps, apPps]))).toOption.bind id) = some 35 := by decide +kernel

/-- C41 without the condition of `C41_own_pps` is false of the code: a PPS with the same id after the slice (here with init_qp_minus26 = -4) changes the value
reported for the slice, although the slice was parsed with the first one. -/
theorem C41_later_pps_counterexample :
    ((getSliceQpY .empty testStream).toOption.map (·.1)) = some [35] ∧
    ((getSliceQpY .empty (testStream ++ [0, 0, 0, 1] ++ apPps)).toOption.map (·.1)) = some [31] := by decide +kernel

/-- VPS, SPS, a PPS with init_qp_minus26 = -2^30, and a slice with slice_qp_delta = -2^30 - 27 -/
def overflowStream : List UInt8 := annexB [(true, apVps), (true, [0x42, 0x01] ++ testSps),
  (true, escape [0x44, 0x01, 0xc0, 0xe0, 0x00, 0x00, 0x00, 0x20, 0x00, 0x00, 0x00, 0x4f, 0x00, 0x08, 0x40]),
  (true, escape [0x26, 0x01, 0xaf, 0x00, 0x00, 0x00, 0x01, 0x00, 0x00, 0x00, 0x6f, 0x03, 0xce, 0xe0])]

/-- C41: the sum does overflow on some streams: neither summand is range-checked. -/
theorem C41_overflow_counterexample : (match parseBitstream false .empty overflowStream with | .ok x => x.1.length | .error _ => 0) = 4 ∧
    (match getSliceQpY .empty overflowStream with | .ok _ => none | .error k => some k) = some .signedOverflow := by decide +kernel

end H265
