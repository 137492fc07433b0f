/- C97: extracting part of a stream. -/
import Verif.Spec.Extract
import Verif.Props.Damage
import Verif.Props.Remux
import Verif.Props.Containers

set_option autoImplicit false

namespace H265
open Spec Std

/-- what is not needed -/
def Spec.Needed.rest (u : Needed) : Touched := ⟨fun i => ¬ u.vps i, fun i => ¬ u.sps i, fun i => ¬ u.pps i⟩

theorem Spec.SelfContained.tail {keep : NalUnitHeader → Bool} {u : Needed} {n : NalUnit} {ns : List NalUnit} (h : SelfContained keep u (n :: ns)) : SelfContained keep u ns :=
  ⟨fun m hm => h.slices m (.tail _ hm), fun m hm => h.names m (.tail _ hm), fun m hm => h.vps m (.tail _ hm), fun m hm => h.sps m (.tail _ hm),
    fun m hm => h.pps m (.tail _ hm)⟩

theorem extract_all {cs : Bool} {keep : NalUnitHeader → Bool} {u : Needed} : ∀ {l : List (Nat × Nat × List UInt8)} {a b a' : ParserState} {ns : List NalUnit},
    parseAll cs l a = .ok (ns, a') → SameOutside u.rest a b → SelfContained keep u ns →
    ∃ b', parseAll cs (l.filter fun x => kept keep x.2.2) b = .ok (ns.filter fun n => keep n.nal_unit_header, b') ∧ SameOutside u.rest a' b'
  | [], a, b, a', ns, h, hab, _ => by cases h; exact ⟨b, rfl, hab⟩
  | (off, len, x) :: l, a, b, a', ns, h, hab, hs => by
    simp only [parseAll] at h
    cases hp : parseNalUnit cs a x with
    | bad k => rw [hp] at h; cases h
    | fail e =>
      rw [hp] at h
      dsimp only at h
      obtain ⟨b', h1, h2⟩ := extract_all h hab hs
      refine ⟨b', ?_, h2⟩
      rw [List.filter_cons]
      split
      · obtain ⟨e', h3⟩ := (C22_dropped_iff (cs := cs) (st := b) (unescapeRbsp_eq x)).mpr ((C22_dropped_iff (cs := cs) (st := a) (unescapeRbsp_eq x)).mp ⟨e, hp⟩)
        simp only [parseAll, h3]
        exact h1
      · exact h1
    | ok y e =>
      obtain ⟨n, a1⟩ := y
      rw [hp] at h
      dsimp only at h
      cases hr : parseAll cs l a1 with
      | error k => rw [hr] at h; cases h
      | ok z =>
        obtain ⟨ms, a2⟩ := z
        rw [hr] at h
        cases h
        have hn : ({ n with offset := off, length := len } : NalUnit) ∈ ({ n with offset := off, length := len } : NalUnit) :: ms := .head _
        have hh := header_of_parsed hp
        have ha1 := nal_effect hp
        have hc : ∀ x, n.nal_unit_payload.pps = some x → u.rest.sps x.body.head.pps_seq_parameter_set_id → u.rest.pps x.body.head.pps_pic_parameter_set_id :=
          fun x hx h1 h2 => h1 (hs.names _ hn x hx h2)
        cases hk : keep n.nal_unit_header with
        | true =>
          have hb : parseNalUnit cs b x = .ok (n, effect b n.nal_unit_payload) e := by
            cases hsl : isSliceSegment n.nal_unit_header.nal_unit_type with
            | false => exact nal_any_state hp hsl
            | true =>
              obtain ⟨hd, g1, g2⟩ := hs.slices _ hn hk hsl
              exact same_slice hab hp hsl g1 (fun c => c g2)
          obtain ⟨b', h1, h2⟩ := extract_all hr (b := effect b n.nal_unit_payload) (by rw [ha1]; exact hab.step (.inl rfl) (.inl rfl) (.inl rfl) hc) hs.tail
          refine ⟨b', ?_, h2⟩
          rw [List.filter_cons_of_pos (by simpa [kept, hh] using hk), List.filter_cons_of_pos (by simpa using hk)]
          simp only [parseAll, hb, h1]
        | false =>
          have hv : ∀ x, n.nal_unit_payload.vps = some x → ¬ u.vps x.body.vps_video_parameter_set_id := hs.vps { n with offset := off, length := len } hn hk
          have hq : ∀ x, n.nal_unit_payload.sps = some x → ¬ u.sps x.body.sps_seq_parameter_set_id := hs.sps { n with offset := off, length := len } hn hk
          have hw : ∀ x, n.nal_unit_payload.pps = some x → ¬ u.pps x.body.head.pps_pic_parameter_set_id := hs.pps { n with offset := off, length := len } hn hk
          have hab1 : SameOutside u.rest a1 b := by
            have := hab.step (p := n.nal_unit_payload) (q := {}) (.inr ⟨hv, fun _ h => (by cases h)⟩) (.inr ⟨hq, fun _ h => (by cases h)⟩)
              (.inr ⟨hw, fun _ h => (by cases h)⟩) hc
            rw [effect_none (a := b) ⟨rfl, rfl, rfl⟩, ← ha1] at this
            exact this
          obtain ⟨b', h1, h2⟩ := extract_all hr hab1 hs.tail
          refine ⟨b', ?_, h2⟩
          rw [List.filter_cons_of_neg (by simp [kept, hh, hk]), List.filter_cons_of_neg (by simp [hk])]
          exact h1

theorem Spec.Needed.ClosedIn.same {u : Needed} {a : ParserState} (h : u.ClosedIn a) : SameOutside u.rest a a :=
  ⟨fun _ _ => rfl, fun _ _ => rfl, fun _ _ => rfl, fun i P hi hP hn => hi (fun hu => hn (h i P hu hP))⟩

theorem Spec.SameOutside.needed {u : Needed} {a b : ParserState} (h : SameOutside u.rest a b) : SameNeeded u a b :=
  ⟨fun i hi => h.vps i (fun c => c hi), fun i hi => h.sps i (fun c => c hi), fun i hi => h.pps i (fun c => c hi)⟩

/-- **C97**, byte streams: any bytes, any rule on headers. -/
theorem C97_byte_stream {cs : Bool} {keep : NalUnitHeader → Bool} {u : Needed} {st st1 : ParserState} {data : List UInt8} {ns : List NalUnit} (hd : data.length < 2 ^ 64)
    (he : (extract keep data).length < 2 ^ 64) (hu : u.ClosedIn st) (h : parseBitstream cs st data = .ok (ns, st1)) (hs : SelfContained keep u ns) :
    ∃ ns' st2, parseBitstream cs st (extract keep data) = .ok (ns', st2) ∧ ns'.map contents = (ns.filter fun n => keep n.nal_unit_header).map contents ∧ SameNeeded u st1 st2 := by
  rw [parseBitstream_eq cs st data hd, ← parseAll_nonempty] at h
  obtain ⟨st2, h1, h2⟩ := extract_all h hu.same hs
  have hf : ((nalUnitsOf data).filter fun x => decide (x ≠ []) && kept keep x) = ((nalUnitsOf data).filter fun x => decide (x ≠ [])).filter (kept keep) := by
    rw [List.filter_filter]
    congr 1
    funext x
    exact Bool.and_comm _ _
  have hn : ((entries (extract keep data) (extract keep data).length (starts (extract keep data))).map (spanOf (extract keep data))).map (·.2.2) =
      (nalUnitsOf data).filter fun x => decide (x ≠ []) && kept keep x :=
    tame_places _ (fun x hx => by
      have := (List.mem_filter.mp hx).2
      rw [Bool.and_eq_true] at this
      exact of_decide_eq_true this.1) (Tame.filter _ (units_tame hd))
  obtain ⟨ns', g1, g2⟩ := parseAll_same (l' := (entries (extract keep data) (extract keep data).length (starts (extract keep data))).map (spanOf (extract keep data)))
    (by rw [hn, hf, map_filter_nals (kept keep), filtered_nals, nalUnitsOf_eq hd]) h1
  exact ⟨ns', st2, (parseBitstream_eq cs st _ he).trans g1, g2, h2.needed⟩

/-- **C97**, streams with length fields. -/
theorem C97_length_fields {cs : Bool} {keep : NalUnitHeader → Bool} {u : Needed} {st st1 : ParserState} {n : Nat} {units : List (List UInt8)} {ns : List NalUnit}
    (hn0 : 0 < n) (hn : n ≤ 7) (hl : ∀ x ∈ units, x ≠ [] ∧ x.length < 256 ^ n) (hlen : (lengthPrefixed n units).length < 2 ^ 63) (hu : u.ClosedIn st)
    (h : parseBitstreamNaluLength cs n st (lengthPrefixed n units) = .ok (ns, st1)) (hs : SelfContained keep u ns) :
    ∃ ns' st2, parseBitstreamNaluLength cs n st (lengthPrefixed n (units.filter (kept keep))) = .ok (ns', st2) ∧
      ns'.map contents = (ns.filter fun n => keep n.nal_unit_header).map contents ∧ SameNeeded u st1 st2 := by
  rw [lengthStream_eq cs n st units hn0 hn hl hlen] at h
  obtain ⟨st2, h1, h2⟩ := extract_all h hu.same hs
  rw [lengthStream_eq cs n st _ hn0 hn (fun x hx => hl x (List.mem_filter.1 hx).1) (Nat.lt_of_le_of_lt (lengthPrefixed_length_filter _ _ _) hlen)]
  obtain ⟨ns', g1, g2⟩ := parseAll_same (l' := lengthPlaces n 0 (units.filter (kept keep))) (by rw [map_filter_nals (kept keep), lengthPlaces_nals, lengthPlaces_nals]) h1
  exact ⟨ns', st2, g1, g2, h2.needed⟩

/-- **C97**, RTP: each NAL unit is sent as a packet of its own, and something on the way (a selective forwarding unit) passes on the packets chosen by their headers only. -/
theorem C97_packets {keep : NalUnitHeader → Bool} {u : Needed} {st st1 : ParserState} {data : List UInt8} {ns : List NalUnit} (hd : data.length < 2 ^ 64)
    (ht : ∀ x ∈ nalUnitsOf data, x.length < 2 ^ 32 ∧ ∀ h, rawHeader x = some h → h.nal_unit_type ≤ 47) (hu : u.ClosedIn st)
    (h : parseBitstream false st data = .ok (ns, st1)) (hs : SelfContained keep u ns) :
    rtpSession (nalUnitsOf data) st = .ok (ns.map asSingle, st1) ∧
    ∃ st2, rtpSession ((nalUnitsOf data).filter (kept keep)) st = .ok ((ns.filter fun n => keep n.nal_unit_header).map asSingle, st2) ∧ SameNeeded u st1 st2 := by
  refine ⟨by rw [C91_packets st data hd ht, h]; rfl, ?_⟩
  rw [parseBitstream_eq false st data hd] at h
  obtain ⟨st2, h1, h2⟩ := extract_all h hu.same hs
  refine ⟨st2, ?_, h2.needed⟩
  rw [nalUnitsOf_eq hd] at ht ⊢
  rw [← map_filter_nals (kept keep), rtpSession_eq _ st (fun x hx => ht _ (List.mem_map_of_mem (List.mem_filter.mp hx).1)), h1]
  rfl

/-! ### a concrete case: two layers -/

/-- the layer that is extracted -/
def exBase (h : NalUnitHeader) : Bool := h.nuh_layer_id == 0

/-- the parameter sets and slices of the examples before, with PPS 1 and a slice in layer 1 -/
def exLayers (pps : List UInt8) : List UInt8 :=
  annexB (((exBytes.take 3 ++ [pps] ++ (exBytes.drop 3).take 1 ++ [[0x02, 0x09, 0xd0, 0x9a, 0x0c, 0x80]] ++ exBytes.drop 4)).map fun x => (true, escape x))

/-- PPS 1 in layer 1 -/
def exLayerPps : List UInt8 := [0x44, 0x09, 0x50, 0x3c, 0xf0, 0x00, 0x84]

/-- VPS 0, SPS 0 and PPS 0 are needed -/
def exNeeded : Needed := ⟨fun i => i = 0, fun i => i = 0, fun i => i = 0⟩

example : exNeeded.ClosedIn .empty := fun _ _ _ h => (by cases h)

/-- layers, types and QP offsets reported -/
def exReported (data : List UInt8) : List (Nat × Nat × Option Int) :=
  match parseBitstream true .empty data with
  | .ok (ns, _) => ns.map fun n => (n.nal_unit_header.nuh_layer_id, n.nal_unit_header.nal_unit_type, n.nal_unit_payload.slice_segment_layer.map (·.body.slice_qp_delta))
  | .error _ => []

/-- The base layer is reported as in the stream with both layers. -/
example : exReported (exLayers exLayerPps) = [(0, 32, none), (0, 33, none), (0, 34, none), (1, 34, none), (0, 19, some 9), (1, 1, none), (0, 1, some (-3))] ∧
    exReported (extract exBase (exLayers exLayerPps)) = [(0, 32, none), (0, 33, none), (0, 34, none), (0, 19, some 9), (0, 1, some (-3))] := by
  decide +kernel

/-- That no parameter set removed has an id that is needed is a condition indeed: layers share the ids, and with PPS 0 in layer 1 the base layer is reported otherwise in
the stream with both layers. -/
theorem C97_shared_ids : exReported (exLayers [0x44, 0x09, 0xd0, 0xf3, 0xc0, 0x02, 0x10]) =
      [(0, 32, none), (0, 33, none), (0, 34, none), (1, 34, none), (0, 19, some (-4)), (1, 1, some 0), (0, 1, some 0)] ∧
    exReported (extract exBase (exLayers [0x44, 0x09, 0xd0, 0xf3, 0xc0, 0x02, 0x10])) = [(0, 32, none), (0, 33, none), (0, 34, none), (0, 19, some 9), (0, 1, some (-3))] := by
  decide +kernel

/-- the conditions of `SelfContained` for these ids, as a function -/
def exCheck (n : NalUnit) : Bool :=
  (!exBase n.nal_unit_header || !isSliceSegment n.nal_unit_header.nal_unit_type ||
    (match n.nal_unit_payload.slice_segment_layer with | some h => h.head.slice_pic_parameter_set_id == 0 | none => false)) &&
  (match n.nal_unit_payload.pps with | some x => x.body.head.pps_pic_parameter_set_id != 0 || x.body.head.pps_seq_parameter_set_id == 0 | none => true) &&
  (exBase n.nal_unit_header || ((match n.nal_unit_payload.vps with | some x => x.body.vps_video_parameter_set_id != 0 | none => true) &&
    (match n.nal_unit_payload.sps with | some x => x.body.sps_seq_parameter_set_id != 0 | none => true) &&
    (match n.nal_unit_payload.pps with | some x => x.body.head.pps_pic_parameter_set_id != 0 | none => true)))

theorem exCheck_sound {ns : List NalUnit} (h : ns.all exCheck = true) : SelfContained exBase exNeeded ns := by
  have h0 : ∀ n ∈ ns, exCheck n = true := fun n hn => List.all_eq_true.mp h n hn
  refine ⟨fun n hn hk hs => ?_, fun n hn x hx he => ?_, fun n hn hk x hx he => ?_, fun n hn hk x hx he => ?_, fun n hn hk x hx he => ?_⟩ <;>
    have h1 := h0 n hn <;> unfold exCheck at h1
  · rw [hk, hs] at h1
    cases hl : n.nal_unit_payload.slice_segment_layer with
    | none => rw [hl] at h1; simp at h1
    | some y => rw [hl] at h1; simp only [Bool.not_true, Bool.false_or, Bool.and_eq_true, beq_iff_eq] at h1; exact ⟨y, rfl, h1.1.1⟩
  · rw [hx] at h1
    have he : x.body.head.pps_pic_parameter_set_id = 0 := he
    simp only [Bool.and_eq_true, Bool.or_eq_true, bne_iff_ne, beq_iff_eq, he, ne_eq, not_true_eq_false, false_or] at h1
    exact h1.1.2
  · have he : x.body.vps_video_parameter_set_id = 0 := he
    rw [hx, hk] at h1; simp [he] at h1
  · have he : x.body.sps_seq_parameter_set_id = 0 := he
    rw [hx, hk] at h1; simp [he] at h1
  · have he : x.body.head.pps_pic_parameter_set_id = 0 := he
    rw [hx, hk] at h1; simp [he] at h1

/-- the hypotheses of the theorem are met by this stream -/
example : ∃ ns st, parseBitstream true .empty (exLayers exLayerPps) = .ok (ns, st) ∧ SelfContained exBase exNeeded ns ∧ ns.length = 7 ∧
    (ns.filter fun n => exBase n.nal_unit_header).length = 5 := by
  have h : (match parseBitstream true .empty (exLayers exLayerPps) with
      | .ok (ns, _) => ns.all exCheck && decide (ns.length = 7) && decide ((ns.filter fun n => exBase n.nal_unit_header).length = 5)
      | .error _ => false) = true := by
    decide +kernel
  cases e : parseBitstream true .empty (exLayers exLayerPps) with
  | error k => rw [e] at h; cases h
  | ok y =>
    rw [e] at h
    simp only [Bool.and_eq_true, decide_eq_true_eq] at h
    exact ⟨y.1, y.2, rfl, exCheck_sound h.1.1, h.1.2, h.2⟩

/-- all NAL units of the stream may be sent as packets -/
example : ∀ x ∈ nalUnitsOf (exLayers exLayerPps), x.length < 2 ^ 32 ∧ ∀ h, rawHeader x = some h → h.nal_unit_type ≤ 47 := by
  have h : (nalUnitsOf (exLayers exLayerPps)).all (fun x => decide (x.length < 2 ^ 32) && (match rawHeader x with | some h => decide (h.nal_unit_type ≤ 47) | none => true)) = true := by
    decide +kernel
  intro x hx
  have := List.all_eq_true.mp h x hx
  rw [Bool.and_eq_true] at this
  refine ⟨of_decide_eq_true this.1, fun hd he => ?_⟩
  rw [he] at this
  exact of_decide_eq_true this.2

end H265
