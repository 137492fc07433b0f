/- C98: streams joined one behind the other. -/
import Verif.Spec.Playlist
import Verif.Props.History
import Verif.Props.StdExample
import Verif.Props.Remux

set_option autoImplicit false

namespace H265
open Spec H265.Std

theorem playlist_map (m : Nat) : ∀ (k : Nat) (l : List Clip), (playlist k l).map (fun n => { n with offset := m + n.offset }) = playlist (m + k) l
  | _, [] => rfl
  | k, c :: l => by
    simp only [playlist, List.map_append, List.map_map, playlist_map m (k + c.data.length) l, Nat.add_assoc]
    congr 1

theorem Spec.Clip.Ok.beginsUnit {cs : Bool} {c : Clip} (h : c.Ok cs) (rest : List UInt8) : BeginsUnit (c.data ++ rest) ∧ (c.data ++ rest)[2]? = some 0 := by
  obtain ⟨h1, h2⟩ := h.begins
  have e : c.data = [0, 0, 0, 1] ++ c.data.drop 4 := by rw [← h1, List.take_append_drop]
  have hl : 0 < (c.data.drop 4).length := by rw [List.length_drop]; omega
  rw [e]
  exact ⟨⟨1, ⟨rfl, rfl, rfl, by simp only [List.length_append, List.length_cons, List.length_nil]; omega⟩, rfl⟩, rfl⟩

/-- **C98**, byte streams. -/
theorem C98_byte_streams {cs : Bool} : ∀ (l : List Clip) (st : ParserState), (∀ c ∈ l, c.Ok cs) → (l.flatMap (·.data)).length < 2 ^ 64 →
    parseBitstream cs st (l.flatMap (·.data)) = .ok (playlist 0 l, playlistState st l)
  | [], st, _, _ => by
    rw [List.flatMap_nil, parseBitstream_eq cs st _ (by decide)]
    rfl
  | [c], st, h, hl => by
    have hc := h c (.head _)
    have e : ([c].flatMap (·.data)) = c.data := by simp
    rw [e] at hl ⊢
    rw [C60_self_contained hl hc.parsed hc.headers st]
    simp [playlist, playlistState]
  | c :: d :: l, st, h, hl => by
    have hc := h c (.head _)
    have hd := h d (.tail _ (.head _))
    rw [List.flatMap_cons] at hl ⊢
    have hb : BeginsUnit ((d :: l).flatMap (·.data)) ∧ ((d :: l).flatMap (·.data))[2]? = some 0 := by
      rw [List.flatMap_cons]; exact hd.beginsUnit _
    have hl' := hl
    rw [List.length_append] at hl'
    rw [C25_cut cs st _ _ hb.1 (.inr hb.2) hc.ends hl, C60_self_contained (by omega) hc.parsed hc.headers st]
    dsimp only [Except.bind]
    rw [C98_byte_streams (d :: l) _ (fun x hx => h x (.tail _ hx)) (by omega)]
    dsimp only [Except.bind]
    rw [playlist_map]
    simp [playlist, playlistState]

theorem lengthPrefixed_flatten (n : Nat) (l : List (List (List UInt8) × Clip)) :
    lengthPrefixed n (l.flatMap (·.1)) = l.flatMap fun x => lengthPrefixed n x.1 := by
  induction l with
  | nil => rfl
  | cons x l ih =>
    simp only [List.flatMap_cons, ← ih]
    simp [lengthPrefixed]

theorem playlist_places {cs : Bool} {n : Nat} (hn0 : 0 < n) (hn : n ≤ 7) : ∀ (l : List (List (List UInt8) × Clip)) (st : ParserState),
    (∀ x ∈ l, x.2.LengthOk cs n x.1) → (l.flatMap (·.2.data)).length < 2 ^ 63 →
    parseAll cs (l.flatMap fun x => lengthPlaces n 0 x.1) st = .ok (l.flatMap (·.2.units), playlistState st (l.map (·.2)))
  | [], st, _, _ => rfl
  | x :: l, st, h, hl => by
    have hx := h x (.head _)
    rw [List.flatMap_cons, List.length_append] at hl
    have h1 := C60_self_contained_length hn0 hn (by omega) hx.parsed hx.headers st
    rw [hx.data, lengthStream_eq cs n st x.1 hn0 hn hx.sizes (by rw [← hx.data]; omega)] at h1
    rw [List.flatMap_cons, parseAll_append, h1]
    dsimp only [Except.bind]
    rw [playlist_places hn0 hn l _ (fun y hy => h y (.tail _ hy)) (by omega)]
    simp [playlistState]

/-- **C98**, streams with length fields (offsets left aside). -/
theorem C98_length_fields {cs : Bool} {n : Nat} (hn0 : 0 < n) (hn : n ≤ 7) (l : List (List (List UInt8) × Clip)) (st : ParserState)
    (h : ∀ x ∈ l, x.2.LengthOk cs n x.1) (hl : (l.flatMap (·.2.data)).length < 2 ^ 63) :
    ∃ ns, parseBitstreamNaluLength cs n st (l.flatMap (·.2.data)) = .ok (ns, playlistState st (l.map (·.2))) ∧
      ns.map contents = (l.flatMap (·.2.units)).map contents := by
  have e : l.flatMap (·.2.data) = lengthPrefixed n (l.flatMap (·.1)) := by
    rw [lengthPrefixed_flatten]
    clear hl
    induction l with
    | nil => rfl
    | cons x l ih =>
      rw [List.flatMap_cons, List.flatMap_cons, ih (fun y hy => h y (.tail _ hy)), (h x (.head _)).data]
  have h1 := playlist_places hn0 hn l st h hl
  have hn2 : (l.flatMap fun x => lengthPlaces n 0 x.1).map (·.2.2) = (lengthPlaces n 0 (l.flatMap (·.1))).map (·.2.2) := by
    rw [lengthPlaces_nals, List.map_flatMap]
    simp only [lengthPlaces_nals]
  obtain ⟨ns, g1, g2⟩ := parseAll_same hn2 h1
  rw [e] at hl ⊢
  refine ⟨ns, ?_, g2⟩
  rw [lengthStream_eq cs n st _ hn0 hn (fun y hy => ?_) hl]
  · exact g1
  · obtain ⟨x, hx, hy⟩ := List.mem_flatMap.mp hy
    exact (h x hx).sizes y hy

theorem rtpSession_append : ∀ (a b : List (List UInt8)) (st : ParserState),
    rtpSession (a ++ b) st = (rtpSession a st).bind fun x => (rtpSession b x.2).map fun y => (x.1 ++ y.1, y.2)
  | [], b, st => by
    show _ = (rtpSession b st).map fun y => ([] ++ y.1, y.2)
    cases h : rtpSession b st <;> simp [h, Except.map]
  | p :: a, b, st => by
    rw [List.cons_append, rtpSession, rtpSession]
    cases parseRtp st p with
    | error e => rfl
    | ok x =>
      obtain ⟨r, st1⟩ := x
      dsimp only
      rw [rtpSession_append a b]
      cases rtpSession a st1 with
      | error e => cases r <;> rfl
      | ok y => cases r <;> (dsimp only [Except.bind, Except.map]; cases rtpSession b y.2 <;> rfl)

/-- **C98**, RTP: the NAL units of each stream are sent as packets, one stream after the other in a session. -/
theorem C98_packets : ∀ (l : List Clip) (st : ParserState), (∀ c ∈ l, c.data.length < 2 ^ 64 ∧ parseBitstream false .empty c.data = .ok (c.units, c.sets) ∧ AllHeaders c.units ∧
      ∀ x ∈ nalUnitsOf c.data, x.length < 2 ^ 32 ∧ ∀ h, rawHeader x = some h → h.nal_unit_type ≤ 47) →
    rtpSession (l.flatMap fun c => nalUnitsOf c.data) st = .ok ((l.flatMap (·.units)).map asSingle, playlistState st l)
  | [], st, _ => rfl
  | c :: l, st, h => by
    obtain ⟨h1, h2, h3, h4⟩ := h c (.head _)
    have h5 := C91_packets st c.data h1 h4
    rw [C60_self_contained h1 h2 h3 st] at h5
    rw [List.flatMap_cons, rtpSession_append, h5]
    dsimp only [Except.map, Except.bind]
    rw [C98_packets l _ (fun x hx => h x (.tail _ hx))]
    simp [playlistState]

/-! ### a concrete case: two clips with the same ids and different PPSs, played a, b, a -/

def exClipBytes (b : Bool) : List UInt8 :=
  annexB ((exBytes.take 2 ++ [if b then [0x44, 0x01, 0xd0, 0xf3, 0xc0, 0x02, 0x10] else exBytes.getD 2 []] ++ exBytes.drop 3).map fun x => (true, escape x))

def exClip (b : Bool) : Clip :=
  match parseBitstream true .empty (exClipBytes b) with
  | .ok (ns, st) => ⟨exClipBytes b, ns, st⟩
  | .error _ => ⟨[], [], .empty⟩

def exClipDeltas (ns : List NalUnit) : List (Option Int) := ns.map fun n => n.nal_unit_payload.slice_segment_layer.map (·.body.slice_qp_delta)

theorem exClip_ok (b : Bool) : (exClip b).Ok true := by
  have h : (match parseBitstream true .empty (exClipBytes b) with
      | .ok (ns, _) => ns.all fun n => !isSliceSegment n.nal_unit_header.nal_unit_type || n.nal_unit_payload.slice_segment_layer.isSome
      | .error _ => false) = true := by
    cases b <;> decide +kernel
  have h2 : (exClipBytes b).take 4 = [0, 0, 0, 1] ∧ 4 < (exClipBytes b).length ∧ ¬ [0, 0, 1] <:+ exClipBytes b := by
    cases b <;> decide +kernel
  unfold exClip
  cases e : parseBitstream true .empty (exClipBytes b) with
  | error k => rw [e] at h; cases h
  | ok y =>
    rw [e] at h
    refine ⟨⟨h2.1, h2.2.1⟩, h2.2.2, e, fun n hn hs => ?_⟩
    have := List.all_eq_true.mp h n hn
    rw [hs] at this
    intro c
    rw [c] at this
    cases this

theorem play_again {cs : Bool} {a b : Clip} (ha : a.Ok cs) (hb : b.Ok cs) (hl : (a.data ++ (b.data ++ a.data)).length < 2 ^ 64) (st : ParserState) :
    parseBitstream cs st (a.data ++ (b.data ++ a.data)) = .ok (playlist 0 [a, b, a], playlistState st [a, b, a]) := by
  have := C98_byte_streams [a, b, a] st (fun c hc => by
    simp only [List.mem_cons, List.not_mem_nil, or_false] at hc
    rcases hc with h | h | h <;> (rw [h]; assumption)) (by simpa using hl)
  simpa using this

/-- played a, b, a: by the theorem, and evaluated (the slices of a and b have the same bytes, and are reported with other values, as their PPSs differ) -/
example : parseBitstream true .empty (exClipBytes false ++ (exClipBytes true ++ exClipBytes false)) =
    .ok (playlist 0 [exClip false, exClip true, exClip false], playlistState .empty [exClip false, exClip true, exClip false]) := by
  have hd : ∀ b, (exClip b).data = exClipBytes b := by intro b; cases b <;> decide +kernel
  have hl : (exClipBytes false ++ (exClipBytes true ++ exClipBytes false)).length < 2 ^ 64 := by decide +kernel
  have h := @play_again true _ _ (exClip_ok false) (exClip_ok true)
  rw [hd, hd] at h
  exact h hl .empty

example : exClipDeltas (playlist 0 [exClip false, exClip true, exClip false]) =
    [none, none, none, some 9, some (-3), none, none, none, some (-4), some 0, none, none, none, some 9, some (-3)] := by
  decide +kernel

/-- the same NAL units behind length fields of two bytes meet the conditions of the second theorem -/
def exClipNals (b : Bool) : List (List UInt8) := (exBytes.take 2 ++ [if b then [0x44, 0x01, 0xd0, 0xf3, 0xc0, 0x02, 0x10] else exBytes.getD 2 []] ++ exBytes.drop 3).map escape

example (b : Bool) : ∃ c : Clip, c.LengthOk true 2 (exClipNals b) ∧ c.units.length = 5 := by
  have h : (match parseBitstreamNaluLength true 2 .empty (lengthPrefixed 2 (exClipNals b)) with
      | .ok (ns, _) => decide (ns.length = 5) && ns.all fun n => !isSliceSegment n.nal_unit_header.nal_unit_type || n.nal_unit_payload.slice_segment_layer.isSome
      | .error _ => false) = true := by
    cases b <;> decide +kernel
  have h2 : ∀ x ∈ exClipNals b, x ≠ [] ∧ x.length < 256 ^ 2 := by cases b <;> decide +kernel
  cases e : parseBitstreamNaluLength true 2 .empty (lengthPrefixed 2 (exClipNals b)) with
  | error k => rw [e] at h; cases h
  | ok y =>
    rw [e] at h
    simp only [Bool.and_eq_true, decide_eq_true_eq] at h
    refine ⟨⟨_, y.1, y.2⟩, ⟨rfl, h2, e, fun n hn hs => ?_⟩, h.1⟩
    have := List.all_eq_true.mp h.2 n hn
    rw [hs] at this
    intro c
    rw [c] at this
    cases this

/-- the hypotheses of `C98_packets` are met -/
example (b : Bool) : ∃ c : Clip, c.data = exClipBytes b ∧ c.units.length = 5 ∧ c.data.length < 2 ^ 64 ∧ parseBitstream false .empty c.data = .ok (c.units, c.sets) ∧
    AllHeaders c.units ∧ ∀ x ∈ nalUnitsOf c.data, x.length < 2 ^ 32 ∧ ∀ h, rawHeader x = some h → h.nal_unit_type ≤ 47 := by
  have h : (match parseBitstream false .empty (exClipBytes b) with
      | .ok (ns, _) => decide (ns.length = 5) && ns.all fun n => !isSliceSegment n.nal_unit_header.nal_unit_type || n.nal_unit_payload.slice_segment_layer.isSome
      | .error _ => false) = true := by
    cases b <;> decide +kernel
  have h2 : (exClipBytes b).length < 2 ^ 64 := by cases b <;> decide +kernel
  have h3 : (nalUnitsOf (exClipBytes b)).all (fun x => decide (x.length < 2 ^ 32) && (match rawHeader x with | some h => decide (h.nal_unit_type ≤ 47) | none => true)) = true := by
    cases b <;> decide +kernel
  cases e : parseBitstream false .empty (exClipBytes b) with
  | error k => rw [e] at h; cases h
  | ok y =>
    rw [e] at h
    simp only [Bool.and_eq_true, decide_eq_true_eq] at h
    refine ⟨⟨_, y.1, y.2⟩, rfl, h.1, h2, e, fun n hn hs => ?_, fun x hx => ?_⟩
    · have := List.all_eq_true.mp h.2 n hn
      rw [hs] at this
      intro c
      rw [c] at this
      cases this
    · have := List.all_eq_true.mp h3 x hx
      rw [Bool.and_eq_true] at this
      refine ⟨of_decide_eq_true this.1, fun hd he => ?_⟩
      rw [he] at this
      exact of_decide_eq_true this.2

end H265
