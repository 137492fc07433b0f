/- C90: how large a parser state can become. -/
import Verif.Spec.StateSize
import Verif.Props.Size
import Verif.Props.Rewrite

set_option autoImplicit false

namespace H265
open Spec

/-! ### one call -/

/-- what a call that takes `n` bytes may do to the state -/
def StateCall (n : Nat) (st st' : ParserState) : Prop :=
  ∃ ps, Steps st ps st' ∧ (∀ p ∈ ps, size p ≤ 187 + 240 * n) ∧ 2 * ps.length ≤ n

theorem stateCall_nil (n : Nat) (st : ParserState) : StateCall n st st := ⟨[], .nil _, by simp, by simp⟩

theorem stateCall_one {n : Nat} {st st' : ParserState} {t : Nat} {b b' : BB} {p : NalUnitPayload} (hs : Reach st) (hw : b.WF)
    (hr : (parseNalUnitPayload t st).run b = .ok (p, st') b') (hn : b.rem.length + 16 ≤ 8 * n) : StateCall n st st' := by
  have := payload_size (C21_reachable_states hs) hw hr
  refine ⟨[p], .cons hw hr (.nil _), ?_, ?_⟩
  · intro q hq
    obtain rfl := List.mem_singleton.mp hq
    omega
  · simp only [List.length_singleton]; omega

theorem apLoop_stateCall : ∀ (fuel : Nat) (st st' : ParserState) (bb bb' : BB) (o : Option (List RtpApUnit)), Reach st → bb.WF →
    (apLoop fuel st).run bb = .ok (o, st') bb' →
    ∃ ps, Steps st ps st' ∧ (∀ p ∈ ps, size p ≤ 187 + 30 * bb.rem.length) ∧ 32 * ps.length ≤ bb.rem.length
  | 0, st, st', bb, bb', o, hs, hw, h => by cases h
  | fuel + 1, st, st', bb, bb', o, hs, hw, h => by
    simp only [apLoop, Prog.run] at h
    split at h
    · cases h; exact ⟨[], .nil _, by simp, by simp⟩
    · obtain ⟨o1, c1, h1, h⟩ := Prog.bind_ok h
      rw [Prog.run_attempt] at h1
      split at h1
      · rename_i x c hx
        cases h1
        obtain ⟨sz, hd⟩ := x
        obtain ⟨_, _, w1, _, r1, _⟩ := apHead_ok hw hx
        have hl := congrArg List.length r1
        simp only [List.length_append, nalUnitHeader_length, u_length] at hl
        obtain ⟨⟨p, st1⟩, c2, h2, h⟩ := Prog.bind_ok h
        obtain ⟨⟨o2, st2⟩, c3, h3, h⟩ := Prog.bind_ok h
        cases h
        have hf := Prog.run_forward w1 h2
        have hz := payload_size (C21_reachable_states hs) w1 h2
        have hstep : Steps st [p] st1 := .cons w1 h2 (.nil _)
        obtain ⟨ps, k1, k2, k3⟩ := apLoop_stateCall fuel st1 _ c2 _ o2 (hs.step hstep) (run_ok_wf w1 h2).1 h3
        refine ⟨p :: ps, .cons w1 h2 k1, ?_, ?_⟩
        · intro q hq
          rcases List.mem_cons.mp hq with rfl | hq
          · omega
          · have := k2 q hq; omega
        · simp only [List.length_cons]; omega
      · cases h1; cases h; exact ⟨[], .nil _, by simp, by simp⟩
      · cases h1

theorem nalUnit_stateCall {cs : Bool} {st st' : ParserState} {data : List UInt8} {n : NalUnit} {b : BB} (hs : Reach st)
    (h : parseNalUnit cs st data = .ok (n, st') b) : StateCall data.length st st' := by
  obtain ⟨rbsp, hu, ⟨b1, b2, h1, h2, _⟩, _⟩ := parseNalUnit_ok h
  have hle := unesc_le hu
  obtain ⟨_, w1, _, r1⟩ := C19_header_inverts.sound _ _ _ (BB.WF.init _) h1
  have hl := congrArg List.length r1
  rw [BB.rem_init, bitsOf_length, List.length_append, nalUnitHeader_length] at hl
  exact stateCall_one hs w1 h2 (by omega)

theorem packet_stateCall {st st' : ParserState} {data : List UInt8} {o : Option Rtp} (hs : Reach st) (hlen : data.length < 2 ^ 32)
    (h : parseRtp st data = .ok (o, st')) : StateCall data.length st st' := by
  obtain ⟨rbsp, hu, _⟩ := C11_unescape_bounds data
  have hle := unesc_le hu
  rw [parseRtp_eq hu (by omega)] at h
  match rbsp, hu, hle with
  | [], hu, _ => obtain ⟨b, hb⟩ := header_run_short [] (by simp); unfold parseRtpBB at h; rw [hb] at h; cases h; exact stateCall_nil _ _
  | [x], hu, _ => obtain ⟨b, hb⟩ := header_run_short [x] (by simp); unfold parseRtpBB at h; rw [hb] at h; cases h; exact stateCall_nil _ _
  | b0 :: b1 :: rest, hu, hle =>
    rw [parseRtpBB_eq] at h
    have hw := BB.WF.init (b0 :: b1 :: rest)
    have hrem : (BB.init (b0 :: b1 :: rest)).rem.length = 8 * (b0 :: b1 :: rest).length := by rw [BB.rem_init, bitsOf_length]
    split at h
    · unfold rtpOut at h
      split at h
      · rename_i hx
        cases h
        unfold parseRtpSingle at hx
        obtain ⟨o1, c1, h1, hx⟩ := Prog.bind_ok hx
        obtain ⟨⟨p, s1⟩, c2, h2, hx⟩ := Prog.bind_ok hx
        cases hx
        obtain ⟨_, w1, _, r1⟩ := C19_header_inverts.sound _ _ _ hw h1
        have hl := congrArg List.length r1
        rw [List.length_append, nalUnitHeader_length] at hl
        exact stateCall_one hs w1 h2 (by omega)
      · cases h; exact stateCall_nil _ _
      · cases h
    split at h
    · unfold rtpApOut at h
      split at h
      · rename_i hx
        cases h
        unfold parseRtpAp at hx
        obtain ⟨o1, c1, h1, hx⟩ := Prog.bind_ok hx
        rw [Prog.run_attempt] at h1
        split at h1
        · rename_i hy
          cases h1
          simp only [Prog.run] at hx
          obtain ⟨⟨o, s2⟩, c2, h2, hx⟩ := Prog.bind_ok hx
          cases hx
          obtain ⟨_, w1, _, r1⟩ := C19_header_inverts.sound _ _ _ hw hy
          have hl := congrArg List.length r1
          rw [List.length_append, nalUnitHeader_length] at hl
          obtain ⟨ps, k1, k2, k3⟩ := apLoop_stateCall _ _ _ _ _ _ hs w1 h2
          exact ⟨ps, k1, fun p hp => by have := k2 p hp; omega, by omega⟩
        · cases h1; cases hx; exact stateCall_nil _ _
        · cases h1
      · cases h; exact stateCall_nil _ _
      · cases h
    split at h
    · unfold rtpOut at h
      split at h
      · rename_i fu _ _ hx
        cases h
        obtain ⟨r, r1, _, hsb, _, _, h0, h1⟩ := C39_sound hw hx
        have hl := congrArg List.length r1
        simp only [List.length_append, nalUnitHeader_length, u_length] at hl
        rcases (by omega : fu.s_bit = 0 ∨ fu.s_bit = 1) with hb | hb
        · rw [(h0 hb).2.1]; exact stateCall_nil _ _
        · obtain ⟨p, _, b, b', hwb, e1, _, hr⟩ := h1 hb
          exact stateCall_one hs hwb hr (by rw [e1]; omega)
      · cases h; exact stateCall_nil _ _
      · cases h
    · cases h; exact stateCall_nil _ _

/-! ### what is held -/

structure Held (B T : Nat) (st : ParserState) (ids : List Nat) : Prop where
  vps : ∀ i v, st.vps i = some v → size v ≤ B
  sps : ∀ i v, st.sps i = some v → size v ≤ B
  pps : ∀ i v, st.pps i = some v → size v ≤ B
  within : ∀ i, st.pps i ≠ none → i ∈ ids
  few : 2 * ids.length ≤ T

theorem payload_parts (p : NalUnitPayload) :
    size p = size p.vps + size p.sps + size p.pps + size p.aud + size p.slice_segment_layer + size p.sei := rfl

theorem held_mapSet {α : Type} [Size α] {B : Nat} {f f' : Nat → Option α} {o : Option α} {id : α → Nat} (hf : ∀ i v, f i = some v → size v ≤ B)
    (e : f' = o.elim f (fun x => mapSet f (id x) x)) (ho : size o ≤ B + 1) : ∀ i v, f' i = some v → size v ≤ B := by
  intro i v
  subst e
  cases o with
  | none => exact hf i v
  | some x =>
    simp only [mapSet, Option.elim]
    intro h
    split at h
    · cases h; rw [size_some] at ho; omega
    · exact hf i v h

theorem held_steps {B : Nat} {st st' : ParserState} {ps : List NalUnitPayload} (h : Steps st ps st') : ∀ {T : Nat} {ids : List Nat},
    (∀ p ∈ ps, size p ≤ B) → Held B T st ids → ∃ ids', Held B (T + 2 * ps.length) st' ids' := by
  induction h with
  | nil => intro T ids _ h; exact ⟨ids, h⟩
  | @cons a b c t bb bb' p ps hw hr _ ih =>
    intro T ids hB h
    obtain ⟨e1, e2, e3⟩ := payload_effect hr
    have hp := hB p (by simp)
    rw [payload_parts] at hp
    have step : ∃ ids', Held B (T + 2) b ids' := by
      have q1 : ∀ i v, b.vps i = some v → size v ≤ B := held_mapSet (o := p.vps) (id := (·.body.vps_video_parameter_set_id)) h.vps (by rw [e1]; cases p.vps <;> rfl) (by omega)
      have q2 : ∀ i v, b.sps i = some v → size v ≤ B := held_mapSet (o := p.sps) (id := (·.body.sps_seq_parameter_set_id)) h.sps (by rw [e2]; cases p.sps <;> rfl) (by omega)
      have q3 : ∀ i v, b.pps i = some v → size v ≤ B := held_mapSet (o := p.pps) (id := (·.body.head.pps_pic_parameter_set_id)) h.pps (by rw [e3]; cases p.pps <;> rfl) (by omega)
      cases hx : p.pps with
      | none =>
        rw [hx] at e3
        exact ⟨ids, q1, q2, q3, by rw [e3]; exact h.within, by have := h.few; omega⟩
      | some x =>
        rw [hx] at e3
        refine ⟨x.body.head.pps_pic_parameter_set_id :: ids, q1, q2, q3, ?_, by have := h.few; simp only [List.length_cons]; omega⟩
        intro i hi
        rw [e3] at hi
        simp only [mapSet] at hi
        split at hi
        · rename_i he; rw [he]; simp
        · exact List.mem_cons_of_mem _ (h.within i hi)
    obtain ⟨ids1, h1⟩ := step
    obtain ⟨ids2, h2⟩ := ih (fun q hq => hB q (by simp [hq])) h1
    refine ⟨ids2, h2.vps, h2.sps, h2.pps, h2.within, ?_⟩
    have := h2.few
    simp only [List.length_cons]
    omega

theorem Held.mono {B T T' : Nat} {st : ParserState} {ids : List Nat} (h : Held B T st ids) (hT : T ≤ T') : Held B T' st ids :=
  ⟨h.vps, h.sps, h.pps, h.within, Nat.le_trans h.few hT⟩

theorem received_held {L T : Nat} {st : ParserState} (hL : L < 2 ^ 32) (h : Received L T st) :
    Reach st ∧ ∃ ids, Held (187 + 240 * L) T st ids := by
  have call : ∀ {n T : Nat} {a b : ParserState}, n ≤ L → StateCall n a b → (Reach a ∧ ∃ ids, Held (187 + 240 * L) T a ids) →
      (Reach b ∧ ∃ ids, Held (187 + 240 * L) (T + n) b ids) := by
    intro n T a b hn hc h
    obtain ⟨ps, h1, h2, h3⟩ := hc
    obtain ⟨hr, ids, hh⟩ := h
    obtain ⟨ids', h4⟩ := held_steps h1 (fun p hp => by have := h2 p hp; omega) hh
    exact ⟨hr.step h1, ids', h4.mono (by omega)⟩
  induction h with
  | new => exact ⟨Reach.empty, [], ⟨fun _ _ h => (by cases h), fun _ _ h => (by cases h), fun _ _ h => (by cases h), fun _ h => absurd rfl h, by simp⟩⟩
  | nalUnit _ hn hp ih => exact call hn (nalUnit_stateCall ih.1 hp) ih
  | packet _ hn hp ih => exact call hn (packet_stateCall ih.1 (by omega) hp) ih

theorem sum_le_map {f : Nat → Nat} {B : Nat} (hf : ∀ i, f i ≤ B) : ∀ l : List Nat, (l.map f).sum ≤ l.length * B
  | [] => by simp
  | a :: l => by
    have := sum_le_map hf l
    have := hf a
    simp only [List.map_cons, List.sum_cons, List.length_cons, Nat.add_mul]
    omega

theorem size_opt_le {α : Type} [Size α] {B : Nat} {o : Option α} (h : ∀ v, o = some v → size v ≤ B) : size o ≤ B + 1 := by
  cases o with
  | none => rw [size_none]; omega
  | some a => rw [size_some]; have := h a rfl; omega

theorem held_size {B T : Nat} {st : ParserState} {ids ids' : List Nat} (h : Held B T st ids) : stateSize st ids' ≤ (32 + ids'.length) * (B + 1) := by
  have h1 := sum_le_map (fun i => size_opt_le (h.vps i)) (List.range 16)
  have h2 := sum_le_map (fun i => size_opt_le (h.sps i)) (List.range 16)
  have h3 := sum_le_map (fun i => size_opt_le (h.pps i)) ids'
  unfold stateSize
  rw [List.length_range] at h1 h2
  rw [Nat.add_mul]
  omega

theorem reach_ids {st : ParserState} (h : Reach st) {i : Nat} (hi : 16 ≤ i) : st.vps i = none ∧ st.sps i = none := by
  have ok := C21_reachable_states h
  constructor
  · cases hv : st.vps i with
    | none => rfl
    | some v =>
      obtain ⟨⟨bb, bb', hw, hr⟩, e⟩ := ok.vps i v hv
      have := (C28_vps_inverts.sound _ _ _ hw hr).1.vps_video_parameter_set_id
      omega
  · cases hv : st.sps i with
    | none => rfl
    | some v =>
      obtain ⟨⟨bb, bb', hw, hr⟩, e⟩ := ok.sps i v hv
      have := (C27_sps_inverts.sound _ _ _ hw hr).1.sps_seq_parameter_set_id
      omega

/-- C90: after any history of NAL units and packets of at most `L` bytes, `T` bytes in total, the state holds VPSs and SPSs under ids below 16 only, and PPSs under at most
`T / 2` ids, each parameter set with at most `187 + 240 L` values; so all it stores is at most `(32 + T / 2) (188 + 240 L)` values. -/
theorem C90_bounded {L T : Nat} {st : ParserState} (hL : L < 2 ^ 32) (h : Received L T st) :
    ∃ ids, 2 * ids.length ≤ T ∧ StoredWithin st ids ∧ stateSize st ids ≤ (32 + ids.length) * (188 + 240 * L) := by
  obtain ⟨hr, ids, hh⟩ := received_held hL h
  have := held_size (ids' := ids) hh
  exact ⟨ids, hh.few, fun i => ⟨reach_ids hr, hh.within i⟩, by rwa [show 188 + 240 * L = 187 + 240 * L + 1 by omega]⟩

/-- C90: if, as the standard demands, no PPS came with an id above 63, the state stores at most `96 (188 + 240 L)` values, however long the history is. -/
theorem C90_standard {L T : Nat} {st : ParserState} (hL : L < 2 ^ 32) (h : Received L T st) (hids : ∀ i, st.pps i ≠ none → i ≤ 63) :
    StoredWithin st (List.range 64) ∧ stateSize st (List.range 64) ≤ 96 * (188 + 240 * L) := by
  obtain ⟨hr, ids, hh⟩ := received_held hL h
  have := held_size (ids' := List.range 64) hh
  rw [List.length_range] at this
  exact ⟨fun i => ⟨reach_ids hr, fun hi => List.mem_range.mpr (by have := hids i hi; omega)⟩,
    by rwa [show 188 + 240 * L = 187 + 240 * L + 1 by omega]⟩

/-! ### the ids of PPSs are not limited -/

/-- a PPS with any id -/
def ppsOfId (i : Nat) : PpsBody :=
  { (default : PpsBody) with head := { (default : PpsHead) with pps_pic_parameter_set_id := i } }

theorem valid_ppsOfId {i : Nat} (h : i < 2 ^ 32 - 1) : ValidPpsBody (ppsOfId i) := by
  have z : (0 : Nat) < 2 ^ 32 - 1 := by decide
  have zi : -(2 ^ 31) < (0 : Int) ∧ (0 : Int) < 2 ^ 30 := by decide
  refine ⟨?_, ?_, rfl, ?_⟩
  · constructor
    all_goals first
      | exact h
      | exact z
      | exact zi
      | exact Nat.two_pow_pos _
      | exact ⟨fun h => absurd rfl h, fun _ => rfl⟩
      | exact ⟨fun h => absurd rfl h.1, fun _ => rfl⟩
      | exact ⟨⟨fun h => (by cases h), fun h => absurd rfl h⟩, fun x h => by cases h⟩
      | rfl
  · exact ⟨⟨fun h => (by cases h), fun h => absurd rfl h⟩, fun x h => by cases h⟩
  · exact ⟨⟨fun h => (by cases h), fun h => absurd rfl h⟩, fun x h => by cases h⟩

/-- the NAL unit header of a PPS -/
def ppsHeader : NalUnitHeader := ⟨0, 34, 0, 1⟩

/-- a NAL unit with a PPS of that id: a complete one, as an encoder would write it -/
def ppsUnit (i : Nat) : List UInt8 := escape (packBytes (withTrailingBits (Spec.nalUnitHeader ppsHeader ++ Spec.ppsBody (ppsOfId i))))

theorem ppsBody_length {i : Nat} (h : i < 2 ^ 32 - 1) : (Spec.ppsBody (ppsOfId i)).length ≤ 96 := by
  have e : Spec.ppsBody (ppsOfId i) = ue i ++ (Spec.ppsBody (ppsOfId 0)).drop 1 := by
    have e0 : ∀ j, ppsHead (ppsOfId j).head = ue j ++ (ppsHead (ppsOfId 0).head).drop 1 := fun j => rfl
    have e1 : ∀ j, Spec.ppsBody (ppsOfId j) = ppsHead (ppsOfId j).head := fun j => by
      show ppsHead (ppsOfId j).head ++ [] = _
      rw [List.append_nil]
    rw [e1, e1, e0]
  rw [e, List.length_append, ue_length]
  have h1 : Nat.log2 (i + 1) < 32 := by rw [Nat.log2_lt (by omega)]; omega
  have h2 : ((Spec.ppsBody (ppsOfId 0)).drop 1).length ≤ 33 := by decide +kernel
  omega

theorem ppsUnit_length {i : Nat} (h : i < 2 ^ 32 - 1) : (ppsUnit i).length ≤ 24 := by
  have h1 := ppsBody_length h
  have h2 := congrArg List.length (bitsOf_trailing (Spec.nalUnitHeader ppsHeader ++ Spec.ppsBody (ppsOfId i)))
  rw [bitsOf_length] at h2
  unfold withTrailingBits at h2
  simp only [List.length_append, List.length_cons, List.length_replicate, nalUnitHeader_length] at h2
  obtain ⟨out, e, _, _, h3, _⟩ := C11_unescape_bounds (ppsUnit i)
  unfold ppsUnit at e h3 ⊢
  rw [C10_unescape_escape] at e
  cases e
  unfold withTrailingBits at h3 ⊢
  simp only [List.length_append, List.length_cons, List.length_replicate, nalUnitHeader_length] at h3 ⊢
  omega

/-- one more PPS: its id is added, and the others stay -/
theorem ppsUnit_stored (cs : Bool) (st : ParserState) {i : Nat} (h : i < 2 ^ 32 - 1) :
    ∃ n st' b, parseNalUnit cs st (ppsUnit i) = .ok (n, st') b ∧ st'.pps i ≠ none ∧ ∀ j, st.pps j ≠ none → st'.pps j ≠ none := by
  have hh : ValidNalUnitHeader ppsHeader := by constructor <;> decide
  have hl := congrArg List.length (bitsOf_trailing (Spec.nalUnitHeader ppsHeader ++ Spec.ppsBody (ppsOfId i)))
  have h1 := ppsBody_length h
  rw [bitsOf_length] at hl
  obtain ⟨rest, hrest⟩ : ∃ rest, withTrailingBits (Spec.nalUnitHeader ppsHeader ++ Spec.ppsBody (ppsOfId i)) =
      Spec.nalUnitHeader ppsHeader ++ (Spec.ppsBody (ppsOfId i) ++ rest) := ⟨_, by unfold withTrailingBits; rw [List.append_assoc]⟩
  have hlen : (packBytes (withTrailingBits (Spec.nalUnitHeader ppsHeader ++ Spec.ppsBody (ppsOfId i)))).length < 2 ^ 32 := by
    unfold withTrailingBits at hl ⊢
    simp only [List.length_append, List.length_cons, List.length_replicate, nalUnitHeader_length] at hl
    simp only [List.length_append, List.length_cons, List.length_replicate, nalUnitHeader_length]
    omega
  obtain ⟨n, st', b, v, e1, _, _, _, e2⟩ := C21_store_pps cs st _ ppsHeader (ppsOfId i) rest hh rfl (valid_ppsOfId h)
    ((bitsOf_trailing _).trans hrest) hlen
  refine ⟨n, st', b, e1, ?_, ?_⟩
  · intro hn
    have : st'.pps i = some v := e2
    rw [this] at hn; cases hn
  · intro j hj
    obtain ⟨_, _, h3⟩ := C21_nal_unit e1 j
    rw [h3]
    cases latest (fun x : NalUnit => x.nal_unit_payload.pps) (fun x => x.body.head.pps_pic_parameter_set_id) j [n] with
    | none => exact hj
    | some w => simp

/-- C90: the code sets no limit to the id of a PPS (the standard: 63).  NAL units of at most 24 bytes can put any number of PPSs, up to 2^32 - 1, into the state. -/
theorem C90_unbounded : ∀ k, k ≤ 2 ^ 32 - 1 → ∃ T st, Received 24 T st ∧ T ≤ 24 * k ∧ ∀ i, i < k → st.pps i ≠ none
  | 0, _ => ⟨0, .empty, .new, by omega, fun i hi => by omega⟩
  | k + 1, hk => by
    obtain ⟨T, st, h1, h2, h3⟩ := C90_unbounded k (by omega)
    obtain ⟨n, st', b, e1, e2, e3⟩ := ppsUnit_stored false st (i := k) (by omega)
    have hl := ppsUnit_length (i := k) (by omega)
    refine ⟨_, st', .nalUnit h1 hl e1, by omega, ?_⟩
    intro i hi
    by_cases he : i = k
    · rw [he]; exact e2
    · exact e3 i (h3 i (by omega))

/-! ### hypotheses met -/

/-- the aggregation packet of the unit test, with a VPS, an SPS and a PPS, has 80 bytes -/
def apPacket : List UInt8 := [0x60, 0x01] ++ lengthPrefixed 2 [apVps, apSps, apPps]

example : Received 80 80 (rtpState .empty apPacket) := by
  have h : parseRtp .empty apPacket = .ok (rtpIn .empty apPacket, rtpState .empty apPacket) := by
    unfold rtpIn rtpState
    cases h : parseRtp .empty apPacket with
    | ok x => rfl
    | error k =>
      have : (parseRtp .empty apPacket).toOption.isSome = true := by decide +kernel
      rw [h] at this; cases this
  exact Received.packet (L := 80) (T := 0) .new (by decide) h

/-- 391 values; the bound is 33 * (188 + 240 * 80) -/
example : stateSize (rtpState .empty apPacket) [0] = 391 ∧ (∀ i < 64, (rtpState .empty apPacket).pps i ≠ none → i = 0) := by decide +kernel


/-- the PPS with the largest id is a NAL unit of 15 bytes -/
example : (ppsUnit (2 ^ 32 - 2)).length = 15 := by decide +kernel

end H265
