/- C89: no undefined behaviour without long Exp-Golomb codes. -/
import Verif.Spec.ShortCodes
import Verif.Proof.SmallAll
import Verif.Props.Rtp
import Verif.Props.Stream
import Verif.Props.NalLength
import Verif.Props.Loss

set_option autoImplicit false

namespace H265
open Spec Prog

theorem Prog.Small.run {α : Type} {Q : α → Prop} {p : Prog α} (hp : p.Small Lim Q) {bb : BB} (hw : bb.WF) (hc : CodesBelow 27 p bb.rem) :
    match p.run bb with
    | .ok a _ => Q a
    | .fail _ => True
    | .bad k => k ≠ .signedOverflow := by
  have h := Small.denote (n := 27) hp hc
  have hag := run_agrees p bb hw
  revert h hag
  cases p.denote bb.rem <;> cases p.run bb <;> intro h hag <;> first | exact False.elim hag | skip
  · obtain ⟨rfl, _⟩ := hag; exact h
  · trivial
  · cases hag; exact h

/-- the states of short histories -/
structure CalmState (st : ParserState) : Prop where
  reach : Reach st
  near : StateNear st

theorem calm_nal {cs : Bool} {st : ParserState} {data : List UInt8} (hs : CalmState st) (hc : ShortNal 27 st data) (hlen : data.length < 2 ^ 32) :
    match parseNalUnit cs st data with
    | .ok x _ => CalmState x.2
    | .fail _ => True
    | .bad _ => False := by
  obtain ⟨rbsp, hu, _, hle, _⟩ := C11_unescape_bounds data
  have hcodes : CodesBelow 27 (parseNalUnitParts st) (BB.init rbsp).rem := by rw [BB.rem_init]; exact hc rbsp hu
  have h := (parseNalUnitParts_small st hs.near).run (BB.WF.init rbsp) hcodes
  have heq := parseNalUnit_eq cs st data rbsp hu (by omega)
  cases hr : parseNalUnit cs st data with
  | fail b => trivial
  | bad k =>
    have hk := C44_nal_unit_safe hs.reach hlen hr
    rw [heq] at hr
    revert hr h
    cases (parseNalUnitParts st).run (BB.init rbsp) with
    | fail b => intro _ hr; cases hr
    | ok x b => intro _ hr; cases hr
    | bad k' => intro h hr; cases hr; exact h hk
  | ok x b =>
    obtain ⟨n, st'⟩ := x
    refine ⟨hs.reach.step (parseNalUnit_steps hr), ?_⟩
    rw [heq] at hr
    revert hr h
    cases (parseNalUnitParts st).run (BB.init rbsp) with
    | fail b => intro _ hr; cases hr
    | bad k' => intro _ hr; cases hr
    | ok x b =>
      obtain ⟨hd, p, s2⟩ := x
      intro h hr
      simp only [Res.ok.injEq, Prod.mk.injEq] at hr
      obtain ⟨⟨_, rfl⟩, _⟩ := hr
      exact h

/-! ### RTP -/

theorem apHead_quiet : parseApHead.Quiet Lim := by
  unfold parseApHead
  exact Quiet.bind (Quiet.u 16) fun _ => Quiet.bind (fun _ => Quiet.check _) fun _ => Quiet.bind parseNalUnitHeader_quiet fun _ => Quiet.pure _

theorem apLoop_small : ∀ (fuel : Nat) (st : ParserState), StateNear st → (apLoop fuel st).Small Lim (fun x => StateNear x.2)
  | 0, _, _ => by simp [apLoop, Small]
  | fuel + 1, st, hs => by
    intro r
    refine Small.ite (fun _ => hs) fun _ => Quiet.bind' apHead_quiet.attempt.quiet fun o => ?_
    cases o with
    | none => exact hs
    | some x => exact Small.bind' (parseNalUnitPayload_small _ st hs) fun p hp => Small.bind' (apLoop_small fuel _ hp) fun q hq => hq

theorem rtpAp_small (st : ParserState) (hs : StateNear st) : (parseRtpAp st).Small Lim (fun x => StateNear x.2) := by
  unfold parseRtpAp
  refine Quiet.bind' parseNalUnitHeader_quiet.attempt.quiet fun o => ?_
  cases o with
  | none => exact hs
  | some h => exact fun r => Small.bind' (apLoop_small _ st hs) fun x hx => hx

theorem rtpFu_small (st : ParserState) (hs : StateNear st) : (parseRtpFu st).Small Lim (fun x => StateNear x.2) := by
  unfold parseRtpFu
  refine Quiet.bind parseNalUnitHeader_quiet fun _ => Quiet.bind (Quiet.u 1) fun _ => Quiet.bind (Quiet.u 1) fun _ => Quiet.bind (Quiet.u 6) fun _ =>
    Small.ite (fun _ => hs) fun _ => Small.bind (parseNalUnitPayload_small _ st hs) fun p hp => hp

theorem rtpSingle_small (st : ParserState) (hs : StateNear st) : (parseRtpSingle st).Small Lim (fun x => StateNear x.2) := by
  unfold parseRtpSingle
  exact Quiet.bind parseNalUnitHeader_quiet fun _ => Small.bind (parseNalUnitPayload_small _ st hs) fun p hp => hp

theorem calm_rtp {st : ParserState} {data : List UInt8} (hs : CalmState st) (hc : ShortPacket 27 st data) (hlen : data.length < 2 ^ 32) :
    match parseRtp st data with
    | .ok x => CalmState x.2
    | .error _ => False := by
  obtain ⟨rbsp, hu, _, hle, _⟩ := C11_unescape_bounds data
  have key : (∀ x, parseRtp st data = .ok x → StateNear x.2) ∧ ∀ k, parseRtp st data = .error k → k ≠ .signedOverflow := by
    rw [parseRtp_eq hu (by omega)]
    match rbsp, hu with
    | [], _ => obtain ⟨b, hb⟩ := header_run_short [] (by simp); unfold parseRtpBB; rw [hb]; exact ⟨fun x h => by cases h; exact hs.near, fun k h => by cases h⟩
    | [y], _ => obtain ⟨b, hb⟩ := header_run_short [y] (by simp); unfold parseRtpBB; rw [hb]; exact ⟨fun x h => by cases h; exact hs.near, fun k h => by cases h⟩
    | b0 :: b1 :: rest, hu =>
      rw [parseRtpBB_eq]
      obtain ⟨c1, c2, c3⟩ := hc _ _ hu
      rw [← BB.rem_init] at c1 c2 c3
      have hw := BB.WF.init (b0 :: b1 :: rest)
      have h1 := fun h => (rtpSingle_small st hs.near).run hw (c1 h)
      have h2 := fun h => (rtpAp_small st hs.near).run hw (c2 h)
      have h3 := fun h => (rtpFu_small st hs.near).run hw (c3 h)
      split
      · rename_i hc
        have h1 := h1 hc
        revert h1
        cases (parseRtpSingle st).run (BB.init (b0 :: b1 :: rest)) <;> intro h1 <;> unfold rtpOut <;> refine ⟨fun x h => ?_, fun k h => ?_⟩ <;> cases h
        · exact h1
        · exact hs.near
        · exact h1
      split
      · rename_i hc
        have h2 := h2 hc
        revert h2
        cases (parseRtpAp st).run (BB.init (b0 :: b1 :: rest)) <;> intro h2 <;> unfold rtpApOut <;> refine ⟨fun x h => ?_, fun k h => ?_⟩ <;> cases h
        · exact h2
        · exact hs.near
        · exact h2
      split
      · rename_i hc
        have h3 := h3 hc
        revert h3
        cases (parseRtpFu st).run (BB.init (b0 :: b1 :: rest)) <;> intro h3 <;> unfold rtpOut <;> refine ⟨fun x h => ?_, fun k h => ?_⟩ <;> cases h
        · exact h3
        · exact hs.near
        · exact h3
      · exact ⟨fun x h => by cases h; exact hs.near, fun k h => by cases h⟩
  cases hr : parseRtp st data with
  | error k => exact key.2 k hr (C44_rtp_safe hs.reach hlen hr)
  | ok x =>
    obtain ⟨ps, hst⟩ := C37_steps (o := x.1) (st' := x.2) hlen hr
    exact ⟨hs.reach.step hst, key.1 x hr⟩

/-! ### histories -/

theorem _root_.H265.Spec.ShortHistory.calm {st : ParserState} (h : ShortHistory st) : CalmState st := by
  induction h with
  | new => exact ⟨.empty, .empty⟩
  | nalUnit _ hlen hc hr ih => have := calm_nal ih hc hlen (cs := ‹Bool›); rw [hr] at this; exact this
  | packet _ hlen hc hr ih => have := calm_rtp ih hc hlen; rw [hr] at this; exact this

/-- C89: in a state of a short history, a NAL unit in which no Exp-Golomb code with 27 or more leading zeros is read is parsed without undefined behaviour. -/
theorem C89_nal_unit {cs : Bool} {st : ParserState} {data : List UInt8} (hs : ShortHistory st) (hlen : data.length < 2 ^ 32) (hc : ShortNal 27 st data) (k : Bad) :
    parseNalUnit cs st data ≠ .bad k := by
  intro h
  have := calm_nal (cs := cs) hs.calm hc hlen
  rw [h] at this
  exact this

/-- C89: the same for RTP packets -/
theorem C89_rtp {st : ParserState} {data : List UInt8} (hs : ShortHistory st) (hlen : data.length < 2 ^ 32) (hc : ShortPacket 27 st data) :
    ∃ r st', parseRtp st data = .ok (r, st') ∧ ShortHistory st' := by
  have := calm_rtp hs.calm hc hlen
  cases hr : parseRtp st data with
  | error k => rw [hr] at this; exact this.elim
  | ok x => exact ⟨x.1, x.2, rfl, .packet hs hlen hc hr⟩

/-- NAL units one after the other -/
theorem short_units (cs : Bool) : ∀ (l : List (Nat × Nat × List UInt8)) (st : ParserState), ShortHistory st → (∀ x ∈ l, x.2.2.length < 2 ^ 32) →
    ShortUnits 27 cs st (l.map fun x => x.2.2) → ∃ ns st', parseAll cs l st = .ok (ns, st') ∧ ShortHistory st'
  | [], st, hs, _, _ => ⟨[], st, rfl, hs⟩
  | (off, len, nal) :: l, st, hs, hl, hc => by
    have hlen : nal.length < 2 ^ 32 := hl (off, len, nal) (by simp)
    have hl' : ∀ x ∈ l, x.2.2.length < 2 ^ 32 := fun x hx => hl x (by simp [hx])
    rw [List.map_cons] at hc
    obtain ⟨h1, h2⟩ := hc
    dsimp only at h1 h2
    unfold parseAll
    cases hr : parseNalUnit cs st nal with
    | bad k => exact absurd hr (C89_nal_unit hs hlen h1 k)
    | fail b =>
      rw [hr] at h2
      exact short_units cs l st hs hl' h2
    | ok x b =>
      obtain ⟨n, st1⟩ := x
      rw [hr] at h2
      obtain ⟨ns, st', e, hst⟩ := short_units cs l st1 (.nalUnit hs hlen h1 hr) hl' h2
      dsimp only
      rw [e]
      exact ⟨_, st', rfl, hst⟩

/-- C89, byte streams: `FindNaluIndices` gives the places of the units; if no long code is read in them, parsing the stream has no undefined behaviour. -/
theorem C89_bitstream {cs : Bool} {st : ParserState} {data : List UInt8} (hs : ShortHistory st) (hlen : data.length < 2 ^ 32) {l : List NaluIndex}
    (hl : findNaluIndices data = .ok l) (hc : ShortUnits 27 cs st (l.map fun e => (data.drop e.payloadStartOffset).take e.payloadSize)) :
    ∃ ns st', parseBitstream cs st data = .ok (ns, st') ∧ ShortHistory st' := by
  obtain ⟨l', h1, h2, h3⟩ := C25_sequential cs st data (by omega)
  rw [hl] at h1
  cases h1
  rw [h3]
  refine short_units cs _ st hs ?_ ?_
  · intro x hx
    rw [List.mem_map] at hx
    obtain ⟨e, he, rfl⟩ := hx
    have := h2 e he
    simp only [List.length_take, List.length_drop]
    omega
  · rw [List.map_map]; exact hc

/-- C89, streams with length fields -/
theorem C89_length_stream {cs : Bool} {n : Nat} {st : ParserState} {data : List UInt8} (hs : ShortHistory st) (hn0 : 0 < n) (hn : n ≤ 7) (hlen : data.length < 2 ^ 32)
    {l : List (Nat × Nat)} (hl : FramedBy n data 0 l) (hc : ShortUnits 27 cs st (l.map fun x => (data.drop x.1).take x.2)) :
    ∃ ns st', parseBitstreamNaluLength cs n st data = .ok (ns, st') ∧ ShortHistory st' := by
  obtain ⟨l', h1, h2⟩ := C15_length_framing cs n st data hn0 hn (by omega)
  rw [FramedBy.unique hl h1] at hc
  rw [h2]
  refine short_units cs _ st hs ?_ ?_
  · intro x hx
    rw [List.mem_map] at hx
    obtain ⟨e, he, rfl⟩ := hx
    simp only [List.length_take, List.length_drop]
    omega
  · rw [List.map_map]; exact hc

/-! ### a sufficient condition that needs no parser -/

/-- all code numbers of ue(v) codes anywhere in the bits satisfy `B` -/
def CodesIn (B : Nat → Prop) (bits : List Bool) : Prop := ∀ a b v r, bits = a ++ b → ueSplit b = some (v, r) → B v

theorem CodesIn.of_append {B : Nat → Prop} {a b : List Bool} (h : CodesIn B (a ++ b)) : CodesIn B b :=
  fun x y v r e hs => h (a ++ x) y v r (by rw [e, List.append_assoc]) hs

theorem CodesIn.head {B : Nat → Prop} {b r : List Bool} {v : Nat} (h : CodesIn B b) (hs : ueSplit b = some (v, r)) : B v := h [] b v r rfl hs

theorem CodesIn.after {B : Nat → Prop} {b r : List Bool} {v : Nat} (h : CodesIn B b) (hs : ueSplit b = some (v, r)) : CodesIn B r := by
  obtain ⟨e, _⟩ := ueSplit_some hs
  rw [e] at h
  exact h.of_append

theorem CodesIn.drop {B : Nat → Prop} {b : List Bool} (h : CodesIn B b) (n : Nat) : CodesIn B (b.drop n) := by
  have e := (List.take_append_drop n b).symm
  rw [e] at h
  exact h.of_append

/-- a code number that needs 27 leading zeros shows them -/
theorem codes_of_no_run {bits : List Bool} (h : ¬ ZeroRun 27 bits) : CodesIn Lim bits := by
  intro a b v r e hs
  obtain ⟨hb, hv⟩ := ueSplit_some hs
  apply Classical.byContradiction
  intro hn
  have hn : 2 ^ 27 ≤ v + 1 := by unfold Lim at hn; omega
  have hl : 27 ≤ Nat.log2 (v + 1) := (Nat.le_log2 (by omega)).mpr hn
  apply h
  refine ⟨a ++ List.replicate (Nat.log2 (v + 1) - 27) false, true :: Spec.u (Nat.log2 (v + 1)) (v + 1) ++ r, ?_, by simp⟩
  rw [e, hb, ue_eq]
  have hrep : List.replicate (Nat.log2 (v + 1)) false = List.replicate (Nat.log2 (v + 1) - 27) false ++ List.replicate 27 false := by
    rw [List.replicate_append_replicate]
    congr 1
    omega
  conv => lhs; rw [hrep]
  simp only [List.append_assoc, List.cons_append]

theorem CodesIn.below {α : Type} (p : Prog α) : ∀ {r : List Bool}, CodesIn Lim r → CodesBelow 27 p r := by
  induction p with
  | ret a => intro r _; trivial
  | fail => intro r _; trivial
  | bad k => intro r _; trivial
  | read w m k ih =>
    intro r h
    unfold CodesBelow
    split
    · exact ih _ (h.drop m)
    · exact ih _ h
  | ue k ih =>
    intro r h
    unfold CodesBelow
    cases hs : ueSplit r with
    | none => exact ih _ h
    | some x => exact ⟨h.head hs, ih _ (h.after hs)⟩
  | se k ih =>
    intro r h
    unfold CodesBelow
    cases hs : ueSplit r with
    | none => exact ih _ h
    | some x =>
      refine ⟨h.head hs, ?_⟩
      split
      · exact ih _ (h.after hs)
      · trivial
  | peek m k ih =>
    intro r h
    unfold CodesBelow
    split
    · exact ih _ h
    · exact ih _ h
  | remaining k ih => intro r h; exact ih _ h
  | aligned k ih => intro r h; exact ih _ h

/-- C89: NAL units and packets without 27 zero bits in a row before the last one bit need not be looked at. -/
theorem C89_scan {data rbsp : List UInt8} (hu : unescapeRbsp data = .ok rbsp) (h : ¬ ZeroRun 27 (bitsOf rbsp)) (st : ParserState) :
    ShortNal 27 st data ∧ ShortPacket 27 st data := by
  have hc := codes_of_no_run h
  refine ⟨fun r hr => ?_, fun b0 rest hr => ?_⟩
  · rw [hu] at hr; cases hr; exact hc.below _
  · rw [hu] at hr; cases hr; exact ⟨fun _ => hc.below _, fun _ => hc.below _, fun _ => hc.below _⟩

/-! ### examples -/

/-- a program for `CodesBelow` -/
def codesBelow (n : Nat) {α : Type} : Prog α → List Bool → Bool
  | .ret _, _ => true
  | .fail, _ => true
  | .bad _, _ => true
  | .read w m k, r => if m ≤ w ∧ m ≤ r.length then codesBelow n (k (some (val (r.take m)))) (r.drop m) else codesBelow n (k none) r
  | .ue k, r =>
    match ueSplit r with
    | some (v, r') => decide (v < 2 ^ n - 1) && codesBelow n (k (some v)) r'
    | none => codesBelow n (k none) r
  | .se k, r =>
    match ueSplit r with
    | some (c, r') => decide (c < 2 ^ n - 1) &&
      match seOfUe c with
      | some v => codesBelow n (k (some v)) r'
      | none => true
    | none => codesBelow n (k none) r
  | .peek m k, r => if m ≤ 32 ∧ m ≤ r.length then codesBelow n (k (some (val (r.take m)))) r else codesBelow n (k none) r
  | .remaining k, r => codesBelow n (k r.length) r
  | .aligned k, r => codesBelow n (k (r.length % 8 == 0)) r

theorem codesBelow_sound (n : Nat) {α : Type} (p : Prog α) : ∀ {r : List Bool}, codesBelow n p r = true → CodesBelow n p r := by
  induction p with
  | ret a => intro r _; trivial
  | fail => intro r _; trivial
  | bad k => intro r _; trivial
  | read w m k ih =>
    intro r h
    unfold codesBelow at h
    unfold CodesBelow
    split at h <;> rename_i hc
    · rw [if_pos hc]; exact ih _ h
    · rw [if_neg hc]; exact ih _ h
  | ue k ih =>
    intro r h
    unfold codesBelow at h
    unfold CodesBelow
    cases hs : ueSplit r with
    | none => rw [hs] at h; exact ih _ h
    | some x =>
      rw [hs] at h
      simp only [Bool.and_eq_true, decide_eq_true_eq] at h
      exact ⟨h.1, ih _ h.2⟩
  | se k ih =>
    intro r h
    unfold codesBelow at h
    unfold CodesBelow
    cases hs : ueSplit r with
    | none => rw [hs] at h; exact ih _ h
    | some x =>
      rw [hs] at h
      simp only [Bool.and_eq_true, decide_eq_true_eq] at h
      refine ⟨h.1, ?_⟩
      have h2 := h.2
      cases hv : seOfUe x.1 with
      | none => trivial
      | some v => rw [hv] at h2; exact ih _ h2
  | peek m k ih =>
    intro r h
    unfold codesBelow at h
    unfold CodesBelow
    split at h <;> rename_i hc
    · rw [if_pos hc]; exact ih _ h
    · rw [if_neg hc]; exact ih _ h
  | remaining k ih => intro r h; exact ih _ h
  | aligned k ih => intro r h; exact ih _ h

attribute [local irreducible] CodesBelow in
/-- The limit cannot be raised: with codes of 27 leading zeros (nine pictures, each 2^28 - 1 before the one before), deriving the next set overflows. -/
theorem C89_limit :
    CodesBelow 28 (parseStRefPicSets 2 15 2 []) (Spec.stRefPicSet 0 2 ⟨0, 0, 0, 0, [], 9, 0, List.replicate 9 ⟨268435454, 1⟩, []⟩ ++
      [true, false] ++ ue 0 ++ List.replicate 10 true) ∧
    (parseStRefPicSets 2 15 2 []).denote (Spec.stRefPicSet 0 2 ⟨0, 0, 0, 0, [], 9, 0, List.replicate 9 ⟨268435454, 1⟩, []⟩ ++
      [true, false] ++ ue 0 ++ List.replicate 10 true) = .bad .signedOverflow := by
  constructor
  · apply codesBelow_sound
    decide +kernel
  · decide +kernel

/-- a program for `ShortUnits` -/
def shortUnits (n : Nat) (cs : Bool) : ParserState → List (List UInt8) → Bool
  | _, [] => true
  | st, nal :: l =>
    (match unescapeRbsp nal with
     | .ok rbsp => codesBelow n (parseNalUnitParts st) (bitsOf rbsp)
     | .error _ => true) &&
    match parseNalUnit cs st nal with
    | .ok (_, st1) _ => shortUnits n cs st1 l
    | _ => shortUnits n cs st l

theorem shortUnits_sound (n : Nat) (cs : Bool) : ∀ (l : List (List UInt8)) (st : ParserState), shortUnits n cs st l = true → ShortUnits n cs st l
  | [], _, _ => trivial
  | nal :: l, st, h => by
    unfold shortUnits at h
    rw [Bool.and_eq_true] at h
    obtain ⟨h1, h2⟩ := h
    refine ⟨fun rbsp hu => ?_, ?_⟩
    · rw [hu] at h1; exact codesBelow_sound n _ h1
    · revert h2
      cases parseNalUnit cs st nal with
      | ok x b => exact fun h2 => shortUnits_sound n cs l x.2 h2
      | fail b => exact fun h2 => shortUnits_sound n cs l st h2
      | bad k => exact fun h2 => shortUnits_sound n cs l st h2

/-- hypotheses met: real parameter sets, one after the other; the VPS and the SPS contain long runs of zero bits, but no long codes -/
example : ∃ ns st', parseAll true [(0, apVps.length, apVps), (0, apSps.length, apSps), (0, apPps.length, apPps)] .empty = .ok (ns, st') ∧ ShortHistory st' :=
  short_units true _ _ .new (by decide) (shortUnits_sound 27 true _ _ (by decide +kernel))

/-- the VPS cannot be accepted by a scan alone -/
example : ∃ r, unescapeRbsp apVps = .ok r ∧ ZeroRun 27 (bitsOf r) :=
  ⟨_, rfl, (bitsOf [0x40, 0x01, 0x0c, 0x01, 0xff, 0xff, 0x01, 0x60, 0x00, 0x00, 0x00, 0xb0]), List.replicate 13 false ++ bitsOf [0x5d, 0xac, 0x09], by decide +kernel, by decide +kernel⟩

end H265
