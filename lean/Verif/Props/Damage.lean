/- C93: damage stays with those that use it. -/
import Verif.Spec.Damage
import Verif.Props.Order
import Verif.Props.Sharing

set_option autoImplicit false

namespace H265
open Spec Std

theorem mapSet_id {α : Type} (m : Nat → Option α) (i : Nat) (x : α) : mapSet m i x i = some x := if_pos rfl
theorem mapSet_ne {α : Type} (m : Nat → Option α) {i k : Nat} (x : α) (h : k ≠ i) : mapSet m i x k = m k := if_neg h

/-- a parameter set, if there is one, stored under its id -/
def install {α : Type} (id : α → Nat) (m : Nat → Option α) : Option α → Nat → Option α
  | some x => mapSet m (id x) x
  | none => m

theorem effect_vps (a : ParserState) (p : NalUnitPayload) : (effect a p).vps = install (fun x : Vps => x.body.vps_video_parameter_set_id) a.vps p.vps := by
  unfold effect install; cases p.vps <;> rfl
theorem effect_sps (a : ParserState) (p : NalUnitPayload) : (effect a p).sps = install (fun x : Sps => x.body.sps_seq_parameter_set_id) a.sps p.sps := by
  unfold effect install; cases p.sps <;> rfl
theorem effect_pps (a : ParserState) (p : NalUnitPayload) : (effect a p).pps = install (fun x : Pps => x.body.head.pps_pic_parameter_set_id) a.pps p.pps := by
  unfold effect install; cases p.pps <;> rfl

theorem install_other {α : Type} (id : α → Nat) {T : Nat → Prop} (m : Nat → Option α) {o : Option α} (h : ∀ x, o = some x → T (id x)) {i : Nat} (hi : ¬ T i) :
    install id m o i = m i := by
  cases o with
  | none => rfl
  | some x => exact mapSet_ne _ _ (fun e => hi (e ▸ h x rfl))

theorem install_same {α : Type} (id : α → Nat) (T : Nat → Prop) {m m' : Nat → Option α} {o o' : Option α} (hm : ∀ i, ¬ T i → m i = m' i)
    (ho : o = o' ∨ ((∀ x, o = some x → T (id x)) ∧ ∀ x, o' = some x → T (id x))) (i : Nat) (hi : ¬ T i) : install id m o i = install id m' o' i := by
  rcases ho with rfl | ⟨h1, h2⟩
  · cases o with
    | none => exact hm i hi
    | some x =>
      by_cases hx : i = id x
      · subst hx; exact (mapSet_id _ _ _).trans (mapSet_id _ _ _).symm
      · exact (mapSet_ne _ _ hx).trans ((hm i hi).trans (mapSet_ne _ _ hx).symm)
  · rw [install_other id m h1 hi, install_other id m' h2 hi]; exact hm i hi

/-- the parameter sets of both payloads are the same, or they have touched ids -/
theorem Spec.SameOutside.step {t : Touched} {a b : ParserState} (h : SameOutside t a b) {p q : NalUnitPayload}
    (hv : p.vps = q.vps ∨ ((∀ x, p.vps = some x → t.vps x.body.vps_video_parameter_set_id) ∧ ∀ x, q.vps = some x → t.vps x.body.vps_video_parameter_set_id))
    (hs : p.sps = q.sps ∨ ((∀ x, p.sps = some x → t.sps x.body.sps_seq_parameter_set_id) ∧ ∀ x, q.sps = some x → t.sps x.body.sps_seq_parameter_set_id))
    (hp : p.pps = q.pps ∨ ((∀ x, p.pps = some x → t.pps x.body.head.pps_pic_parameter_set_id) ∧ ∀ x, q.pps = some x → t.pps x.body.head.pps_pic_parameter_set_id))
    (hc : ∀ x, p.pps = some x → t.sps x.body.head.pps_seq_parameter_set_id → t.pps x.body.head.pps_pic_parameter_set_id) :
    SameOutside t (effect a p) (effect b q) := by
  refine ⟨fun i hi => ?_, fun i hi => ?_, fun i hi => ?_, ?_⟩
  · rw [effect_vps, effect_vps]; exact install_same (fun x : Vps => x.body.vps_video_parameter_set_id) t.vps h.vps hv i hi
  · rw [effect_sps, effect_sps]; exact install_same (fun x : Sps => x.body.sps_seq_parameter_set_id) t.sps h.sps hs i hi
  · rw [effect_pps, effect_pps]; exact install_same (fun x : Pps => x.body.head.pps_pic_parameter_set_id) t.pps h.pps hp i hi
  intro i P hi hP
  rw [effect_pps] at hP
  cases ho : p.pps with
  | none => rw [ho] at hP; exact h.closed i P hi hP
  | some x =>
    rw [ho] at hP
    simp only [install] at hP
    by_cases hx : i = x.body.head.pps_pic_parameter_set_id
    · subst hx
      rw [mapSet_id] at hP
      cases hP
      exact fun hs => hi (hc _ ho hs)
    · rw [mapSet_ne _ _ hx] at hP
      exact h.closed i P hi hP

theorem Spec.SameOutside.symm {t : Touched} {a b : ParserState} (h : SameOutside t a b) : SameOutside t b a :=
  ⟨fun i hi => (h.vps i hi).symm, fun i hi => (h.sps i hi).symm, fun i hi => (h.pps i hi).symm, fun i P hi hP => h.closed i P hi ((h.pps i hi).trans hP)⟩

/-- a slice with its header that names an untouched PPS -/
theorem same_slice {cs : Bool} {t : Touched} {a b a' : ParserState} (hab : SameOutside t a b) {x : List UInt8} {n : NalUnit} {e : BB}
    (h : parseNalUnit cs a x = .ok (n, a') e) (hs : isSliceSegment n.nal_unit_header.nal_unit_type = true) {hd : SliceSegmentHeader}
    (hh : n.nal_unit_payload.slice_segment_layer = some hd) (ht : ¬ t.pps hd.head.slice_pic_parameter_set_id) :
    parseNalUnit cs b x = .ok (n, effect b n.nal_unit_payload) e := by
  obtain ⟨P, S, h1, h2⟩ := nal_used (b := b) h hs hh
  refine h2 ?_
  obtain ⟨g1, g2⟩ := h1
  exact ⟨(hab.pps _ ht).symm.trans g1, (hab.sps _ (hab.closed _ _ ht g1)).symm.trans g2⟩

theorem slice_no_sets {cs : Bool} {a a' : ParserState} {x : List UInt8} {n : NalUnit} {e : BB} (h : parseNalUnit cs a x = .ok (n, a') e)
    (hs : isSliceSegment n.nal_unit_header.nal_unit_type = true) : n.nal_unit_payload.vps = none ∧ n.nal_unit_payload.sps = none ∧ n.nal_unit_payload.pps = none := by
  obtain ⟨rbsp, hu, hp⟩ := parseNalUnit_ok h
  obtain ⟨b1, _, _, h2, _⟩ := hp.parts
  obtain ⟨d1, d2, d3, _⟩ := C21_payload h2
  have hns : n.nal_unit_header.nal_unit_type ≠ 32 ∧ n.nal_unit_header.nal_unit_type ≠ 33 ∧ n.nal_unit_header.nal_unit_type ≠ 34 := by
    have := (sliceType_iff _).mpr hs
    unfold sliceType at this
    omega
  refine ⟨?_, ?_, ?_⟩
  · cases h : n.nal_unit_payload.vps with
    | none => rfl
    | some x => exact absurd (d1 x h).1 hns.1
  · cases h : n.nal_unit_payload.sps with
    | none => rfl
    | some x => exact absurd (d2 x h).1 hns.2.1
  · cases h : n.nal_unit_payload.pps with
    | none => rfl
    | some x => exact absurd (d3 x h).1 hns.2.2

/-- the payload of a result, an empty one for null -/
def payloadOf : Option NalUnit → NalUnitPayload
  | some n => n.nal_unit_payload
  | none => {}

/-- what the parser gives for one NAL unit -/
inductive Gives (cs : Bool) (a : ParserState) (x : List UInt8) : Option NalUnit → Prop
  | null {e : BB} : parseNalUnit cs a x = .fail e → Gives cs a x none
  | unit {n : NalUnit} {a' : ParserState} {e : BB} : parseNalUnit cs a x = .ok (n, a') e → Gives cs a x (some n)

theorem results_cons {cs : Bool} {x : List UInt8} {rest : List (List UInt8)} {a a' : ParserState} {rs : List (Option NalUnit)}
    (h : nalResults cs (x :: rest) a = .ok (rs, a')) :
    ∃ o os, rs = o :: os ∧ Gives cs a x o ∧ nalResults cs rest (effect a (payloadOf o)) = .ok (os, a') := by
  simp only [nalResults] at h
  cases hp : parseNalUnit cs a x with
  | bad k => rw [hp] at h; cases h
  | fail e =>
    rw [hp] at h
    dsimp only at h
    cases hr : nalResults cs rest a with
    | error k => rw [hr] at h; cases h
    | ok y => rw [hr] at h; cases h; exact ⟨none, y.1, rfl, .null hp, hr⟩
  | ok y e =>
    obtain ⟨n, a1⟩ := y
    rw [hp] at h
    dsimp only at h
    cases hr : nalResults cs rest a1 with
    | error k => rw [hr] at h; cases h
    | ok y =>
      rw [hr] at h; cases h
      exact ⟨some n, y.1, rfl, .unit hp, by rw [nal_effect hp] at hr; exact hr⟩

/-- no parameter set in the payload -/
def NoSets (p : NalUnitPayload) : Prop := p.vps = none ∧ p.sps = none ∧ p.pps = none

/-- the same bytes in both states: the same result, or a slice of a touched PPS in both -/
theorem same_bytes {cs : Bool} {t : Touched} {a b : ParserState} (hab : SameOutside t a b) {x : List UInt8} {o o' : Option NalUnit}
    (h : Gives cs a x o) (h' : Gives cs b x o') :
    o = o' ∨ ((SliceOfTouched t o ∧ SliceOfTouched t o') ∧ NoSets (payloadOf o) ∧ NoSets (payloadOf o')) := by
  cases h with
  | @null e h =>
    cases h' with
    | null _ => exact .inl rfl
    | unit h' =>
      obtain ⟨e', h2⟩ := (C22_dropped_iff (cs := cs) (st := b) (unescapeRbsp_eq x)).mpr ((C22_dropped_iff (cs := cs) (st := a) (unescapeRbsp_eq x)).mp ⟨e, h⟩)
      rw [h'] at h2; cases h2
  | @unit n a' e h =>
    cases h' with
    | @null e' h' =>
      obtain ⟨e2, h2⟩ := (C22_dropped_iff (cs := cs) (st := a) (unescapeRbsp_eq x)).mpr ((C22_dropped_iff (cs := cs) (st := b) (unescapeRbsp_eq x)).mp ⟨e', h'⟩)
      rw [h] at h2; cases h2
    | @unit n' b' e' h' =>
      cases hs : isSliceSegment n.nal_unit_header.nal_unit_type with
      | false =>
        have := nal_any_state (b := b) h hs
        rw [h'] at this
        cases this
        exact .inl rfl
      | true =>
        cases hs' : isSliceSegment n'.nal_unit_header.nal_unit_type with
        | false =>
          have := nal_any_state (b := a) h' hs'
          rw [h] at this
          cases this
          exact .inl rfl
        | true =>
          by_cases c1 : ∀ hd, n.nal_unit_payload.slice_segment_layer = some hd → t.pps hd.head.slice_pic_parameter_set_id
          · by_cases c2 : ∀ hd, n'.nal_unit_payload.slice_segment_layer = some hd → t.pps hd.head.slice_pic_parameter_set_id
            · exact .inr ⟨⟨⟨n, rfl, hs, c1⟩, ⟨n', rfl, hs', c2⟩⟩, slice_no_sets h hs, slice_no_sets h' hs'⟩
            · have ⟨hd, c⟩ := Classical.not_forall.mp c2
              have ⟨c3, c4⟩ := Classical.not_imp.mp c
              have := same_slice hab.symm h' hs' c3 c4
              rw [h] at this
              cases this
              exact .inl rfl
          · have ⟨hd, c⟩ := Classical.not_forall.mp c1
            have ⟨c3, c4⟩ := Classical.not_imp.mp c
            have := same_slice hab h hs c3 c4
            rw [h'] at this
            cases this
            exact .inl rfl

theorem _root_.H265.Spec.Touched.Covers.sets {t : Touched} {o : Option NalUnit} (h : t.Covers o) :
    (∀ x, (payloadOf o).vps = some x → t.vps x.body.vps_video_parameter_set_id) ∧
    (∀ x, (payloadOf o).sps = some x → t.sps x.body.sps_seq_parameter_set_id) ∧
    (∀ x, (payloadOf o).pps = some x → t.pps x.body.head.pps_pic_parameter_set_id) := by
  cases o with
  | none => exact ⟨fun _ h => (by cases h), fun _ h => (by cases h), fun _ h => (by cases h)⟩
  | some n => exact ⟨fun x => h.vps n x rfl, fun x => h.sps n x rfl, fun x => h.pps n x rfl⟩

theorem _root_.H265.Spec.Touched.Closed.sets {t : Touched} {o : Option NalUnit} (h : t.Closed o) (x : Pps) (hx : (payloadOf o).pps = some x) :
    t.sps x.body.head.pps_seq_parameter_set_id → t.pps x.body.head.pps_pic_parameter_set_id := by
  cases o with
  | none => cases hx
  | some n => exact h n x rfl hx

/-- **C93.** -/
theorem C93_damage {cs : Bool} {t : Touched} (l : List (List UInt8 × List UInt8)) : ∀ {a b a' b' : ParserState} {rs rs' : List (Option NalUnit)},
    SameOutside t a b → nalResults cs (l.map (·.1)) a = .ok (rs, a') → nalResults cs (l.map (·.2)) b = .ok (rs', b') →
    (∀ y ∈ l.zip (rs.zip rs'), y.1.1 ≠ y.1.2 → t.Covers y.2.1 ∧ t.Covers y.2.2) → (∀ o ∈ rs, t.Closed o) →
    (∀ y ∈ l.zip (rs.zip rs'), y.1.1 = y.1.2 → y.2.1 = y.2.2 ∨ (SliceOfTouched t y.2.1 ∧ SliceOfTouched t y.2.2)) ∧
    SameOutside t a' b' := by
  induction l with
  | nil =>
    intro a b a' b' rs rs' hab h h' _ _
    cases h; cases h'
    exact ⟨fun y hy => (by cases hy), hab⟩
  | cons z rest ih =>
    intro a b a' b' rs rs' hab h h' hcov hcl
    obtain ⟨o, os, rfl, g, k⟩ := results_cons h
    obtain ⟨o', os', rfl, g', k'⟩ := results_cons h'
    have hc := (hcl o (.head _)).sets
    have key : (z.1 = z.2 → o = o' ∨ (SliceOfTouched t o ∧ SliceOfTouched t o')) ∧
        SameOutside t (effect a (payloadOf o)) (effect b (payloadOf o')) := by
      by_cases hz : z.1 = z.2
      · have g' : Gives cs b z.1 o' := hz ▸ g'
        rcases same_bytes hab g g' with e | ⟨e1, e2, e3⟩
        · subst e
          exact ⟨fun _ => .inl rfl, hab.step (.inl rfl) (.inl rfl) (.inl rfl) hc⟩
        · exact ⟨fun _ => .inr e1, hab.step (.inl (e2.1.trans e3.1.symm)) (.inl (e2.2.1.trans e3.2.1.symm)) (.inl (e2.2.2.trans e3.2.2.symm)) hc⟩
      · obtain ⟨c1, c2⟩ := hcov (z, (o, o')) (by simp) hz
        exact ⟨fun e => absurd e hz, hab.step (.inr ⟨c1.sets.1, c2.sets.1⟩) (.inr ⟨c1.sets.2.1, c2.sets.2.1⟩) (.inr ⟨c1.sets.2.2, c2.sets.2.2⟩) hc⟩
    obtain ⟨i1, i2⟩ := ih key.2 k k' (fun y hy => hcov y (by simp only [List.zip_cons_cons]; exact .tail _ hy)) (fun o ho => hcl o (.tail _ ho))
    refine ⟨fun y hy => ?_, i2⟩
    simp only [List.zip_cons_cons, List.mem_cons] at hy
    rcases hy with rfl | hy
    · exact key.1
    · exact i1 y hy

theorem effect_none {a : ParserState} {p : NalUnitPayload} (h : NoSets p) : effect a p = a := by
  obtain ⟨h1, h2, h3⟩ := h
  unfold effect
  rw [h1, h2, h3]

theorem Gives.det {cs : Bool} {a : ParserState} {x : List UInt8} {o o' : Option NalUnit} (h : Gives cs a x o) (h' : Gives cs a x o') : o = o' := by
  cases h with
  | null h => cases h' with
    | null _ => rfl
    | unit h' => rw [h] at h'; cases h'
  | unit h => cases h' with
    | null h' => rw [h] at h'; cases h'
    | unit h' => rw [h] at h'; cases h'; rfl

/-- **C93**, the case in which no parameter set is damaged: nothing else changes. -/
theorem C93_no_sets {cs : Bool} (l : List (List UInt8 × List UInt8)) : ∀ {a a' b' : ParserState} {rs rs' : List (Option NalUnit)},
    nalResults cs (l.map (·.1)) a = .ok (rs, a') → nalResults cs (l.map (·.2)) a = .ok (rs', b') →
    (∀ y ∈ l.zip (rs.zip rs'), y.1.1 ≠ y.1.2 → ∀ o, (o = y.2.1 ∨ o = y.2.2) → ∀ n, o = some n →
      n.nal_unit_payload.vps = none ∧ n.nal_unit_payload.sps = none ∧ n.nal_unit_payload.pps = none) →
    (∀ y ∈ l.zip (rs.zip rs'), y.1.1 = y.1.2 → y.2.1 = y.2.2) ∧ a' = b' := by
  induction l with
  | nil =>
    intro a a' b' rs rs' h h' _
    cases h; cases h'
    exact ⟨fun y hy => (by cases hy), rfl⟩
  | cons z rest ih =>
    intro a a' b' rs rs' h h' hno
    obtain ⟨o, os, rfl, g, k⟩ := results_cons h
    obtain ⟨o', os', rfl, g', k'⟩ := results_cons h'
    have key : (z.1 = z.2 → o = o') ∧ effect a (payloadOf o) = effect a (payloadOf o') := by
      by_cases hz : z.1 = z.2
      · have g' : Gives cs a z.1 o' := hz ▸ g'
        have := g.det g'
        exact ⟨fun _ => this, by rw [this]⟩
      · have c := hno (z, (o, o')) (by simp) hz
        have n1 : NoSets (payloadOf o) := by
          cases o with
          | none => exact ⟨rfl, rfl, rfl⟩
          | some n => exact c _ (.inl rfl) n rfl
        have n2 : NoSets (payloadOf o') := by
          cases o' with
          | none => exact ⟨rfl, rfl, rfl⟩
          | some n => exact c _ (.inr rfl) n rfl
        exact ⟨fun e => absurd e hz, by rw [effect_none n1, effect_none n2]⟩
    rw [← key.2] at k'
    obtain ⟨i1, i2⟩ := ih k k' (fun y hy => hno y (by simp only [List.zip_cons_cons]; exact .tail _ hy))
    refine ⟨fun y hy => ?_, i2⟩
    simp only [List.zip_cons_cons, List.mem_cons] at hy
    rcases hy with rfl | hy
    · exact key.1
    · exact i1 y hy

/-! A concrete case: a stream with one more PPS (id 1, not used by the slices), damaged there. -/

/-- PPS 1 of SPS 0, as sent -/
def exSent : List UInt8 := [0x44, 0x01, 0x50, 0x3c, 0xf0, 0x00, 0x84]
/-- the same with a bit of it wrong -/
def exGot : List UInt8 := [0x44, 0x01, 0x54, 0x3c, 0xf0, 0x00, 0x84]

/-- sent and received -/
def exSentGot : List (List UInt8 × List UInt8) :=
  (exBytes.take 3).map (fun x => (escape x, escape x)) ++ [(escape exSent, escape exGot)] ++ (exBytes.drop 3).map fun x => (escape x, escape x)

def exSentResults : List (Option NalUnit) := match nalResults true (exSentGot.map (·.1)) .empty with | .ok (ns, _) => ns | .error _ => []
def exGotResults : List (Option NalUnit) := match nalResults true (exSentGot.map (·.2)) .empty with | .ok (ns, _) => ns | .error _ => []

/-- only PPS 1 is touched -/
def exTouched : Touched := ⟨fun _ => False, fun _ => False, fun i => i = 1⟩

example : SameOutside exTouched .empty .empty :=
  ⟨fun _ _ => rfl, fun _ _ => rfl, fun _ _ => rfl, fun _ _ _ h => (by cases h)⟩

example : ∀ o ∈ exSentResults, exTouched.Closed o := fun _ _ _ _ _ _ h => h.elim

/-- the fourth result: no VPS, no SPS, and this PPS id and flag -/
def exFourth (rs : List (Option NalUnit)) (id flag : Nat) : Bool :=
  match rs[3]? with
  | some (some n) => n.nal_unit_payload.vps.isNone && n.nal_unit_payload.sps.isNone && (match n.nal_unit_payload.pps with
    | some p => p.body.head.pps_pic_parameter_set_id == id && p.body.head.output_flag_present_flag == flag
    | none => false)
  | _ => false

/-- The two PPSs are both reported, as PPS 1, and differ; both runs give results for all units, and the same slices. -/
example : exSentResults.length = 6 ∧ exGotResults.length = 6 ∧ exFourth exSentResults 1 0 = true ∧ exFourth exGotResults 1 1 = true ∧
    exDeltas (nalResults true (exSentGot.map (·.1)) .empty) = [9, -3] ∧ exDeltas (nalResults true (exSentGot.map (·.2)) .empty) = [9, -3] := by
  decide +kernel

/-- the damaged unit is the only one that differs, and both its results are PPSs with id 1 -/
example : ∀ y ∈ exSentGot.zip (exSentResults.zip exGotResults), y.1.1 ≠ y.1.2 → exTouched.Covers y.2.1 ∧ exTouched.Covers y.2.2 := by
  have h : (exSentGot.zip (exSentResults.zip exGotResults)).all (fun y => decide (y.1.1 = y.1.2) ||
      ([y.2.1, y.2.2].all fun o => match o with
        | some n => n.nal_unit_payload.vps.isNone && n.nal_unit_payload.sps.isNone && (match n.nal_unit_payload.pps with | some p => p.body.head.pps_pic_parameter_set_id == 1 | none => true)
        | none => true)) = true := by
    decide +kernel
  intro y hy hne
  have := List.all_eq_true.mp h y hy
  simp only [hne, decide_false, Bool.false_or, List.all_cons, List.all_nil, Bool.and_true, Bool.and_eq_true] at this
  have one : ∀ o : Option NalUnit, (match o with
        | some n => n.nal_unit_payload.vps.isNone && n.nal_unit_payload.sps.isNone && (match n.nal_unit_payload.pps with | some p => p.body.head.pps_pic_parameter_set_id == 1 | none => true)
        | none => true) = true → exTouched.Covers o := by
    intro o ho
    refine ⟨fun n x e hx => ?_, fun n x e hx => ?_, fun n x e hx => ?_⟩ <;> subst e <;>
      simp only [hx, Bool.and_eq_true, Option.isNone_some, beq_iff_eq] at ho
    · exact absurd ho.1.1 (by decide)
    · exact absurd ho.1.2 (by decide)
    · exact ho.2
  exact ⟨one _ this.1, one _ this.2⟩

/-- The first slice damaged instead (its first byte inverted): the other units give what they gave, the damaged one does not. -/
example : ∃ rs rs' st st', nalResults true (exBytes.map escape) .empty = .ok (rs, st) ∧
    nalResults true ((exBytes.take 3 ++ [[0x26, 0x01, 0x50]] ++ exBytes.drop 4).map escape) .empty = .ok (rs', st') ∧ rs.length = 5 ∧ rs'.length = 5 ∧
    ((rs ++ rs').all fun o => o.isSome) = true ∧
    ([rs[3]?, rs'[3]?].map fun o => o.map fun o => o.map fun n => (n.nal_unit_payload.vps.isNone, n.nal_unit_payload.sps.isNone, n.nal_unit_payload.pps.isNone, n.nal_unit_payload.slice_segment_layer.isSome))
      = [some (some (true, true, true, true)), some (some (true, true, true, false))] := by
  have h1 : (nalResults true (exBytes.map escape) .empty).toOption.isSome = true := by decide +kernel
  have h2 : (nalResults true ((exBytes.take 3 ++ [[0x26, 0x01, 0x50]] ++ exBytes.drop 4).map escape) .empty).toOption.isSome = true := by decide +kernel
  have h3 : (match nalResults true (exBytes.map escape) .empty, nalResults true ((exBytes.take 3 ++ [[0x26, 0x01, 0x50]] ++ exBytes.drop 4).map escape) .empty with
    | .ok (rs, _), .ok (rs', _) => decide (rs.length = 5) && decide (rs'.length = 5) && ((rs ++ rs').all fun o => o.isSome) &&
        decide (([rs[3]?, rs'[3]?].map fun o => o.map fun o => o.map fun n => (n.nal_unit_payload.vps.isNone, n.nal_unit_payload.sps.isNone, n.nal_unit_payload.pps.isNone, n.nal_unit_payload.slice_segment_layer.isSome))
          = [some (some (true, true, true, true)), some (some (true, true, true, false))])
    | _, _ => false) = true := by
    decide +kernel
  cases e1 : nalResults true (exBytes.map escape) .empty with
  | error k => rw [e1] at h1; cases h1
  | ok x =>
    cases e2 : nalResults true ((exBytes.take 3 ++ [[0x26, 0x01, 0x50]] ++ exBytes.drop 4).map escape) .empty with
    | error k => rw [e2] at h2; cases h2
    | ok y =>
      rw [e1, e2] at h3
      simp only [Bool.and_eq_true, decide_eq_true_eq] at h3
      exact ⟨x.1, y.1, x.2, y.2, rfl, rfl, h3.1.1.1, h3.1.1.2, h3.1.2, h3.2⟩

/-- That the PPS is not the one of the slices is needed: the same damage to PPS 0 changes what is reported for the slices. -/
example : exDeltas (nalResults true (exBytes.map escape) .empty) = [9, -3] ∧
    exDeltas (nalResults true ((exBytes.take 2 ++ [[0x44, 0x01, 0xd0, 0xf3, 0xc0, 0x02, 0x10]] ++ exBytes.drop 3).map escape) .empty) ≠ [9, -3] := by
  decide +kernel

end H265
