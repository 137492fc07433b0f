/-
C83: the first values of every conforming slice are reported, whether or not the rest of the slice header is supported.
-/
import Verif.Proof.SliceFront
import Verif.Props.Std
import Verif.Props.StdExample
import Verif.Props.Rtp
import Verif.Props.History

set_option autoImplicit false

namespace H265.Std
open Spec

/-- the same for a state that holds parameter sets with the first parts of those the slice was written with (used for C83 and C84) -/
theorem slice_front {st : ParserState} (hst : Reach st) {t : Nat} (bb : BB) (hd : SliceHead) (s : SliceBody) (x : SliceExtra) (rest : List Bool)
    (V : Pps) (W : Sps) (P : PpsBody) (ptl : StdPtl) (S : SpsBody) (hwf : bb.WF) (hV : st.pps hd.slice_pic_parameter_set_id = some V)
    (hW : st.sps V.body.head.pps_seq_parameter_set_id = some W) (hVP : V.body.head = P.head) (hWS : noVui W.body = noVui S)
    (hS : FrontSps ptl S) (hh : ConformsSliceHead t hd) (hc : ConformsSliceBody t P S hd.first_slice_segment_in_pic_flag s)
    (hb : bb.rem = Std.sliceSegmentHeader t P S hd s x ++ rest) :
    match (parseSliceSegmentLayer t st.pps st.sps).run bb with
    | .ok h _ => h.nal_unit_type = t ∧ h.head = hd ∧ SameStart h.body s
    | .fail _ => True
    | .bad k => k = .signedOverflow := by
  have hok := C21_reachable_states hst
  have hvs := hS.valid
  have hstart' := hc.start hS.conforms hvs
  obtain ⟨w, hw⟩ := slice_start_eq x hvs (picSize_le hS.conforms :) hstart'
  rw [hw, ← sliceStart_same hVP hWS, List.append_assoc] at hb
  have hstart := validStart_same hVP hWS hstart'
  obtain ⟨bb1, h1, h2, h3, h4⟩ := (parseSliceHead_codec (H := Cond.any) (A := fun _ => False)).inverts.complete bb hd _ hwf hh.valid hb
  have hn : Spec.Names st.pps st.sps hd.slice_pic_parameter_set_id V W := ⟨hV, hW⟩
  have hps := (hok.pps _ _ hV).1
  have hss := (hok.sps _ _ hW).1
  have hu := hss.spsUsable
  have hpost := sliceBody_start hu.1 hu.2 hu.3 hu.5 (fun r hr => ⟨hu.6 r hr, hu.7 r hr, hu.8 r hr⟩) (fun _ => hss.spsPicSize) hstart
  have hcod := sliceBody_codec (H := Cond.canon) (A := fun k => k = Bad.signedOverflow) (t := t) (first := hd.first_slice_segment_in_pic_flag) hps hss
  show match (parseSliceSegmentHeader t st.pps st.sps).run bb with | .ok h _ => _ | .fail _ => _ | .bad k => _
  rw [slice_run h1 hn]
  have hag := Prog.run_agrees (parseSliceBody t V.body W.body hd.first_slice_segment_in_pic_flag) bb1 h2
  have hsnd := hcod.sound bb1.rem
  cases hr : (parseSliceBody t V.body W.body hd.first_slice_segment_in_pic_flag).run bb1 with
  | fail b => trivial
  | ok b b2 =>
    have hden := denote_of_run_ok h2 hr
    rw [h4, List.append_assoc] at hden
    exact ⟨rfl, rfl, hpost _ _ _ hden⟩
  | bad k =>
    rw [hr] at hag
    revert hag hsnd
    cases (parseSliceBody t V.body W.body hd.first_slice_segment_in_pic_flag).denote bb1.rem with
    | ok a r => intro _ h; exact h.elim
    | fail r => intro _ h; exact h.elim
    | bad k' => intro h1 h2; cases h2; exact h1

/-- C83: a conforming slice segment header, supported or not, read with the parameter sets it names: if a slice is returned, then with the nal_unit_type, the values in
front of the PPS id and all values in front of ref_pic_lists_modification( ) that were sent; the only undefined behaviour possible is a signed overflow. -/
theorem C83_slice {st : ParserState} (hst : Reach st) {t : Nat} (bb : BB) (hd : SliceHead) (s : SliceBody) (x : SliceExtra) (rest : List Bool)
    (V : Pps) (W : Sps) (ptl : StdPtl) (hwf : bb.WF) (hV : st.pps hd.slice_pic_parameter_set_id = some V)
    (hW : st.sps V.body.head.pps_seq_parameter_set_id = some W)
    (hS : ConformsSpsBody ptl W.body) (hS' : SupportedSps ptl W.body) (hh : ConformsSliceHead t hd)
    (hc : ConformsSliceBody t V.body W.body hd.first_slice_segment_in_pic_flag s)
    (hb : bb.rem = Std.sliceSegmentHeader t V.body W.body hd s x ++ rest) :
    match (parseSliceSegmentLayer t st.pps st.sps).run bb with
    | .ok h _ => h.nal_unit_type = t ∧ h.head = hd ∧ SameStart h.body s
    | .fail _ => True
    | .bad k => k = .signedOverflow := by
  exact slice_front hst bb hd s x rest V W V.body ptl W.body hwf hV hW rfl rfl (hS.front hS'.ptl) hh hc hb

/-- C83: a NAL unit with a conforming slice, supported or not, is reported with its header, and with no slice or one whose start is the one sent; the parser state
does not change. -/
theorem C83_nal_unit {cs : Bool} {d : StdParams} {st st' : ParserState} {l : StdNal} {hd : SliceHead} {s : SliceBody} {x : SliceExtra} {n : NalUnit} {b : BB}
    (hg : GoodParams d) (hh : Holds d st) (hr : Reach st) (hl : ConformingSlice d l hd s x) (hlen : l.rbsp.length < 2 ^ 32)
    (h : parseNalUnit cs st (escape l.rbsp) = .ok (n, st') b) : ReportsStart l n ∧ st' = st := by
  obtain ⟨P, ptl, S, q1, q2, q3, q4, q5⟩ := hl.contents
  obtain ⟨b1, h1, h2, h3, h4⟩ := C19_header_inverts.complete (BB.init l.rbsp) l.header _ (BB.WF.init _) hl.header (by rw [BB.rem_init]; exact q5)
  obtain ⟨V, v1, rfl⟩ := hh.pps _ _ q1
  obtain ⟨W, w1, rfl⟩ := hh.sps _ _ _ q2
  obtain ⟨g3, g4⟩ := hg.sps _ _ _ q2
  have hsl := C83_slice hr b1 hd s x l.tail V W ptl h2 v1 w1 g3 g4 q3 q4 h4
  rw [parseNalUnit_eq cs st (escape l.rbsp) l.rbsp (C10_unescape_escape l.rbsp) hlen] at h
  unfold parseNalUnitParts at h
  rw [Prog.run_seq, h1] at h
  simp only [Res.andThen] at h
  rw [Prog.run_seq, parseNalUnitPayload_eq, if_pos (show sliceType l.header.nal_unit_type from hl.type), Prog.run_bind, Prog.run_attempt] at h
  revert hsl h
  cases (parseSliceSegmentLayer l.header.nal_unit_type st.pps st.sps).run b1 with
  | bad k => intro h _; cases h
  | fail b2 =>
    intro h _
    cases h
    exact ⟨⟨rfl, fun _ _ _ _ => .inl rfl⟩, rfl⟩
  | ok a b2 =>
    intro h e
    cases h
    obtain ⟨e1, e2, e3⟩ := e
    refine ⟨⟨rfl, fun hd' s' x' hu => .inr ⟨a.body, ?_, ?_⟩⟩, rfl⟩
    · have := hl.unit.symm.trans hu
      cases this
      obtain ⟨a1, a2, a3⟩ := a
      simp only at e1 e2
      subst e1 e2; rfl
    · have := hl.unit.symm.trans hu
      cases this
      exact e3

theorem ConformingSlice.nal_bytes {d : StdParams} {n : StdNal} {hd : SliceHead} {s : SliceBody} {x : SliceExtra} (h : ConformingSlice d n hd s x) :
    NalBytes (escape n.rbsp) where
  nonempty := by
    intro he
    have hu := C10_unescape_escape n.rbsp
    rw [he] at hu
    have h0 : unescapeRbsp [] = .ok [] := by rfl
    rw [h0] at hu
    have : n.rbsp = [] := by injection hu with hu; exact hu.symm
    obtain ⟨P, ptl, S, _, _, _, _, hb⟩ := h.contents
    rw [this] at hb
    have := congrArg List.length hb
    rw [bitsOf_length, List.length_append, nalUnitHeader_length, List.length_nil] at this
    omega
  no_start_code := fun hi => absurd (C10_escape_safe _ _ hi) (by decide)
  last_nonzero := h.last

theorem Conforming.nal_bytes {d d' : StdParams} {l : List (StdNal × Bool)} (h : Conforming d l d') : ∀ x ∈ l, NalBytes (escape x.1.rbsp) := by
  induction h with
  | nil => intro x hx; simp at hx
  | supported h1 _ ih =>
    intro x hx
    simp only [List.mem_cons] at hx
    rcases hx with rfl | hx
    · exact h1.nal_bytes
    · exact ih x hx
  | slice h1 _ ih =>
    intro x hx
    simp only [List.mem_cons] at hx
    rcases hx with rfl | hx
    · exact h1.nal_bytes
    · exact ih x hx

theorem conforming_all {cs : Bool} : ∀ {l : List (StdNal × Bool)} {d d' : StdParams} {st st' : ParserState} {ns : List NalUnit} (places : List (Nat × Nat × List UInt8)),
    GoodParams d → Holds d st → Reach st → Conforming d l d' → (∀ x ∈ l, x.1.rbsp.length < 2 ^ 32) → places.map (·.2.2) = l.map (fun x => escape x.1.rbsp) →
    parseAll cs places st = .ok (ns, st') →
    ns.length = l.length ∧ (∀ x ∈ l.zip ns, ReportsMarked x.1 x.2) ∧ ns.map (fun n => (n.offset, n.length)) = places.map (fun x => (x.1, x.2.1)) ∧ Holds d' st'
  | [], d, d', st, st', ns, places, hg, hh, hr, hs, hl, hp, h => by
    cases hs
    have : places = [] := by simpa using hp
    subst this
    cases h
    exact ⟨rfl, fun x hx => by simp at hx, rfl, hh⟩
  | x :: l, d, d', st, st', ns, places, hg, hh, hr, hs, hl, hp, h => by
    cases places with
    | nil => simp at hp
    | cons p places =>
      obtain ⟨off, len, nal⟩ := p
      simp only [List.map_cons, List.cons.injEq] at hp
      obtain ⟨rfl, hp⟩ := hp
      have go : ∀ (n : NalUnit) (st1 : ParserState) (b : BB) (d1 : StdParams), parseNalUnit cs st (escape x.1.rbsp) = .ok (n, st1) b → GoodParams d1 → Holds d1 st1 →
          Conforming d1 l d' → (∀ n' : NalUnit, n'.nal_unit_header = n.nal_unit_header → n'.nal_unit_payload = n.nal_unit_payload → ReportsMarked x n') →
          ns.length = (x :: l).length ∧ (∀ y ∈ (x :: l).zip ns, ReportsMarked y.1 y.2) ∧
            ns.map (fun n => (n.offset, n.length)) = ((off, len, escape x.1.rbsp) :: places).map (fun x => (x.1, x.2.1)) ∧ Holds d' st' := by
        intro n st1 b d1 e1 e2 e3 e4 e5
        simp only [parseAll, e1] at h
        cases hrest : parseAll cs places st1 with
        | error k => rw [hrest] at h; cases h
        | ok y =>
          obtain ⟨ns1, st2⟩ := y
          rw [hrest] at h
          cases h
          obtain ⟨f1, f2, f3, f4⟩ := conforming_all (cs := cs) places e2 e3 (hr.step (parseNalUnit_steps e1)) e4 (fun y hy => hl y (by simp [hy])) hp hrest
          refine ⟨by simp [f1], ?_, by simp [f3], f4⟩
          intro y hy
          simp only [List.zip_cons_cons, List.mem_cons] at hy
          rcases hy with rfl | hy
          · exact e5 _ rfl rfl
          · exact f2 y hy
      have hsm := hl x (by simp)
      cases hs with
      | @supported _ _ x _ h1 h2 =>
        obtain ⟨w, hw, _⟩ := h1.contents
        obtain ⟨n, st1, b, e1, ⟨e2, e2'⟩, e3, e4⟩ := C48_nal_unit (cs := cs) hg hh hr h1 hsm
        exact go n st1 b _ e1 (hg.after hw) e3 h2 (fun n' q1 q2 => by
          unfold ReportsMarked
          rw [if_pos rfl]
          exact ⟨q1.trans e2, by rw [q2]; exact e2'⟩)
      | @slice _ _ x hd s e _ h1 h2 =>
        cases hn : parseNalUnit cs st (escape x.rbsp) with
        | bad k =>
          exfalso
          simp only [parseAll, hn] at h
          cases h
        | fail c =>
          exfalso
          obtain ⟨P, ptl, S, _, _, _, _, q⟩ := h1.contents
          have h3 := (C22_dropped_iff (cs := cs) (st := st) (C10_unescape_escape x.rbsp)).1 ⟨c, hn⟩
          have h4 := congrArg List.length q
          rw [bitsOf_length, List.length_append, nalUnitHeader_length] at h4
          omega
        | ok y c =>
          obtain ⟨n, st1⟩ := y
          obtain ⟨⟨e1, e2⟩, rfl⟩ := C83_nal_unit hg hh hr h1 hsm hn
          exact go n st1 c d hn hg hh h2 (fun n' q1 q2 => by
            unfold ReportsMarked
            rw [if_neg (by simp)]
            exact ⟨q1.trans e1, by rw [q2]; exact e2⟩)

/-- C83: an Annex B byte stream of NAL units that conform to the standard, with supported contents except for the slices marked: if it is parsed without undefined
behaviour, there is one NAL unit reported for each, in order and at its place; the supported ones are reported completely, the slices marked with their header and, unless
no slice is reported, their start; the parser state holds the parameter sets sent. -/
theorem C83_annexB (cs : Bool) (st st' : ParserState) (start : List Bool) (l : List (StdNal × Bool)) (d' : StdParams) (ns : List NalUnit) (hr : Reach st)
    (hs : Conforming .none l d') (hn : start.length = l.length) (hlen : (annexB (start.zip (l.map fun x => escape x.1.rbsp))).length < 2 ^ 32)
    (h : parseBitstream cs st (annexB (start.zip (l.map fun x => escape x.1.rbsp))) = .ok (ns, st')) :
    ns.length = l.length ∧ (∀ x ∈ l.zip ns, ReportsMarked x.1 x.2) ∧
      ns.map (fun n => (n.offset, n.length)) = (nalPlaces 0 (start.zip (l.map fun x => escape x.1.rbsp))).map (fun x => (x.1, x.2.1)) ∧ Holds d' st' := by
  have hb := hs.nal_bytes
  have hmem : ∀ x ∈ l, ∃ b, (b, escape x.1.rbsp) ∈ start.zip (l.map fun x => escape x.1.rbsp) := by
    intro x hx
    obtain ⟨i, hi, rfl⟩ := List.mem_iff_getElem.mp hx
    refine ⟨start[i]'(by omega), List.mem_iff_getElem.mpr ⟨i, by simp; omega, by simp⟩⟩
  have hp : (nalPlaces 0 (start.zip (l.map fun x => escape x.1.rbsp))).map (·.2.2) = l.map fun x => escape x.1.rbsp := by
    rw [nalPlaces_nal]
    exact List.map_snd_zip (by simp [hn])
  have hsm : ∀ x ∈ l, x.1.rbsp.length < 2 ^ 32 := by
    intro x hx
    obtain ⟨b, hm⟩ := hmem x hx
    have h1 := length_le_annexB _ _ hm
    have h2 := length_le_escape x.1.rbsp
    simp only at h1; omega
  rw [C25_annexB cs st _ ?_ (by omega)] at h
  · exact conforming_all _ GoodParams.none (Holds.none st) hr hs hsm hp h
  · intro x hx
    have := (List.of_mem_zip hx).2
    simp only [List.mem_map] at this
    obtain ⟨y, hy, he⟩ := this
    rw [← he]; exact hb y hy

/-- C83: the same for NAL units behind length fields of 1 to 7 bytes -/
theorem C83_length_prefixed (cs : Bool) (k : Nat) (st st' : ParserState) (l : List (StdNal × Bool)) (d' : StdParams) (ns : List NalUnit) (hr : Reach st) (hk0 : 0 < k)
    (hk : k ≤ 7) (hs : Conforming .none l d') (hl : ∀ x ∈ l, (escape x.1.rbsp).length < 256 ^ k ∧ (escape x.1.rbsp).length < 2 ^ 32)
    (hlen : (lengthPrefixed k (l.map fun x => escape x.1.rbsp)).length < 2 ^ 63)
    (h : parseBitstreamNaluLength cs k st (lengthPrefixed k (l.map fun x => escape x.1.rbsp)) = .ok (ns, st')) :
    ns.length = l.length ∧ (∀ x ∈ l.zip ns, ReportsMarked x.1 x.2) ∧ Holds d' st' := by
  have hb := hs.nal_bytes
  rw [lengthStream_eq cs k st _ hk0 hk ?_ hlen] at h
  · obtain ⟨h1, h2, _, h3⟩ := conforming_all _ GoodParams.none (Holds.none st) hr hs (fun x hx => Nat.lt_of_le_of_lt (length_le_escape _) (hl x hx).2)
      (lengthPlaces_nal k (l.map fun x => escape x.1.rbsp) 0) h
    exact ⟨h1, h2, h3⟩
  · intro x hx
    simp only [List.mem_map] at hx
    obtain ⟨y, hy, rfl⟩ := hx
    exact ⟨(hb y hy).nonempty, (hl y hy).1⟩

/-! ### hypotheses met -/

/-- a PPS with two reference pictures by default, and a P slice that relies on it: collocated_ref_idx is present, but the library looks at the count of the slice only -/
def exPps2 : PpsBody := { exPps with head := { exPps.head with num_ref_idx_l0_default_active_minus1 := 1 } }
def exSlice2 : SliceBody := { exSliceP with collocated_ref_idx := 1, slice_pic_order_cnt_lsb := 2 }

theorem exPps2_conforms : ConformsPpsBody exPps2 := by
  have h := exPps_conforms
  exact ⟨{ h.head with num_ref_idx_l0_default_active_minus1 := by decide }, h.pps_multilayer_extension, h.pps_scc_extension⟩

theorem exSlice2_conforms : ConformsSliceBody 1 exPps2 exSps 1 exSlice2 := by
  have h := exSliceP_conforms
  exact { h with
    slice_pic_order_cnt_lsb := ⟨by decide, by decide⟩
    collocated_ref_idx := ⟨by decide, by decide⟩
    pred_weight_table := ⟨by decide, fun x hx => by cases hx⟩ }

example : ¬ SupportedSlice 1 exPps2 exSps exSlice2 := fun h => absurd (h.num_ref_idx (by decide) (by decide) (by decide)) (by decide)

def exMarked : List (StdNal × Bool) :=
  [(exNals[0]'(by decide), true), (exNals[1]'(by decide), true),
   (exNal 34 (.pps exPps2) (Std.pps exPps2) [68, 1, 192, 172, 240, 0, 132], true),
   (exNal 1 (.slice exHead exSlice2 default) (Std.sliceSegmentHeader 1 exPps2 exSps exHead exSlice2 default) [2, 1, 208, 23, 169, 158, 0, 0, 16], false)]

theorem exMarked_conforming : ∃ d, Conforming .none exMarked d := by
  obtain ⟨d, h⟩ := exNals_sent
  cases h with | cons v h =>
  cases h with | cons s h =>
  refine ⟨_, .supported v <| .supported s <| .supported ⟨?_, ⟨_, .pps exPps2 rfl exPps2_conforms ⟨exSupportedPps.1, exSupportedPps.2, exSupportedPps.3, exSupportedPps.4⟩, ?_⟩, ?_⟩ <|
    .slice (hd := exHead) (s := exSlice2) (x := default) ⟨?_, ?_, rfl, ⟨exPps2, exPtl, exSps, rfl, rfl, exHead_conformsP, exSlice2_conforms, ?_⟩, ?_⟩ <| .nil _⟩
  all_goals first | decide +kernel | (constructor <;> decide)

/-- … parsed without undefined behaviour, and the slice is reported: with its start, but another slice_qp_delta -/
example : (parseBitstream false .empty (annexB ((List.replicate 4 true).zip (exMarked.map fun x => escape x.1.rbsp)))).toOption.map
    (fun x => x.1.map fun n => n.nal_unit_payload.slice_segment_layer.map fun h => (h.body.slice_pic_order_cnt_lsb, h.body.slice_qp_delta)) =
    some [none, none, none, some (2, -1)] := by
  decide +kernel

end H265.Std
