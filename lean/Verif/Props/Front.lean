/-
C84: the first values of parameter sets are reported whatever follows them, and slices can be read with such parameter sets.
-/
import Verif.Props.SliceStart
import Verif.Props.Mixed
import Verif.Props.Pps
import Verif.Props.Vps

set_option autoImplicit false

namespace H265.Std
open Spec

theorem post_tail {α β : Type} {p : Prog β} {f : β → Prog α} {body : α → β} {w : List Bool} {Q : β → Prop} (hp : PostOn p w Q)
    (hf : ∀ b, Post (f b) (fun a => body a = b)) : PostOn (p >>= f) w (fun a => Q (body a)) := by
  intro r a r' h
  rw [Prog.denote_bind] at h
  have hp := hp r
  revert h hp
  cases p.denote (w ++ r) with
  | ok b r1 =>
    intro h hp
    have hb := hp b r1 rfl
    have := hf b r1 a r' h
    rw [this]; exact hb
  | fail r1 => intro h; cases h
  | bad k => intro h; cases h

theorem post_run {α : Type} {p : Prog α} {w rest : List Bool} {Q : α → Prop} {bb bb' : BB} {a : α} (hp : PostOn p w Q) (hwf : bb.WF) (hb : bb.rem = w ++ rest)
    (hr : p.run bb = .ok a bb') : Q a := by
  have := denote_of_run_ok hwf hr
  rw [hb] at this
  exact hp _ _ _ this

/-- C84: an SPS of which the values in front of the VUI parameters conform to the standard and have a supported profile_tier_level( ), with anything behind them: if an SPS
is returned, it has these values; the only undefined behaviour possible is a signed overflow. -/
theorem C84_sps (bb : BB) (ptl : StdPtl) (s : SpsBody) (rest : List Bool) (hwf : bb.WF) (h : FrontSps ptl s) (hb : bb.rem = Std.spsFront ptl s ++ rest) :
    match parseSps.run bb with
    | .ok v _ => SameSps v.body s
    | .fail _ => True
    | .bad k => k = .signedOverflow := by
  rw [spsFront_eq h] at hb
  have hpost : PostOn parseSps (H265.spsFront s) (fun v => SameSps v.body s) :=
    post_tail (body := Sps.body) (spsBody_front h.valid (by have := h.vui_parameters_present_flag; omega)) (fun b => Post.bind fun x => Post.pure rfl)
  cases hr : parseSps.run bb with
  | ok v b => have hq := post_run hpost hwf hb hr; exact hq
  | fail b => trivial
  | bad k => exact C27_sps_inverts.safe bb k hwf hr

/-- C84: the same for a VPS and its values in front of the HRD parameters; no undefined behaviour is possible. -/
theorem C84_vps (bb : BB) (ptl : StdPtl) (s : VpsBody) (rest : List Bool) (hwf : bb.WF) (h : FrontVps ptl s) (hb : bb.rem = Std.vpsFront ptl s ++ rest) :
    match parseVps.run bb with
    | .ok v _ => SameVps v.body s
    | .fail _ => True
    | .bad _ => False := by
  rw [vpsFront_eq h] at hb
  have hpost : PostOn parseVps (H265.vpsFront s) (fun v => SameVps v.body s) :=
    post_tail (body := Vps.body) (vpsBody_front h.valid ⟨fun c => ⟨Nat.zero_le _, h.vps_num_hrd_parameters.present c⟩, h.vps_num_hrd_parameters.absent⟩)
      (fun b => Post.bind fun x => Post.pure rfl)
  cases hr : parseVps.run bb with
  | ok v b => have hq := post_run hpost hwf hb hr; exact hq
  | fail b => trivial
  | bad k => exact C28_vps_inverts.safe bb k hwf hr

/-- C84: the same for a PPS and its values in front of the extensions. -/
theorem C84_pps (bb : BB) (s : PpsHead) (rest : List Bool) (hwf : bb.WF) (h : ConformsPpsHead s) (hb : bb.rem = Std.ppsFront s ++ rest) :
    match parsePps.run bb with
    | .ok v _ => v.body.head = s
    | .fail _ => True
    | .bad k => k = .signedOverflow := by
  rw [ppsFront_eq h.front] at hb
  have hpost : PostOn parsePps (Spec.ppsHead s) (fun v => v.body.head = s) :=
    post_tail (body := Pps.body) (Q := fun b => b.head = s) (ppsBody_front h.front h.pps_range_extension_flag) (fun b => Post.bind fun x => Post.pure rfl)
  cases hr : parsePps.run bb with
  | ok v b => have hq := post_run hpost hwf hb hr; exact hq
  | fail b => trivial
  | bad k => exact C29_pps_safe hwf hr

/-- C84: the first parts are first parts: a parameter set that conforms to the standard, whatever its VUI, HRD parameters and extensions, begins with one as above -/
theorem C84_conforming :
    (∀ (ptl : StdPtl) (s : SpsBody), ConformsSpsBody ptl s → SupportedPtl ptl → FrontSps ptl s ∧ Std.spsFront ptl s <+: Std.sps ptl s) ∧
    (∀ (ptl : StdPtl) (s : VpsBody), ConformsVpsBody ptl s → SupportedPtl ptl → FrontVps ptl s ∧ Std.vpsFront ptl s <+: Std.vps ptl s) ∧
    (∀ s : PpsBody, ConformsPpsBody s → ConformsPpsHead s.head ∧ Std.ppsFront s.head <+: Std.pps s) := by
  refine ⟨fun ptl s h hs => ⟨h.front hs, ?_⟩, fun ptl s h hs => ⟨h.front hs, ?_⟩, fun s h => ⟨h.head, ?_⟩⟩
  · obtain ⟨w, hw⟩ := sps_front ptl s; exact ⟨w, hw.symm⟩
  · obtain ⟨w, hw⟩ := vps_front (ptl := ptl) (s := s); exact ⟨w, hw.symm⟩
  · obtain ⟨w, hw⟩ := pps_front s; exact ⟨w, hw.symm⟩

/-! ### streams -/

structure FrontParams (d : StdParams) : Prop where
  sps : ∀ i ptl s, d.sps i = some (ptl, s) → FrontSps ptl s

theorem FrontParams.none : FrontParams .none := ⟨fun _ _ _ h => (by cases h)⟩
theorem HoldsFront.none (st : ParserState) : HoldsFront .none st := ⟨fun _ _ _ h => (by cases h), fun _ _ _ h => (by cases h), fun _ _ h => (by cases h)⟩

theorem FrontParams.after {d : StdParams} {n : StdNal} (h : FrontParams d) (hn : FrontNal d n) : FrontParams (d.after n.unit) := by
  cases hn with
  | sps ptl s h1 h2 h3 h4 =>
    rw [h1]
    refine ⟨fun i q x hx => ?_⟩
    simp only [StdParams.after] at hx
    split at hx
    · cases hx; exact h3
    · exact h.sps i q x hx
  | vps ptl s h1 _ _ _ => rw [h1]; exact ⟨h.sps⟩
  | pps s h1 _ _ _ => rw [h1]; exact ⟨h.sps⟩
  | slice hd s x P ptl S h1 _ _ _ _ _ _ => rw [h1]; exact h
  | other h1 _ _ => rw [h1]; exact h

theorem FrontNal.bits {d : StdParams} {n : StdNal} (h : FrontNal d n) : ∃ w, bitsOf n.rbsp = Spec.nalUnitHeader n.header ++ w := by
  cases h <;> exact ⟨_, by assumption⟩

/-- what one NAL unit does to the parser -/
theorem front_nal {cs : Bool} {d : StdParams} {st st' : ParserState} {l : StdNal} {n : NalUnit} {b : BB} (hg : FrontParams d) (hh : HoldsFront d st) (hr : Reach st)
    (hv : ValidNalUnitHeader l.header) (hl : FrontNal d l) (hlen : l.rbsp.length < 2 ^ 32) (h : parseNalUnit cs st (escape l.rbsp) = .ok (n, st') b) :
    ReportsFront l n ∧ (Rejected l n ∨ HoldsFront (d.after l.unit) st') := by
  obtain ⟨w, hw⟩ := hl.bits
  obtain ⟨b1, h1, h2, h3, h4⟩ := C19_header_inverts.complete (BB.init l.rbsp) l.header _ (BB.WF.init _) hv (by rw [BB.rem_init]; exact hw)
  rw [parseNalUnit_eq cs st (escape l.rbsp) l.rbsp (C10_unescape_escape l.rbsp) hlen] at h
  unfold parseNalUnitParts at h
  rw [Prog.run_seq, h1] at h
  simp only [Res.andThen] at h
  rw [Prog.run_seq] at h
  cases hp : (parseNalUnitPayload l.header.nal_unit_type st).run b1 with
  | bad k => rw [hp] at h; cases h
  | fail b2 => rw [hp] at h; cases h
  | ok x b2 =>
    obtain ⟨p, st2⟩ := x
    rw [hp] at h
    cases h
    have hpc := payload_cases hp
    clear hp
    unfold ReportsFront Rejected
    dsimp only
    cases hl with
    | vps ptl s e1 e2 e3 e4 =>
      have hb : b1.rem = Std.vpsFront ptl s ++ l.tail := h4.trans (List.append_cancel_left (hw.symm.trans e4))
      rw [e1]
      have hs := C84_vps b1 ptl s l.tail h2 e3 hb
      cases hpc with
      | vps o _ ho =>
        cases o with
        | none => exact ⟨⟨rfl, .inl rfl⟩, .inl ⟨by rw [e2]; decide, rfl⟩⟩
        | some v =>
          simp only [Returned] at ho
          rw [ho] at hs
          refine ⟨⟨rfl, .inr ⟨v, rfl, hs⟩⟩, .inr ⟨fun i q x hx => ?_, hh.sps, hh.pps⟩⟩
          have hid : v.body.vps_video_parameter_set_id = s.vps_video_parameter_set_id :=
            (congrArg VpsBody.vps_video_parameter_set_id hs.1 : (noHrd v.body).vps_video_parameter_set_id = (noHrd s).vps_video_parameter_set_id)
          simp only [StdParams.after] at hx
          simp only [vpsOut, mapSet, hid]
          split at hx
          · next hi => cases hx; rw [if_pos hi]; exact ⟨v, rfl, hs⟩
          · next hi => rw [if_neg hi]; exact hh.vps i q x hx
      | slice o ht _ => exact absurd ht (by rw [e2]; decide)
      | sps o ht _ => exact absurd ht (by rw [e2]; decide)
      | pps o ht _ => exact absurd ht (by rw [e2]; decide)
      | aud o ht _ => exact absurd ht (by rw [e2]; decide)
      | sei o ht _ => exact absurd ht (by rw [e2]; decide)
      | other _ ht _ => exact absurd ht (by rw [e2]; decide)
    | sps ptl s e1 e2 e3 e4 =>
      have hb : b1.rem = Std.spsFront ptl s ++ l.tail := h4.trans (List.append_cancel_left (hw.symm.trans e4))
      rw [e1]
      have hs := C84_sps b1 ptl s l.tail h2 e3 hb
      cases hpc with
      | sps o _ ho =>
        cases o with
        | none => exact ⟨⟨rfl, .inl rfl⟩, .inl ⟨by rw [e2]; decide, rfl⟩⟩
        | some v =>
          simp only [Returned] at ho
          rw [ho] at hs
          refine ⟨⟨rfl, .inr ⟨v, rfl, hs⟩⟩, .inr ⟨hh.vps, fun i q x hx => ?_, hh.pps⟩⟩
          have hid : v.body.sps_seq_parameter_set_id = s.sps_seq_parameter_set_id :=
            (congrArg SpsBody.sps_seq_parameter_set_id hs.1 : (noVui v.body).sps_seq_parameter_set_id = (noVui s).sps_seq_parameter_set_id)
          simp only [StdParams.after] at hx
          simp only [spsOut, mapSet, hid]
          split at hx
          · next hi => cases hx; rw [if_pos hi]; exact ⟨v, rfl, hs⟩
          · next hi => rw [if_neg hi]; exact hh.sps i q x hx
      | slice o ht _ => exact absurd ht (by rw [e2]; decide)
      | vps o ht _ => exact absurd ht (by rw [e2]; decide)
      | pps o ht _ => exact absurd ht (by rw [e2]; decide)
      | aud o ht _ => exact absurd ht (by rw [e2]; decide)
      | sei o ht _ => exact absurd ht (by rw [e2]; decide)
      | other _ ht _ => exact absurd ht (by rw [e2]; decide)
    | pps s e1 e2 e3 e4 =>
      have hb : b1.rem = Std.ppsFront s.head ++ l.tail := h4.trans (List.append_cancel_left (hw.symm.trans e4))
      rw [e1]
      have hs := C84_pps b1 s.head l.tail h2 e3 hb
      cases hpc with
      | pps o _ ho =>
        cases o with
        | none => exact ⟨⟨rfl, .inl rfl⟩, .inl ⟨by rw [e2]; decide, rfl⟩⟩
        | some v =>
          simp only [Returned] at ho
          rw [ho] at hs
          refine ⟨⟨rfl, .inr ⟨v, rfl, hs⟩⟩, .inr ⟨hh.vps, hh.sps, fun i x hx => ?_⟩⟩
          simp only [StdParams.after] at hx
          simp only [ppsOut, mapSet, hs]
          split at hx
          · next hi => cases hx; rw [if_pos hi]; exact ⟨v, rfl, hs⟩
          · next hi => rw [if_neg hi]; exact hh.pps i x hx
      | slice o ht _ => exact absurd ht (by rw [e2]; decide)
      | vps o ht _ => exact absurd ht (by rw [e2]; decide)
      | sps o ht _ => exact absurd ht (by rw [e2]; decide)
      | aud o ht _ => exact absurd ht (by rw [e2]; decide)
      | sei o ht _ => exact absurd ht (by rw [e2]; decide)
      | other _ ht _ => exact absurd ht (by rw [e2]; decide)
    | slice hd s x P ptl S e1 e2 e3 e4 e5 e6 e7 =>
      have hb : b1.rem = Std.sliceSegmentHeader l.header.nal_unit_type P S hd s x ++ l.tail := h4.trans (List.append_cancel_left (hw.symm.trans e7))
      obtain ⟨V, v1, v2⟩ := hh.pps _ _ e3
      obtain ⟨W, w1, w2⟩ := hh.sps _ _ _ e4
      have hs := slice_front hr b1 hd s x l.tail V W P ptl S h2 v1 (by rw [v2]; exact w1) v2 w2.1 (hg.sps _ _ _ e4) e5 e6 hb
      rw [e1]
      cases hpc with
      | slice o _ ho =>
        refine ⟨⟨rfl, ?_⟩, .inr hh⟩
        cases o with
        | none => exact .inl rfl
        | some a =>
          simp only [Returned] at ho
          rw [ho] at hs
          obtain ⟨q1, q2, q3⟩ := hs
          obtain ⟨a1, a2, a3⟩ := a
          simp only at q1 q2 q3
          subst q1 q2
          exact .inr ⟨a3, rfl, q3⟩
      | vps o ht _ => exact absurd e2 (by omega)
      | sps o ht _ => exact absurd e2 (by omega)
      | pps o ht _ => exact absurd e2 (by omega)
      | aud o ht _ => exact absurd e2 (by omega)
      | sei o ht _ => exact absurd e2 (by omega)
      | other ht _ _ => exact absurd e2 ht
    | other e1 e2 e3 =>
      rw [e1]
      have hst : st' = st := by
        cases hpc with
        | vps o ht _ => exact absurd (by simp [ht]) e2
        | sps o ht _ => exact absurd (by simp [ht]) e2
        | pps o ht _ => exact absurd (by simp [ht]) e2
        | _ => rfl
      subst hst
      exact ⟨⟨rfl, trivial⟩, .inr hh⟩

theorem FrontAll.nal_bytes {d d' : StdParams} {l : List StdNal} (h : FrontAll d l d') : ∀ x ∈ l, NalBytes (escape x.rbsp) := by
  induction h with
  | nil => intro x hx; simp at hx
  | @cons d d' n ns h1 h2 h3 _ ih =>
    intro x hx
    simp only [List.mem_cons] at hx
    rcases hx with rfl | hx
    · refine ⟨?_, fun hi => absurd (C10_escape_safe _ _ hi) (by decide), h2⟩
      intro he
      have hu := C10_unescape_escape x.rbsp
      rw [he] at hu
      have h0 : unescapeRbsp [] = .ok [] := by rfl
      rw [h0] at hu
      have : x.rbsp = [] := by injection hu with hu; exact hu.symm
      obtain ⟨w, hb⟩ := h3.bits
      rw [this] at hb
      have := congrArg List.length hb
      rw [bitsOf_length, List.length_append, nalUnitHeader_length, List.length_nil] at this
      omega
    · exact ih x hx

theorem FrontAll.long {d d' : StdParams} {l : List StdNal} (h : FrontAll d l d') : ∀ x ∈ l, 2 ≤ x.rbsp.length := by
  induction h with
  | nil => intro x hx; simp at hx
  | @cons d d' n ns h1 h2 h3 _ ih =>
    intro x hx
    simp only [List.mem_cons] at hx
    rcases hx with rfl | hx
    · obtain ⟨w, hb⟩ := h3.bits
      have := congrArg List.length hb
      rw [bitsOf_length, List.length_append, nalUnitHeader_length] at this
      omega
    · exact ih x hx

/-- NAL units with a header are all reported -/
theorem all_reported {cs : Bool} : ∀ {l : List StdNal} {st st' : ParserState} {ns : List NalUnit} (places : List (Nat × Nat × List UInt8)),
    (∀ x ∈ l, 2 ≤ x.rbsp.length) → places.map (·.2.2) = l.map (fun x => escape x.rbsp) → parseAll cs places st = .ok (ns, st') →
    ns.map (fun n => (n.offset, n.length)) = places.map (fun x => (x.1, x.2.1))
  | [], st, st', ns, places, hl, hp, h => by
    have : places = [] := by simpa using hp
    subst this
    cases h
    rfl
  | x :: l, st, st', ns, places, hl, hp, h => by
    cases places with
    | nil => simp at hp
    | cons p places =>
      obtain ⟨off, len, nal⟩ := p
      simp only [List.map_cons, List.cons.injEq] at hp
      obtain ⟨rfl, hp⟩ := hp
      cases hn : parseNalUnit cs st (escape x.rbsp) with
      | bad k => simp only [parseAll, hn] at h; cases h
      | fail c =>
        exfalso
        have h5 := (C22_dropped_iff (cs := cs) (st := st) (C10_unescape_escape x.rbsp)).1 ⟨c, hn⟩
        have := hl x (by simp)
        omega
      | ok y c =>
        obtain ⟨n, st1⟩ := y
        simp only [parseAll, hn] at h
        cases hrest : parseAll cs places st1 with
        | error k => rw [hrest] at h; cases h
        | ok y =>
          obtain ⟨ns1, st2⟩ := y
          rw [hrest] at h
          cases h
          simp [all_reported places (fun y hy => hl y (by simp [hy])) hp hrest]

theorem front_all {cs : Bool} : ∀ {l : List StdNal} {d d' : StdParams} {st st' : ParserState} {ns : List NalUnit} (places : List (Nat × Nat × List UInt8)),
    FrontParams d → HoldsFront d st → Reach st → FrontAll d l d' → (∀ x ∈ l, x.rbsp.length < 2 ^ 32) → places.map (·.2.2) = l.map (fun x => escape x.rbsp) →
    parseAll cs places st = .ok (ns, st') →
    ns.map (fun n => (n.offset, n.length)) = places.map (fun x => (x.1, x.2.1)) ∧ ReportsUntil l ns ∧
      ((∀ x ∈ l.zip ns, ¬ Rejected x.1 x.2) → HoldsFront d' st')
  | [], d, d', st, st', ns, places, hg, hh, hr, hs, hl, hp, h => by
    cases hs
    have : places = [] := by simpa using hp
    subst this
    cases h
    exact ⟨rfl, trivial, fun _ => hh⟩
  | x :: l, d, d', st, st', ns, places, hg, hh, hr, hs, hl, hp, h => by
    cases places with
    | nil => simp at hp
    | cons p places =>
      obtain ⟨off, len, nal⟩ := p
      simp only [List.map_cons, List.cons.injEq] at hp
      obtain ⟨rfl, hp⟩ := hp
      have hsm := hl x (by simp)
      cases hs with
      | cons h1 h2 h3 h4 =>
        cases hn : parseNalUnit cs st (escape x.rbsp) with
        | bad k =>
          exfalso
          simp only [parseAll, hn] at h
          cases h
        | fail c =>
          exfalso
          obtain ⟨w, q⟩ := h3.bits
          have h5 := (C22_dropped_iff (cs := cs) (st := st) (C10_unescape_escape x.rbsp)).1 ⟨c, hn⟩
          have h6 := congrArg List.length q
          rw [bitsOf_length, List.length_append, nalUnitHeader_length] at h6
          omega
        | ok y c =>
          obtain ⟨n, st1⟩ := y
          obtain ⟨e1, e2⟩ := front_nal hg hh hr h1 h3 hsm hn
          simp only [parseAll, hn] at h
          cases hrest : parseAll cs places st1 with
          | error k => rw [hrest] at h; cases h
          | ok y =>
            obtain ⟨ns1, st2⟩ := y
            rw [hrest] at h
            cases h
            have hpl : ns1.map (fun n => (n.offset, n.length)) = places.map (fun x => (x.1, x.2.1)) :=
              all_reported places h4.long hp hrest
            refine ⟨by simp [hpl], ⟨e1, ?_⟩, ?_⟩
            · rcases e2 with e2 | e2
              · exact .inl e2
              · exact .inr (front_all (cs := cs) places (hg.after h3) e2 (hr.step (parseNalUnit_steps hn)) h4 (fun y hy => hl y (by simp [hy])) hp hrest).2.1
            · intro hrej
              rcases e2 with e2 | e2
              · exact absurd e2 (hrej (x, { n with offset := off, length := len }) (by simp))
              · exact (front_all (cs := cs) places (hg.after h3) e2 (hr.step (parseNalUnit_steps hn)) h4 (fun y hy => hl y (by simp [hy])) hp hrest).2.2
                  (fun y hy => hrej y (by simp [hy]))

/-- C84: an Annex B byte stream of parameter sets with conforming first parts and anything behind them, of slices that conform to the standard with these parameter sets,
and of any other NAL units: if it is parsed without undefined behaviour, there is one NAL unit reported for each, in order and at its place; up to the first parameter
set for which no contents are reported, they have the headers sent, and the contents reported (if any) have the first parts that were sent; if there is no such parameter set, the parser
state holds parameter sets with the first parts sent. -/
theorem C84_annexB (cs : Bool) (st st' : ParserState) (start : List Bool) (l : List StdNal) (d' : StdParams) (ns : List NalUnit) (hr : Reach st)
    (hs : FrontAll .none l d') (hn : start.length = l.length) (hlen : (annexB (start.zip (l.map fun x => escape x.rbsp))).length < 2 ^ 32)
    (h : parseBitstream cs st (annexB (start.zip (l.map fun x => escape x.rbsp))) = .ok (ns, st')) :
    ns.map (fun n => (n.offset, n.length)) = (nalPlaces 0 (start.zip (l.map fun x => escape x.rbsp))).map (fun x => (x.1, x.2.1)) ∧ ReportsUntil l ns ∧
      ((∀ x ∈ l.zip ns, ¬ Rejected x.1 x.2) → HoldsFront d' st') := by
  have hb := hs.nal_bytes
  have hmem : ∀ x ∈ l, ∃ b, (b, escape x.rbsp) ∈ start.zip (l.map fun x => escape x.rbsp) := by
    intro x hx
    obtain ⟨i, hi, rfl⟩ := List.mem_iff_getElem.mp hx
    refine ⟨start[i]'(by omega), List.mem_iff_getElem.mpr ⟨i, by simp; omega, by simp⟩⟩
  have hp : (nalPlaces 0 (start.zip (l.map fun x => escape x.rbsp))).map (·.2.2) = l.map fun x => escape x.rbsp := by
    rw [nalPlaces_nal]
    exact List.map_snd_zip (by simp [hn])
  have hsm : ∀ x ∈ l, x.rbsp.length < 2 ^ 32 := by
    intro x hx
    obtain ⟨b, hm⟩ := hmem x hx
    have h1 := length_le_annexB _ _ hm
    have h2 := length_le_escape x.rbsp
    simp only at h1; omega
  rw [C25_annexB cs st _ ?_ (by omega)] at h
  · exact front_all _ FrontParams.none (HoldsFront.none st) hr hs hsm hp h
  · intro x hx
    have := (List.of_mem_zip hx).2
    simp only [List.mem_map] at this
    obtain ⟨y, hy, he⟩ := this
    rw [← he]; exact hb y hy

/-- C84: the same for NAL units behind length fields of 1 to 7 bytes -/
theorem C84_length_prefixed (cs : Bool) (k : Nat) (st st' : ParserState) (l : List StdNal) (d' : StdParams) (ns : List NalUnit) (hr : Reach st) (hk0 : 0 < k)
    (hk : k ≤ 7) (hs : FrontAll .none l d') (hl : ∀ x ∈ l, (escape x.rbsp).length < 256 ^ k ∧ (escape x.rbsp).length < 2 ^ 32)
    (hlen : (lengthPrefixed k (l.map fun x => escape x.rbsp)).length < 2 ^ 63)
    (h : parseBitstreamNaluLength cs k st (lengthPrefixed k (l.map fun x => escape x.rbsp)) = .ok (ns, st')) :
    ns.length = l.length ∧ ReportsUntil l ns ∧ ((∀ x ∈ l.zip ns, ¬ Rejected x.1 x.2) → HoldsFront d' st') := by
  have hb := hs.nal_bytes
  rw [lengthStream_eq cs k st _ hk0 hk ?_ hlen] at h
  · have hpl := lengthPlaces_nal k (l.map fun x => escape x.rbsp) 0
    obtain ⟨h1, h2, h3⟩ := front_all _ FrontParams.none (HoldsFront.none st) hr hs (fun x hx => Nat.lt_of_le_of_lt (length_le_escape _) (hl x hx).2) hpl h
    have h4 := congrArg List.length h1
    have h5 := congrArg List.length hpl
    simp only [List.length_map] at h4 h5
    exact ⟨h4.trans h5, h2, h3⟩
  · intro x hx
    simp only [List.mem_map] at hx
    obtain ⟨y, hy, rfl⟩ := hx
    exact ⟨(hb y hy).nonempty, (hl y hy).1⟩

/-! ### hypotheses met -/

/-- an SPS of the standard with HRD parameters the library misreads: fixed_pic_rate_general_flag is 1 -/
def exHrd : HrdParameters :=
  { nal_hrd_parameters_present_flag := 0, vcl_hrd_parameters_present_flag := 0, sub_pic_hrd_params_present_flag := 0, tick_divisor_minus2 := 0,
    du_cpb_removal_delay_increment_length_minus1 := 0, sub_pic_cpb_params_in_pic_timing_sei_flag := 0, dpb_output_delay_du_length_minus1 := 0, bit_rate_scale := 0,
    cpb_size_scale := 0, cpb_size_du_scale := 0, initial_cpb_removal_delay_length_minus1 := 23, au_cpb_removal_delay_length_minus1 := 23,
    dpb_output_delay_length_minus1 := 23,
    sub_layers := [{ fixed_pic_rate_general_flag := 1, fixed_pic_rate_within_cvs_flag := 1, elemental_duration_in_tc_minus1 := 3, low_delay_hrd_flag := 0,
                     cpb_cnt_minus1 := 1, nal_hrd := none, vcl_hrd := none }] }
def exVuiHrd : VuiParameters :=
  { (exSps.vui_parameters.getD default) with
    vui_timing_info_present_flag := 1, vui_num_units_in_tick := 1001, vui_time_scale := 30000, vui_poc_proportional_to_timing_flag := 0,
    vui_hrd_parameters_present_flag := 1, hrd_parameters := some exHrd, bitstream_restriction_flag := 0, tiles_fixed_structure_flag := 0,
    motion_vectors_over_pic_boundaries_flag := 0, restricted_ref_pic_lists_flag := 0, min_spatial_segmentation_idc := 0, max_bytes_per_pic_denom := 0,
    max_bits_per_min_cu_denom := 0, log2_max_mv_length_horizontal := 0, log2_max_mv_length_vertical := 0 }
def exSpsHrd : SpsBody := { exSps with vui_parameters := some exVuiHrd }

def exFront : List StdNal :=
  [exNal 32 (.vps exPtl exVps) (Std.vpsFront exPtl exVps) (exBytes.getD 0 []),
   exNal 33 (.sps exPtl exSpsHrd) (Std.spsFront exPtl exSpsHrd)
    [66, 1, 1, 1, 96, 0, 0, 0, 176, 0, 0, 0, 0, 0, 93, 160, 2, 128, 128, 46, 31, 19, 150, 187, 147, 36, 187, 149, 130, 131, 3, 2, 0, 0, 7, 210, 0, 0, 234, 96, 146, 34],
   exNal 34 (.pps exPps) (Std.ppsFront exPps.head) (exBytes.getD 2 []),
   exNal 1 (.slice exHead exSliceP default) (Std.sliceSegmentHeader 1 exPps exSpsHrd exHead exSliceP default) (exBytes.getD 4 [])]

/-- the second NAL unit is the complete SPS of the standard -/
example : Spec.nalUnitHeader ⟨0, 33, 0, 1⟩ ++ Std.sps exPtl exSpsHrd <+: bitsOf (exFront[1]'(by decide)).rbsp := by decide +kernel

theorem exSpsHrd_front : FrontSps exPtl exSpsHrd := by
  have h := exSps_conforms.front exSupportedPtl
  exact ⟨h.1, h.2, h.3⟩

theorem exSlicePHrd_conforms : ConformsSliceBody 1 exPps exSpsHrd 1 exSliceP := { exSliceP_conforms with }

theorem exFront_all : ∃ d, FrontAll .none exFront d := by
  refine ⟨_, .cons ?_ ?_ (.vps exPtl exVps rfl rfl (exVps_conforms.front exSupportedPtl) ?_) <|
    .cons ?_ ?_ (.sps exPtl exSpsHrd rfl rfl exSpsHrd_front ?_) <|
    .cons ?_ ?_ (.pps exPps rfl rfl exPps_conforms.head ?_) <|
    .cons ?_ ?_ (.slice exHead exSliceP default exPps exPtl exSpsHrd rfl (by decide) rfl rfl exHead_conformsP exSlicePHrd_conforms ?_) <| .nil _⟩
  all_goals first | decide +kernel | (constructor <;> decide)

/-- … parsed without undefined behaviour: the SPS is reported with its picture width (and wrong VUI parameters), and the slice with its picture order count -/
example : (parseBitstream false .empty (annexB ((List.replicate 4 true).zip (exFront.map fun x => escape x.rbsp)))).toOption.map
    (fun x => x.1.map fun n => (n.nal_unit_payload.sps.map fun s => (s.body.pic_width_in_luma_samples, decide (s.body.vui_parameters = some exVuiHrd)),
      n.nal_unit_payload.slice_segment_layer.map fun h => h.body.slice_pic_order_cnt_lsb)) =
    some [(none, none), (some (1280, false), none), (none, none), (none, some 1)] := by
  decide +kernel

end H265.Std
