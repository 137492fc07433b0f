/-
C59 - C62, C64: properties of whole streams: dropping NAL units, independence of the history, resending parameter sets, containers, options.
-/
import Verif.Spec.History
import Verif.Props.ConfigBox
import Verif.Props.NalLength
import Verif.Props.Stream

set_option autoImplicit false

namespace H265
open Spec

/-! ### The result of a list of NAL units does not depend on where they are -/

theorem contents_place (n : NalUnit) (off len : Nat) (h1 : n.offset = 0) (h2 : n.length = 0) : contents { n with offset := off, length := len } = n := by
  cases n; simp only [contents] at *; subst h1 h2; rfl

/-- the NAL units with their places removed -/
theorem parseAll_contents (cs : Bool) : ∀ (l : List (Nat × Nat × List UInt8)) (st : ParserState),
    (parseAll cs l st).map (fun x => (x.1.map contents, x.2)) = parseAll cs (l.map fun x => (0, 0, x.2.2)) st
  | [], st => rfl
  | (off, len, nal) :: rest, st => by
    simp only [List.map_cons, parseAll]
    cases hp : parseNalUnit cs st nal with
    | bad k => rfl
    | fail b => exact parseAll_contents cs rest st
    | ok x b =>
      obtain ⟨n, st1⟩ := x
      dsimp only
      rw [← parseAll_contents cs rest st1]
      cases parseAll cs rest st1 with
      | error k => rfl
      | ok y =>
        obtain ⟨rbsp, _, hn⟩ := parseNalUnit_ok hp
        simp only [Except.map, List.map_cons]
        rfl

/-- lists of the same NAL units give the same contents and the same state -/
theorem parseAll_same {cs : Bool} {l l' : List (Nat × Nat × List UInt8)} (h : l.map (·.2.2) = l'.map (·.2.2)) {st st' : ParserState} {ns : List NalUnit}
    (hp : parseAll cs l st = .ok (ns, st')) : ∃ ns', parseAll cs l' st = .ok (ns', st') ∧ ns'.map contents = ns.map contents := by
  have h1 := parseAll_contents cs l st
  have h2 := parseAll_contents cs l' st
  have he : (l.map fun x => ((0 : Nat), (0 : Nat), x.2.2)) = l'.map fun x => (0, 0, x.2.2) := by
    have := congrArg (List.map fun x : List UInt8 => ((0 : Nat), (0 : Nat), x)) h
    simpa [List.map_map, Function.comp_def] using this
  rw [he, ← h2, hp] at h1
  cases hq : parseAll cs l' st with
  | error k => rw [hq] at h1; cases h1
  | ok y =>
    obtain ⟨ns', s⟩ := y
    rw [hq] at h1
    simp only [Except.map, Except.ok.injEq, Prod.mk.injEq] at h1
    exact ⟨ns', by rw [h1.2], h1.1.symm⟩

/-! ### C59: dropping NAL units -/

theorem unesc_two (b0 b1 : UInt8) (rest : List UInt8) : ∃ r, unesc (b0 :: b1 :: rest) = b0 :: b1 :: r := by
  by_cases h : ∃ r, b0 :: b1 :: rest = 0 :: 0 :: 3 :: r
  · obtain ⟨r, hr⟩ := h
    simp only [List.cons.injEq] at hr
    obtain ⟨rfl, rfl, rfl⟩ := hr
    exact ⟨_, unesc_emu r⟩
  · rw [unesc_cons b0 _ h]
    by_cases h' : ∃ r, b1 :: rest = 0 :: 0 :: 3 :: r
    · obtain ⟨r, hr⟩ := h'
      simp only [List.cons.injEq] at hr
      obtain ⟨rfl, rfl⟩ := hr
      exact ⟨0 :: unesc r, by rw [unesc_emu]⟩
    · exact ⟨_, by rw [unesc_cons b1 _ h']⟩

/-- the header of a parsed NAL unit is that of its first two bytes -/
theorem header_of_parsed {cs : Bool} {st st' : ParserState} {data : List UInt8} {n : NalUnit} {b : BB} (h : parseNalUnit cs st data = .ok (n, st') b) :
    rawHeader data = some n.nal_unit_header := by
  obtain ⟨rbsp, hu, hp⟩ := parseNalUnit_ok h
  obtain ⟨b1, _, h1, _⟩ := hp.parts
  rw [unescapeRbsp_eq] at hu
  cases hu
  have hshort : ∀ d : List UInt8, (unesc d).length < 2 → data ≠ d := by
    rintro d hd rfl
    obtain ⟨e, he⟩ := header_run_short _ hd
    rw [he] at h1; cases h1
  match data, hshort with
  | [], hs => exact absurd rfl (hs [] (by decide))
  | [x], hs => exact absurd rfl (hs [x] (by simp [unesc]))
  | x :: y :: rest, _ =>
    obtain ⟨r, hr⟩ := unesc_two x y rest
    rw [hr] at h1
    obtain ⟨bb', h2, _⟩ := header_run x y r
    rw [h2] at h1
    simp only [Res.ok.injEq] at h1
    rw [← h1.1]; rfl

theorem parseAll_filter {cs : Bool} (keep : NalUnitHeader → Bool) (hk : ∀ h : NalUnitHeader, h.nal_unit_type ∈ [32, 33, 34] → keep h = true) :
    ∀ {l : List (Nat × Nat × List UInt8)} {st st' : ParserState} {ns : List NalUnit}, parseAll cs l st = .ok (ns, st') →
      parseAll cs (l.filter fun x => kept keep x.2.2) st = .ok (ns.filter fun n => keep n.nal_unit_header, st')
  | [], st, st', ns, h => by cases h; rfl
  | (off, len, nal) :: rest, st, st', ns, h => by
    simp only [parseAll] at h
    cases hp : parseNalUnit cs st nal with
    | bad k => rw [hp] at h; cases h
    | fail b =>
      rw [hp] at h
      have ih := parseAll_filter keep hk h
      by_cases hx : kept keep nal = true
      · rw [List.filter_cons_of_pos (by simpa using hx), parseAll, hp]; exact ih
      · rw [List.filter_cons_of_neg (by simpa using hx)]; exact ih
    | ok x b =>
      obtain ⟨n, st1⟩ := x
      rw [hp] at h
      dsimp only at h
      cases hr : parseAll cs rest st1 with
      | error k => rw [hr] at h; cases h
      | ok y =>
        obtain ⟨ms, st2⟩ := y
        rw [hr] at h
        cases h
        have ih := parseAll_filter keep hk hr
        have hh := header_of_parsed hp
        by_cases hx : keep n.nal_unit_header = true
        · rw [List.filter_cons_of_pos (by simpa [kept, hh] using hx), parseAll, hp]
          dsimp only
          rw [ih, List.filter_cons_of_pos (by simpa using hx)]
        · rw [List.filter_cons_of_neg (by simpa [kept, hh] using hx), List.filter_cons_of_neg (by simpa using hx)]
          have hst : st1 = st := (C22_nal_unit hp).2 (fun hm => hx (hk _ hm))
          rw [← hst]; exact ih

theorem nalPlaces_nals : ∀ (off : Nat) (us : List (Bool × List UInt8)), (nalPlaces off us).map (·.2.2) = us.map (·.2)
  | _, [] => rfl
  | off, (long, nal) :: us => by simp only [nalPlaces, List.map_cons, nalPlaces_nals _ us]

theorem lengthPlaces_nals (n : Nat) : ∀ (off : Nat) (us : List (List UInt8)), (lengthPlaces n off us).map (·.2.2) = us
  | _, [] => rfl
  | off, nal :: us => by simp only [lengthPlaces, List.map_cons, lengthPlaces_nals n _ us]

theorem map_filter_nals (f : List UInt8 → Bool) : ∀ (l : List (Nat × Nat × List UInt8)), (l.filter fun x => f x.2.2).map (·.2.2) = (l.map (·.2.2)).filter f
  | [] => rfl
  | x :: l => by
    simp only [List.map_cons, List.filter_cons]
    split <;> simp [map_filter_nals f l]

theorem annexB_length_filter (p : Bool × List UInt8 → Bool) (us : List (Bool × List UInt8)) : (annexB (us.filter p)).length ≤ (annexB us).length := by
  induction us with
  | nil => exact Nat.le_refl _
  | cons x us ih =>
    rw [List.filter_cons]
    split
    · simp only [annexB, List.map_cons, List.flatten_cons, List.length_append] at *; omega
    · simp only [annexB, List.map_cons, List.flatten_cons, List.length_append] at *; omega

/-! ### the stream of the unit tests, as NAL units -/

theorem nalBytes_of (n : List UInt8) (h1 : n ≠ []) (h2 : ∀ p ∈ List.range n.length, ((n.drop p).take 3) ≠ [0, 0, 1]) (h3 : n.getLast? ≠ some 0) : NalBytes n := by
  refine ⟨h1, ?_, h3⟩
  rintro ⟨a, b, hab⟩
  refine h2 a.length ?_ ?_
  · rw [List.mem_range, ← hab]; simp only [List.length_append, List.length_cons]; omega
  · rw [← hab]; simp

/-- the NAL units of `testStream`: VPS, SPS, PPS, IDR slice -/
def testUnits : List (Bool × List UInt8) :=
  [(true, [0x40, 0x01, 0x0c, 0x01, 0xff, 0xff, 0x01, 0x60, 0x00, 0x00, 0x03, 0x00, 0xb0, 0x00, 0x00, 0x03, 0x00, 0x00, 0x03, 0x00, 0x5d, 0xac, 0x59]),
    (true, 0x42 :: 0x01 :: testSps), (true, [0x44, 0x01, 0xc0, 0xf3, 0xc0, 0x02, 0x10]), (true, 0x26 :: 0x01 :: testSlice)]

theorem testUnits_stream : annexB testUnits = testStream := by decide +kernel

theorem testUnits_ok : ∀ x ∈ testUnits, NalBytes x.2 := by
  intro x hx
  simp only [testUnits, List.mem_cons, List.not_mem_nil, or_false] at hx
  rcases hx with rfl | rfl | rfl | rfl <;> exact nalBytes_of _ (by decide) (by decide) (by decide)

/-- C59: removing NAL units that are not parameter sets from a byte stream, whichever are chosen by their headers (by type, layer or temporal id), removes
exactly these from the result and changes no other, nor the parser state. -/
theorem C59_drop_annexB (cs : Bool) (st st' : ParserState) (keep : NalUnitHeader → Bool)
    (hk : ∀ h : NalUnitHeader, h.nal_unit_type ∈ [32, 33, 34] → keep h = true) (units : List (Bool × List UInt8)) (hu : ∀ x ∈ units, NalBytes x.2)
    (hlen : (annexB units).length < 2 ^ 64) {ns : List NalUnit} (h : parseBitstream cs st (annexB units) = .ok (ns, st')) :
    ∃ ns', parseBitstream cs st (annexB (units.filter fun x => kept keep x.2)) = .ok (ns', st') ∧
      ns'.map contents = (ns.filter fun n => keep n.nal_unit_header).map contents := by
  rw [C25_annexB cs st units hu hlen] at h
  rw [C25_annexB cs st _ (fun x hx => hu x (List.mem_filter.1 hx).1) (Nat.lt_of_le_of_lt (annexB_length_filter _ _) hlen)]
  have h1 := parseAll_filter keep hk h
  refine parseAll_same ?_ h1
  rw [map_filter_nals (kept keep), nalPlaces_nals, nalPlaces_nals, List.filter_map]
  rfl

/-- hypotheses met: dropping the slice of the test stream, which is parsed without undefined behaviour; three of the four NAL units stay -/
example : (∀ h : NalUnitHeader, h.nal_unit_type ∈ [32, 33, 34] → decide (32 ≤ h.nal_unit_type) = true) ∧ (∀ x ∈ testUnits, NalBytes x.2) ∧
    (parseBitstream true .empty (annexB testUnits)).toOption.map (fun x => x.1.map (·.nal_unit_header.nal_unit_type)) = some [32, 33, 34, 19] ∧
    (parseBitstream true .empty (annexB (testUnits.filter fun x => kept (fun h => decide (32 ≤ h.nal_unit_type)) x.2))).toOption.map
      (fun x => x.1.map (·.nal_unit_header.nal_unit_type)) = some [32, 33, 34] :=
  ⟨fun h hh => by simp only [List.mem_cons, List.not_mem_nil, or_false] at hh; simp only [decide_eq_true_eq]; omega, testUnits_ok, by decide +kernel, by decide +kernel⟩

theorem lengthPrefixed_length_filter (n : Nat) (p : List UInt8 → Bool) (us : List (List UInt8)) :
    (lengthPrefixed n (us.filter p)).length ≤ (lengthPrefixed n us).length := by
  induction us with
  | nil => exact Nat.le_refl _
  | cons x us ih =>
    rw [List.filter_cons]
    split
    · simp only [lengthPrefixed, List.map_cons, List.flatten_cons, List.length_append] at *; omega
    · simp only [lengthPrefixed, List.map_cons, List.flatten_cons, List.length_append] at *; omega

/-- units with length fields and nothing behind them -/
theorem lengthStream_eq (cs : Bool) (n : Nat) (st : ParserState) (units : List (List UInt8)) (hn0 : 0 < n) (hn : n ≤ 7)
    (hu : ∀ x ∈ units, x ≠ [] ∧ x.length < 256 ^ n) (hlen : (lengthPrefixed n units).length < 2 ^ 63) :
    parseBitstreamNaluLength cs n st (lengthPrefixed n units) = parseAll cs (lengthPlaces n 0 units) st := by
  have := C15_units cs n st units [] hn0 hn hu (.stop (Or.inl (by simp; omega))) (by simpa using hlen)
  simpa using this

/-- C59 for streams with length fields -/
theorem C59_drop_length (cs : Bool) (n : Nat) (st st' : ParserState) (keep : NalUnitHeader → Bool)
    (hk : ∀ h : NalUnitHeader, h.nal_unit_type ∈ [32, 33, 34] → keep h = true) (units : List (List UInt8)) (hn0 : 0 < n) (hn : n ≤ 7)
    (hu : ∀ x ∈ units, x ≠ [] ∧ x.length < 256 ^ n) (hlen : (lengthPrefixed n units).length < 2 ^ 63) {ns : List NalUnit}
    (h : parseBitstreamNaluLength cs n st (lengthPrefixed n units) = .ok (ns, st')) :
    ∃ ns', parseBitstreamNaluLength cs n st (lengthPrefixed n (units.filter (kept keep))) = .ok (ns', st') ∧
      ns'.map contents = (ns.filter fun n => keep n.nal_unit_header).map contents := by
  rw [lengthStream_eq cs n st units hn0 hn hu hlen] at h
  rw [lengthStream_eq cs n st _ hn0 hn (fun x hx => hu x (List.mem_filter.1 hx).1) (Nat.lt_of_le_of_lt (lengthPrefixed_length_filter _ _ _) hlen)]
  have h1 := parseAll_filter keep hk h
  refine parseAll_same ?_ h1
  rw [map_filter_nals (kept keep), lengthPlaces_nals, lengthPlaces_nals]

/-! ### C60: knowing more parameter sets, and streams that bring their own -/

theorem slice_more {t : Nat} {a b : ParserState} (hk : Knows a b) {bb bb' : BB} {h : SliceSegmentHeader}
    (hr : (parseSliceSegmentLayer t a.pps a.sps).run bb = .ok h bb') : (parseSliceSegmentLayer t b.pps b.sps).run bb = .ok h bb' := by
  unfold parseSliceSegmentLayer at hr ⊢
  obtain ⟨P, S, bb1, hn, ht, h1, h2⟩ := slice_ok hr
  rw [slice_run h1 ⟨hk.pps _ _ hn.1, hk.sps _ _ hn.2⟩, h2]
  obtain ⟨t', hd, bd⟩ := h
  simp only at ht
  subst ht
  rfl

theorem returned_run {α : Type} {p : Prog α} {bb bb' : BB} {o : Option α} (h : Returned p bb o bb') : p.attempt.run bb = .ok o bb' := by
  rw [Prog.run_attempt]
  cases o with
  | some x => have h : p.run bb = .ok x bb' := h
              rw [h]
  | none => have h : p.run bb = .fail bb' := h
            rw [h]

/-- what a payload leaves in the state -/
def effect (st : ParserState) (p : NalUnitPayload) : ParserState :=
  ⟨match p.vps with | some x => mapSet st.vps x.body.vps_video_parameter_set_id x | none => st.vps,
   match p.sps with | some x => mapSet st.sps x.body.sps_seq_parameter_set_id x | none => st.sps,
   match p.pps with | some x => mapSet st.pps x.body.head.pps_pic_parameter_set_id x | none => st.pps⟩

theorem payload_effect_eq {t : Nat} {st st' : ParserState} {bb bb' : BB} {p : NalUnitPayload} (h : (parseNalUnitPayload t st).run bb = .ok (p, st') bb') :
    st' = effect st p := by
  obtain ⟨h1, h2, h3⟩ := payload_effect h
  cases st'
  simp only at h1 h2 h3
  simp only [effect, ParserState.mk.injEq]
  exact ⟨h1, h2, h3⟩

theorem payload_more {t : Nat} {a b a' : ParserState} (hk : Knows a b) {bb bb' : BB} {p : NalUnitPayload}
    (hr : (parseNalUnitPayload t a).run bb = .ok (p, a') bb') (hs : isSliceSegment t = true → p.slice_segment_layer ≠ none) :
    (parseNalUnitPayload t b).run bb = .ok (p, effect b p) bb' := by
  have key : ∃ b', (parseNalUnitPayload t b).run bb = .ok (p, b') bb' := by
    rw [parseNalUnitPayload_eq] at hr ⊢
    by_cases h1 : sliceType t
    · rw [if_pos h1] at hr ⊢
      obtain ⟨o, ho, he⟩ := attempt_ok hr
      cases he
      cases o with
      | none => exact absurd rfl (hs ((sliceType_iff t).mp h1))
      | some h => exact ⟨b, by rw [Prog.bind_of_ok (returned_run (o := some h) (slice_more hk ho))]; rfl⟩
    rw [if_neg h1] at hr ⊢
    by_cases h2 : t = 32
    · rw [if_pos h2] at hr ⊢
      obtain ⟨o, ho, he⟩ := attempt_ok hr
      refine ⟨(vpsOut b o).2, ?_⟩
      rw [Prog.bind_of_ok (returned_run ho), show p = (vpsOut a o).1 from congrArg Prod.fst he]
      cases o <;> rfl
    rw [if_neg h2] at hr ⊢
    by_cases h3 : t = 33
    · rw [if_pos h3] at hr ⊢
      obtain ⟨o, ho, he⟩ := attempt_ok hr
      refine ⟨(spsOut b o).2, ?_⟩
      rw [Prog.bind_of_ok (returned_run ho), show p = (spsOut a o).1 from congrArg Prod.fst he]
      cases o <;> rfl
    rw [if_neg h3] at hr ⊢
    by_cases h4 : t = 34
    · rw [if_pos h4] at hr ⊢
      obtain ⟨o, ho, he⟩ := attempt_ok hr
      refine ⟨(ppsOut b o).2, ?_⟩
      rw [Prog.bind_of_ok (returned_run ho), show p = (ppsOut a o).1 from congrArg Prod.fst he]
      cases o <;> rfl
    rw [if_neg h4] at hr ⊢
    by_cases h5 : t = 35
    · rw [if_pos h5] at hr ⊢
      obtain ⟨o, ho, he⟩ := attempt_ok hr
      cases he
      exact ⟨b, by rw [Prog.bind_of_ok (returned_run ho)]; rfl⟩
    rw [if_neg h5] at hr ⊢
    by_cases h6 : t = 39 ∨ t = 40
    · rw [if_pos h6] at hr ⊢
      obtain ⟨o, ho, he⟩ := attempt_ok hr
      cases he
      exact ⟨b, by rw [Prog.bind_of_ok (returned_run ho)]; rfl⟩
    rw [if_neg h6] at hr ⊢
    cases hr
    exact ⟨b, rfl⟩
  obtain ⟨b', hb⟩ := key
  rw [hb, payload_effect_eq hb]

/-- the parts of a NAL unit in a state that knows more -/
theorem nal_more {cs : Bool} {a b a' : ParserState} (hk : Knows a b) {data : List UInt8} {n : NalUnit} {e : BB} (h : parseNalUnit cs a data = .ok (n, a') e)
    (hs : isSliceSegment n.nal_unit_header.nal_unit_type = true → n.nal_unit_payload.slice_segment_layer ≠ none) :
    a' = effect a n.nal_unit_payload ∧ parseNalUnit cs b data = .ok (n, effect b n.nal_unit_payload) e := by
  obtain ⟨rbsp, hu, hle⟩ := C11_unescape_bounds data
  by_cases hlen : rbsp.length < 2 ^ 32
  · rw [parseNalUnit_eq cs a data rbsp hu hlen] at h
    rw [parseNalUnit_eq cs b data rbsp hu hlen]
    cases hr : (parseNalUnitParts a).run (BB.init rbsp) with
    | fail x => rw [hr] at h; cases h
    | bad k => rw [hr] at h; cases h
    | ok x e' =>
      obtain ⟨hd, p, st'⟩ := x
      rw [hr] at h
      obtain ⟨b1, h1, h2⟩ := parts_ok hr
      cases h
      have h3 := payload_more hk h2 hs
      refine ⟨payload_effect_eq h2, ?_⟩
      have h4 : (parseNalUnitParts b).run (BB.init rbsp) = .ok (hd, p, effect b p) e := by
        unfold parseNalUnitParts
        rw [Prog.run_seq, h1]
        simp only [Res.andThen]
        rw [Prog.run_seq, h3]
        rfl
      rw [h4]
  · unfold parseNalUnit parseNalUnitUnescaped at h
    rw [hu] at h
    dsimp only at h
    rw [if_neg (by omega)] at h
    cases h

theorem Spec.Knows.effect {a b : ParserState} (hk : Knows a b) (p : NalUnitPayload) : Knows (effect a p) (effect b p) := by
  constructor
  · intro i S h
    unfold H265.effect at h ⊢
    cases hp : p.sps with
    | none => rw [hp] at h; exact hk.sps i S h
    | some x =>
      rw [hp] at h
      simp only [mapSet] at h ⊢
      split
      · next hi => rw [if_pos hi] at h; exact h
      · next hi => rw [if_neg hi] at h; exact hk.sps i S h
  · intro i S h
    unfold H265.effect at h ⊢
    cases hp : p.pps with
    | none => rw [hp] at h; exact hk.pps i S h
    | some x =>
      rw [hp] at h
      simp only [mapSet] at h ⊢
      split
      · next hi => rw [if_pos hi] at h; exact h
      · next hi => rw [if_neg hi] at h; exact hk.pps i S h

theorem Spec.Knows.refl (a : ParserState) : Knows a a := ⟨fun _ _ h => h, fun _ _ h => h⟩
theorem Spec.Knows.empty (a : ParserState) : Knows .empty a := ⟨fun _ _ h => (by cases h), fun _ _ h => (by cases h)⟩

/-- C60: a NAL unit that is no slice, or a slice whose header was parsed, is parsed to the same result in every state that holds the parameter sets of the
first and any others. -/
theorem C60_nal_unit {cs : Bool} {a b a' : ParserState} (hk : Knows a b) {data : List UInt8} {n : NalUnit} {e : BB} (h : parseNalUnit cs a data = .ok (n, a') e)
    (hs : isSliceSegment n.nal_unit_header.nal_unit_type = true → n.nal_unit_payload.slice_segment_layer ≠ none) :
    ∃ b', parseNalUnit cs b data = .ok (n, b') e ∧ Knows a' b' := by
  obtain ⟨h1, h2⟩ := nal_more hk h hs
  exact ⟨_, h2, h1 ▸ hk.effect _⟩

theorem parseAll_more {cs : Bool} : ∀ {l : List (Nat × Nat × List UInt8)} {a b a' : ParserState} {ns : List NalUnit}, Knows a b →
    parseAll cs l a = .ok (ns, a') → AllHeaders ns → ∃ b', parseAll cs l b = .ok (ns, b') ∧ Knows a' b'
  | [], a, b, a', ns, hk, h, _ => by cases h; exact ⟨b, rfl, hk⟩
  | (off, len, nal) :: rest, a, b, a', ns, hk, h, hs => by
    simp only [parseAll] at h ⊢
    cases hp : parseNalUnit cs a nal with
    | bad k => rw [hp] at h; cases h
    | fail e =>
      rw [hp] at h
      obtain ⟨rbsp, hu, _⟩ := C11_unescape_bounds nal
      obtain ⟨e', he⟩ := (C22_dropped_iff (cs := cs) (st := b) hu).mpr ((C22_dropped_iff hu).mp ⟨e, hp⟩)
      rw [he]
      exact parseAll_more hk h hs
    | ok x e =>
      obtain ⟨n, a1⟩ := x
      rw [hp] at h
      dsimp only at h
      cases hr : parseAll cs rest a1 with
      | error k => rw [hr] at h; cases h
      | ok y =>
        obtain ⟨ms, a2⟩ := y
        rw [hr] at h
        cases h
        obtain ⟨b1, h1, h2⟩ := C60_nal_unit hk hp (hs { n with offset := off, length := len } List.mem_cons_self)
        obtain ⟨b2, h3, h4⟩ := parseAll_more h2 hr (fun m hm => hs m (by simp [hm]))
        rw [h1]
        dsimp only
        rw [h3]
        exact ⟨b2, rfl, h4⟩

/-- C60: a stream all of whose slice headers are parsed starting with a new parser state (it brings its own parameter sets before they are used) is parsed
to the same NAL units whatever was parsed before with the same parser state; afterwards the state holds the parameter sets of the stream, and for
other ids what it held before. -/
theorem C60_self_contained {cs : Bool} {st1 : ParserState} {data : List UInt8} {ns : List NalUnit} (hlen : data.length < 2 ^ 64)
    (h : parseBitstream cs .empty data = .ok (ns, st1)) (hs : AllHeaders ns) (st : ParserState) :
    parseBitstream cs st data = .ok (ns, overlay st1 st) := by
  have h' := h
  rw [parseBitstream_eq cs _ data hlen] at h'
  obtain ⟨b, h1, _⟩ := parseAll_more (Knows.empty st) h' hs
  rw [← parseBitstream_eq cs _ data hlen] at h1
  rw [h1]
  have e1 := fun i => C21_bitstream hlen h i
  have e2 := fun i => C21_bitstream hlen h1 i
  have hb : b = overlay st1 st := by
    obtain ⟨v, s, p⟩ := b
    simp only [overlay, ParserState.mk.injEq]
    refine ⟨funext fun i => ?_, funext fun i => ?_, funext fun i => ?_⟩
    · have e2 := (e2 i).1
      have e1 := (e1 i).1
      simp only [ParserState.empty, Option.or_none] at e1 e2
      rw [e2, e1]
    · have e2 := (e2 i).2.1
      have e1 := (e1 i).2.1
      simp only [ParserState.empty, Option.or_none] at e1 e2
      rw [e2, e1]
    · have e2 := (e2 i).2.2
      have e1 := (e1 i).2.2
      simp only [ParserState.empty, Option.or_none] at e1 e2
      rw [e2, e1]
  rw [hb]

/-- C60: the same for streams with length fields -/
theorem C60_self_contained_length {cs : Bool} {n : Nat} {st1 : ParserState} {data : List UInt8} {ns : List NalUnit} (hn0 : 0 < n) (hn : n ≤ 7)
    (hlen : data.length < 2 ^ 63) (h : parseBitstreamNaluLength cs n .empty data = .ok (ns, st1)) (hs : AllHeaders ns) (st : ParserState) :
    parseBitstreamNaluLength cs n st data = .ok (ns, overlay st1 st) := by
  obtain ⟨l, hf, h0⟩ := C15_length_framing cs n .empty data hn0 hn hlen
  obtain ⟨l', hf', h0'⟩ := C15_length_framing cs n st data hn0 hn hlen
  obtain rfl := FramedBy.unique hf hf'
  rw [h0] at h
  rw [h0']
  obtain ⟨b, h1, _⟩ := parseAll_more (Knows.empty st) h hs
  rw [h1]
  have e1 := fun i => C21_latest (parseAll_steps h) i
  have e2 := fun i => C21_latest (parseAll_steps h1) i
  have hb : b = overlay st1 st := by
    obtain ⟨v, s, p⟩ := b
    simp only [overlay, ParserState.mk.injEq]
    refine ⟨funext fun i => ?_, funext fun i => ?_, funext fun i => ?_⟩
    · have e2 := (e2 i).1
      have e1 := (e1 i).1
      simp only [ParserState.empty, Option.or_none] at e1 e2
      rw [e2, e1]
    · have e2 := (e2 i).2.1
      have e1 := (e1 i).2.1
      simp only [ParserState.empty, Option.or_none] at e1 e2
      rw [e2, e1]
    · have e2 := (e2 i).2.2
      have e1 := (e1 i).2.2
      simp only [ParserState.empty, Option.or_none] at e1 e2
      rw [e2, e1]
  rw [hb]

/-- hypotheses met: the stream of the unit tests brings its own parameter sets -/
example : (match parseBitstream true .empty testStream with
    | .ok (ns, _) => ns.length == 4 && ns.all fun n => !isSliceSegment n.nal_unit_header.nal_unit_type || n.nal_unit_payload.slice_segment_layer.isSome
    | .error _ => false) = true := by decide +kernel

/-- and the hypothesis is needed: a slice alone gives nothing in a new state, and its header in one that has the parameter sets -/
theorem C60_needs_parameter_sets : ¬ ∀ (data : List UInt8) (ns : List NalUnit) (st1 st : ParserState), data.length < 2 ^ 64 →
    parseBitstream false .empty data = .ok (ns, st1) → parseBitstream false st data = .ok (ns, overlay st1 st) := by
  intro hall
  have hrun : ∃ st, ∃ ns, parseBitstream false .empty testStream = .ok (ns, st) := by
    cases h : parseBitstream false .empty testStream with
    | ok x => exact ⟨x.2, x.1, rfl⟩
    | error k =>
      exfalso
      have : ((parseBitstream false .empty testStream).toOption.isSome) = true := by decide +kernel
      rw [h] at this; cases this
  obtain ⟨st, ns, hst⟩ := hrun
  have h0 : ∃ x, parseBitstream false .empty ([0, 0, 0, 1, 0x26, 0x01] ++ testSlice) = .ok x := by
    cases h : parseBitstream false .empty ([0, 0, 0, 1, 0x26, 0x01] ++ testSlice) with
    | ok x => exact ⟨x, rfl⟩
    | error k =>
      exfalso
      have : ((parseBitstream false .empty ([0, 0, 0, 1, 0x26, 0x01] ++ testSlice)).toOption.isSome) = true := by decide +kernel
      rw [h] at this; cases this
  obtain ⟨⟨ms, s1⟩, h0⟩ := h0
  have h1 := hall _ ms s1 st (by decide) h0
  have e0 : ((parseBitstream false .empty ([0, 0, 0, 1, 0x26, 0x01] ++ testSlice)).toOption.map fun x =>
      x.1.map fun n => n.nal_unit_payload.slice_segment_layer.isSome) = some [false] := by decide +kernel
  have e1 : ((parseBitstream false .empty testStream).bind fun x => parseBitstream false x.2 ([0, 0, 0, 1, 0x26, 0x01] ++ testSlice)).toOption.map (fun x =>
      x.1.map fun n => n.nal_unit_payload.slice_segment_layer.isSome) = some [true] := by decide +kernel
  rw [h0] at e0
  rw [hst] at e1
  simp only [Except.bind, h1] at e1
  simp only [Except.toOption, Option.map_some] at e0 e1
  rw [e0] at e1
  cases e1

/-! ### C61: sending a NAL unit again -/

theorem mapSet_same {α : Type} {m : Nat → Option α} {i : Nat} {a : α} (h : m i = some a) : mapSet m i a = m := by
  funext j
  unfold mapSet
  split
  · next hj => rw [hj, h]
  · rfl

theorem effect_current {st : ParserState} {p : NalUnitPayload} (h : Current st p) : effect st p = st := by
  obtain ⟨v, s, q⟩ := st
  obtain ⟨h1, h2, h3⟩ := h
  simp only [effect, ParserState.mk.injEq]
  refine ⟨?_, ?_, ?_⟩
  · cases hp : p.vps with
    | none => rfl
    | some x => exact mapSet_same (h1 x hp)
  · cases hp : p.sps with
    | none => rfl
    | some x => exact mapSet_same (h2 x hp)
  · cases hp : p.pps with
    | none => rfl
    | some x => exact mapSet_same (h3 x hp)

theorem current_effect (st : ParserState) (p : NalUnitPayload) : Current (effect st p) p := by
  constructor <;> intro x hx <;> simp only [effect, hx, mapSet, if_true]

/-- a NAL unit that is no slice is parsed to the same result in every state -/
theorem nal_any_state {cs : Bool} {a b a' : ParserState} {data : List UInt8} {n : NalUnit} {e : BB} (h : parseNalUnit cs a data = .ok (n, a') e)
    (ht : isSliceSegment n.nal_unit_header.nal_unit_type = false) : parseNalUnit cs b data = .ok (n, effect b n.nal_unit_payload) e := by
  -- the state `a` is only used for slices
  obtain ⟨rbsp, hu, hle⟩ := C11_unescape_bounds data
  have hns : ¬ sliceType n.nal_unit_header.nal_unit_type := fun h => by rw [(sliceType_iff _).mp h] at ht; cases ht
  have h0 : parseNalUnit cs .empty data = .ok (n, effect .empty n.nal_unit_payload) e := by
    by_cases hlen : rbsp.length < 2 ^ 32
    · rw [parseNalUnit_eq cs a data rbsp hu hlen] at h
      rw [parseNalUnit_eq cs .empty data rbsp hu hlen]
      cases hr : (parseNalUnitParts a).run (BB.init rbsp) with
      | fail x => rw [hr] at h; cases h
      | bad k => rw [hr] at h; cases h
      | ok x e' =>
        obtain ⟨hd, p, st'⟩ := x
        rw [hr] at h
        obtain ⟨b1, h1, h2⟩ := parts_ok hr
        cases h
        -- the same state without the parameter sets slices use
        have h3 : (parseNalUnitPayload hd.nal_unit_type .empty).run b1 = .ok (p, effect .empty p) e := by
          have key : ∃ b', (parseNalUnitPayload hd.nal_unit_type .empty).run b1 = .ok (p, b') e := by
            cases payload_cases h2 with
            | slice o h3 => exact absurd h3 hns
            | vps o h3 h4 =>
              refine ⟨(vpsOut .empty o).2, ?_⟩
              rw [parseNalUnitPayload_eq, if_neg hns, if_pos h3, Prog.bind_of_ok (returned_run h4)]
              cases o <;> rfl
            | sps o h3 h4 =>
              refine ⟨(spsOut .empty o).2, ?_⟩
              rw [parseNalUnitPayload_eq, if_neg hns, if_neg (by omega), if_pos h3, Prog.bind_of_ok (returned_run h4)]
              cases o <;> rfl
            | pps o h3 h4 =>
              refine ⟨(ppsOut .empty o).2, ?_⟩
              rw [parseNalUnitPayload_eq, if_neg hns, if_neg (by omega), if_neg (by omega), if_pos h3, Prog.bind_of_ok (returned_run h4)]
              cases o <;> rfl
            | aud o h3 h4 =>
              refine ⟨.empty, ?_⟩
              rw [parseNalUnitPayload_eq, if_neg hns, if_neg (by omega), if_neg (by omega), if_neg (by omega), if_pos h3, Prog.bind_of_ok (returned_run h4)]
              rfl
            | sei o h3 h4 =>
              refine ⟨.empty, ?_⟩
              rw [parseNalUnitPayload_eq, if_neg hns, if_neg (by omega), if_neg (by omega), if_neg (by omega), if_neg (by omega), if_pos h3,
                Prog.bind_of_ok (returned_run h4)]
              rfl
            | other h3 h4 h5 =>
              simp only [List.mem_cons, List.not_mem_nil, or_false, not_or] at h4
              refine ⟨.empty, ?_⟩
              rw [parseNalUnitPayload_eq, if_neg hns, if_neg (by omega), if_neg (by omega), if_neg (by omega), if_neg (by omega), if_neg (by omega), h5]
              rfl
          obtain ⟨b', hb⟩ := key
          rw [hb, payload_effect_eq hb]
        have h4 : (parseNalUnitParts .empty).run (BB.init rbsp) = .ok (hd, p, effect .empty p) e := by
          unfold parseNalUnitParts
          rw [Prog.run_seq, h1]
          simp only [Res.andThen]
          rw [Prog.run_seq, h3]
          rfl
        rw [h4]
    · unfold parseNalUnit parseNalUnitUnescaped at h
      rw [hu] at h
      dsimp only at h
      rw [if_neg (by omega)] at h
      cases h
  exact (nal_more (Knows.empty b) h0 (fun h => by rw [ht] at h; cases h)).2

/-- C61: parsing a NAL unit that is no slice again, at any later time, gives the same result, and leaves the state as it is if the parameter set it
carries has not been replaced by another in the meantime. -/
theorem C61_again {cs : Bool} {a a' : ParserState} {data : List UInt8} {n : NalUnit} {e : BB} (h : parseNalUnit cs a data = .ok (n, a') e)
    (ht : isSliceSegment n.nal_unit_header.nal_unit_type = false) :
    Current a' n.nal_unit_payload ∧ ∀ st, (∃ st', parseNalUnit cs st data = .ok (n, st') e) ∧
      (Current st n.nal_unit_payload → parseNalUnit cs st data = .ok (n, st) e) := by
  have h1 := nal_any_state (b := a) h ht
  rw [h] at h1
  simp only [Res.ok.injEq, Prod.mk.injEq, true_and, and_true] at h1
  refine ⟨h1 ▸ current_effect a _, fun st => ⟨⟨_, nal_any_state h ht⟩, fun hc => ?_⟩⟩
  rw [nal_any_state (b := st) h ht, effect_current hc]

theorem parseAll_resend {cs : Bool} {st sa st' : ParserState} {la lb : List (Nat × Nat × List UInt8)} {na ns : List NalUnit} {off len : Nat} {nal : List UInt8}
    {n : NalUnit} {e : BB} (ha : parseAll cs la st = .ok (na, sa)) (hab : parseAll cs (la ++ lb) st = .ok (ns, st'))
    (hp : parseNalUnit cs sa nal = .ok (n, sa) e) :
    ∃ nb, ns = na ++ nb ∧ parseAll cs (la ++ (off, len, nal) :: lb) st = .ok (na ++ { n with offset := off, length := len } :: nb, st') := by
  rw [parseAll_append, ha] at hab ⊢
  simp only [Except.bind] at hab ⊢
  cases hb : parseAll cs lb sa with
  | error k => rw [hb] at hab; cases hab
  | ok y =>
    obtain ⟨nb, sb⟩ := y
    rw [hb] at hab
    cases hab
    refine ⟨nb, rfl, ?_⟩
    simp only [parseAll, hp, hb]

/-- C61: sending a parameter set (or any other NAL unit that is no slice) again inside a stream: if it is the current one there, the rest of the stream is
parsed as without it. -/
theorem C61_resend_annexB (cs : Bool) {st sa st' sp : ParserState} (a b : List (Bool × List UInt8)) (long : Bool) (nal : List UInt8)
    (hu : ∀ x ∈ a ++ (long, nal) :: b, NalBytes x.2) (hlen : (annexB (a ++ (long, nal) :: b)).length < 2 ^ 64) {na ns : List NalUnit} {n : NalUnit} {e : BB}
    (ha : parseBitstream cs st (annexB a) = .ok (na, sa)) (hab : parseBitstream cs st (annexB (a ++ b)) = .ok (ns, st'))
    (hp : parseNalUnit cs sa nal = .ok (n, sp) e) (ht : isSliceSegment n.nal_unit_header.nal_unit_type = false) (hc : Current sa n.nal_unit_payload) :
    ∃ ns', parseBitstream cs st (annexB (a ++ (long, nal) :: b)) = .ok (ns', st') ∧
      ns'.map contents = (ns.take na.length ++ [n] ++ ns.drop na.length).map contents := by
  have hab' : ∀ x ∈ a ++ b, NalBytes x.2 := by
    intro x hx
    refine hu x ?_
    rcases List.mem_append.1 hx with h | h
    · exact List.mem_append.2 (.inl h)
    · exact List.mem_append.2 (.inr (List.mem_cons_of_mem _ h))
  have hl : (annexB (a ++ b)).length ≤ (annexB (a ++ (long, nal) :: b)).length := by
    simp only [annexB, List.map_append, List.map_cons, List.flatten_append, List.flatten_cons, List.length_append]; omega
  have hl' : (annexB a).length ≤ (annexB (a ++ (long, nal) :: b)).length := by
    simp only [annexB, List.map_append, List.map_cons, List.flatten_append, List.flatten_cons, List.length_append]; omega
  rw [C25_annexB cs st a (fun x hx => hu x (List.mem_append.2 (.inl hx))) (by omega)] at ha
  rw [C25_annexB cs st _ hab' (by omega)] at hab
  rw [C25_annexB cs st _ hu hlen]
  have hp' := ((C61_again hp ht).2 sa).2 hc
  -- the places do not matter
  have place : ∀ (us : List (Bool × List UInt8)), ∃ l : List (Nat × Nat × List UInt8), l = us.map (fun x => (0, 0, x.2)) ∧ l.map (·.2.2) = us.map (·.2) :=
    fun us => ⟨_, rfl, by simp [List.map_map, Function.comp_def]⟩
  obtain ⟨la, hla, ea⟩ := place a
  obtain ⟨lb, hlb, eb⟩ := place b
  obtain ⟨na1, ha1, ca1⟩ := parseAll_same (l' := la) (by rw [nalPlaces_nals, ea]) ha
  obtain ⟨ns1, hab1, cab1⟩ := parseAll_same (l' := la ++ lb) (by rw [nalPlaces_nals, List.map_append, List.map_append, ea, eb]) hab
  obtain ⟨nb1, e1, h1⟩ := parseAll_resend (off := 0) (len := 0) ha1 hab1 hp'
  obtain ⟨ns', h2, c2⟩ := parseAll_same (l' := nalPlaces 0 (a ++ (long, nal) :: b))
    (by rw [nalPlaces_nals, List.map_append, List.map_append, List.map_cons, List.map_cons, ea, eb]) h1
  refine ⟨ns', h2, ?_⟩
  have hlen1 : na1.length = na.length := by simpa using congrArg List.length ca1
  have ht1 : (ns.take na.length).map contents = na1.map contents := by
    rw [List.map_take, ← cab1, e1, List.map_append, List.take_left' (by simpa using hlen1)]
  have ht2 : (ns.drop na.length).map contents = nb1.map contents := by
    rw [List.map_drop, ← cab1, e1, List.map_append, List.drop_left' (by simpa using hlen1)]
  rw [c2, List.map_append, List.map_append, List.map_append, ht1, ht2]
  simp [contents]

/-- the parameter sets of a parsed NAL unit are of its type -/
theorem payload_type {cs : Bool} {st st' : ParserState} {data : List UInt8} {n : NalUnit} {b : BB} (h : parseNalUnit cs st data = .ok (n, st') b) :
    st' = effect st n.nal_unit_payload ∧ (∀ x, n.nal_unit_payload.vps = some x → n.nal_unit_header.nal_unit_type = 32) ∧
      (∀ x, n.nal_unit_payload.sps = some x → n.nal_unit_header.nal_unit_type = 33) ∧ (∀ x, n.nal_unit_payload.pps = some x → n.nal_unit_header.nal_unit_type = 34) := by
  obtain ⟨rbsp, _, hp⟩ := parseNalUnit_ok h
  obtain ⟨b1, b2, _, h2, _⟩ := hp.parts
  refine ⟨payload_effect_eq h2, ?_⟩
  generalize n.nal_unit_payload = p at h2 ⊢
  generalize n.nal_unit_header.nal_unit_type = t at h2 ⊢
  cases payload_cases h2 with
  | vps o => cases o <;> refine ⟨fun x hx => ?_, fun x hx => ?_, fun x hx => ?_⟩ <;> first | rfl | assumption | (cases hx; done)
  | sps o => cases o <;> refine ⟨fun x hx => ?_, fun x hx => ?_, fun x hx => ?_⟩ <;> first | rfl | assumption | (cases hx; done)
  | pps o => cases o <;> refine ⟨fun x hx => ?_, fun x hx => ?_, fun x hx => ?_⟩ <;> first | rfl | assumption | (cases hx; done)
  | _ => refine ⟨fun x hx => ?_, fun x hx => ?_, fun x hx => ?_⟩ <;> first | rfl | assumption | (cases hx; done)

theorem parseAll_current {cs : Bool} {p : NalUnitPayload} {t : Nat} (hp : (∀ x, p.vps = some x → t = 32) ∧ (∀ x, p.sps = some x → t = 33) ∧ (∀ x, p.pps = some x → t = 34)) :
    ∀ {l : List (Nat × Nat × List UInt8)} {st st' : ParserState} {ns : List NalUnit}, (∀ x ∈ l, ∀ h, rawHeader x.2.2 = some h → h.nal_unit_type ≠ t) →
      parseAll cs l st = .ok (ns, st') → Current st p → Current st' p
  | [], st, st', ns, _, h, hc => by cases h; exact hc
  | (off, len, nal) :: rest, st, st', ns, hl, h, hc => by
    simp only [parseAll] at h
    have hrest : ∀ x ∈ rest, ∀ h, rawHeader x.2.2 = some h → h.nal_unit_type ≠ t := fun x hx => hl x (List.mem_cons_of_mem _ hx)
    cases hq : parseNalUnit cs st nal with
    | bad k => rw [hq] at h; cases h
    | fail b => rw [hq] at h; exact parseAll_current hp hrest h hc
    | ok x b =>
      obtain ⟨m, s1⟩ := x
      rw [hq] at h
      dsimp only at h
      obtain ⟨he, m1, m2, m3⟩ := payload_type hq
      have ht := hl _ List.mem_cons_self _ (header_of_parsed hq)
      have hc1 : Current s1 p := by
        subst he
        refine ⟨fun x hx => ?_, fun x hx => ?_, fun x hx => ?_⟩
        · have := hp.1 x hx
          have e : m.nal_unit_payload.vps = none := by
            cases hm : m.nal_unit_payload.vps with
            | none => rfl
            | some y => exact absurd ((m1 y hm).trans this.symm) ht
          simp only [effect, e]; exact hc.vps x hx
        · have := hp.2.1 x hx
          have e : m.nal_unit_payload.sps = none := by
            cases hm : m.nal_unit_payload.sps with
            | none => rfl
            | some y => exact absurd ((m2 y hm).trans this.symm) ht
          simp only [effect, e]; exact hc.sps x hx
        · have := hp.2.2 x hx
          have e : m.nal_unit_payload.pps = none := by
            cases hm : m.nal_unit_payload.pps with
            | none => rfl
            | some y => exact absurd ((m3 y hm).trans this.symm) ht
          simp only [effect, e]; exact hc.pps x hx
      cases hr : parseAll cs rest s1 with
      | error k => rw [hr] at h; cases h
      | ok y =>
        obtain ⟨ms, s2⟩ := y
        rw [hr] at h
        cases h
        exact parseAll_current hp hrest hr hc1

/-- C61, from the streams alone: a NAL unit that is no slice, sent once more in a stream where no NAL unit of its type came since it was sent, gives its result once
more, and changes no other result and not the parser state. -/
theorem C61_repeat_annexB (cs : Bool) {st st' : ParserState} (a1 a2 b : List (Bool × List UInt8)) (long1 long2 : Bool) (nal : List UInt8)
    (hu : ∀ x ∈ a1 ++ (long1, nal) :: (a2 ++ (long2, nal) :: b), NalBytes x.2) (hlen : (annexB (a1 ++ (long1, nal) :: (a2 ++ (long2, nal) :: b))).length < 2 ^ 64)
    {hd : NalUnitHeader} (hh : rawHeader nal = some hd) (ht : isSliceSegment hd.nal_unit_type = false)
    (hbetween : ∀ x ∈ a2, ∀ h, rawHeader x.2 = some h → h.nal_unit_type ≠ hd.nal_unit_type)
    {ns : List NalUnit} (h : parseBitstream cs st (annexB (a1 ++ (long1, nal) :: (a2 ++ b))) = .ok (ns, st')) :
    ∃ n1 n n2 n3 ns', parseBitstream cs st (annexB (a1 ++ (long1, nal) :: (a2 ++ (long2, nal) :: b))) = .ok (ns', st') ∧
      n.nal_unit_header = hd ∧ n1.length ≤ a1.length ∧ n2.length ≤ a2.length ∧ n3.length ≤ b.length ∧
      ns.map contents = n1 ++ n :: (n2 ++ n3) ∧ ns'.map contents = n1 ++ n :: (n2 ++ n :: n3) := by
  have hu' : ∀ x ∈ a1 ++ (long1, nal) :: (a2 ++ b), NalBytes x.2 := by
    intro x hx
    refine hu x ?_
    simp only [List.mem_append, List.mem_cons] at hx ⊢
    rcases hx with h | h | h | h <;> simp [h]
  have hl : (annexB (a1 ++ (long1, nal) :: (a2 ++ b))).length ≤ (annexB (a1 ++ (long1, nal) :: (a2 ++ (long2, nal) :: b))).length := by
    simp only [annexB, List.map_append, List.map_cons, List.flatten_append, List.flatten_cons, List.length_append]; omega
  rw [C25_annexB cs st _ hu' (by omega)] at h
  rw [C25_annexB cs st _ hu hlen]
  let pl : List (Bool × List UInt8) → List (Nat × Nat × List UInt8) := fun us => us.map fun x => (0, 0, x.2)
  have hpl : ∀ us : List (Bool × List UInt8), (pl us).map (·.2.2) = us.map (·.2) := fun us => by simp [pl, List.map_map, Function.comp_def]
  have hcount : ∀ (us : List (Nat × Nat × List UInt8)) (s s' : ParserState) (ms : List NalUnit), parseAll cs us s = .ok (ms, s') → ms.length ≤ us.length := by
    intro us
    induction us with
    | nil => intro s s' ms h; cases h; exact Nat.le_refl _
    | cons x us ih =>
      obtain ⟨o, l, d⟩ := x
      intro s s' ms h
      simp only [parseAll] at h
      cases hq : parseNalUnit cs s d with
      | bad k => rw [hq] at h; cases h
      | fail b => rw [hq] at h; have := ih _ _ _ h; simp only [List.length_cons]; omega
      | ok x b =>
        rw [hq] at h
        dsimp only at h
        cases hr : parseAll cs us x.2 with
        | error k => rw [hr] at h; cases h
        | ok y => rw [hr] at h; cases h; have := ih _ _ _ hr; simp only [List.length_cons]; omega
  obtain ⟨nsx, h1, hc1⟩ := parseAll_same (l' := pl a1 ++ (0, 0, nal) :: (pl a2 ++ pl b))
    (by rw [nalPlaces_nals]; simp only [List.map_append, List.map_cons, hpl]) h
  -- take the run apart
  rw [parseAll_append] at h1
  cases e1 : parseAll cs (pl a1) st with
  | error k => rw [e1] at h1; cases h1
  | ok y1 =>
  obtain ⟨n1, s1⟩ := y1
  rw [e1] at h1
  simp only [Except.bind, parseAll] at h1
  cases e2 : parseNalUnit cs s1 nal with
  | bad k => rw [e2] at h1; cases h1
  | fail bb =>
    exfalso
    have := (C22_dropped_iff (unescapeRbsp_eq nal)).mp ⟨bb, e2⟩
    match nal, hh, this with
    | b0 :: b1 :: r, _, this =>
      obtain ⟨r', hr⟩ := unesc_two b0 b1 r
      rw [hr] at this
      simp only [List.length_cons] at this
      omega
  | ok y2 bb =>
  obtain ⟨n, s2⟩ := y2
  rw [e2] at h1
  dsimp only at h1
  obtain ⟨g1, g2⟩ := payload_type e2
  have ghd : n.nal_unit_header = hd := by have := header_of_parsed e2; rw [hh] at this; cases this; rfl
  have hn : isSliceSegment n.nal_unit_header.nal_unit_type = false := by rw [ghd]; exact ht
  rw [parseAll_append] at h1
  cases e3 : parseAll cs (pl a2) s2 with
  | error k => rw [e3] at h1; cases h1
  | ok y3 =>
  obtain ⟨n2, s3⟩ := y3
  rw [e3] at h1
  simp only [Except.bind] at h1
  cases e4 : parseAll cs (pl b) s3 with
  | error k => rw [e4] at h1; cases h1
  | ok y4 =>
  obtain ⟨n3, s4⟩ := y4
  rw [e4] at h1
  cases h1
  have hcur : Current s3 n.nal_unit_payload := by
    refine parseAll_current (t := hd.nal_unit_type) (ghd ▸ g2) ?_ e3 (g1 ▸ current_effect s1 _)
    intro x hx h
    obtain ⟨y, hy, rfl⟩ := List.mem_map.1 hx
    exact hbetween y hy h
  have e5 := ((C61_again e2 hn).2 s3).2 hcur
  have h2 : parseAll cs (pl a1 ++ (0, 0, nal) :: (pl a2 ++ (0, 0, nal) :: pl b)) st =
      .ok (n1 ++ { n with offset := 0, length := 0 } :: (n2 ++ { n with offset := 0, length := 0 } :: n3), s4) := by
    rw [parseAll_append, e1]
    simp only [Except.bind, parseAll, e2]
    rw [parseAll_append, e3]
    simp only [Except.bind, parseAll, e5, e4]
  obtain ⟨ns', h3, hc3⟩ := parseAll_same (l' := nalPlaces 0 (a1 ++ (long1, nal) :: (a2 ++ (long2, nal) :: b)))
    (by rw [nalPlaces_nals]; simp only [List.map_append, List.map_cons, hpl]) h2
  refine ⟨n1.map contents, contents n, n2.map contents, n3.map contents, ns', h3, ghd, ?_, ?_, ?_, ?_, ?_⟩
  · have := hcount _ _ _ _ e1; simpa [pl] using this
  · have := hcount _ _ _ _ e3; simpa [pl] using this
  · have := hcount _ _ _ _ e4; simpa [pl] using this
  · rw [← hc1]; simp [contents]
  · rw [hc3]; simp [contents]

/-- hypotheses met: the test stream with its SPS sent again, and by a third start code, just before the slice -/
example : (parseBitstream true .empty (annexB (testUnits.take 3 ++ (false, 0x42 :: 0x01 :: testSps) :: testUnits.drop 3))).toOption.map
      (fun x => x.1.map fun n => (n.nal_unit_header.nal_unit_type, n.nal_unit_payload.slice_segment_layer.isSome)) =
      some [(32, false), (33, false), (34, false), (33, false), (19, true)] ∧
    (∀ x ∈ testUnits.take 3 ++ (false, 0x42 :: 0x01 :: testSps) :: testUnits.drop 3, NalBytes x.2) ∧
    rawHeader (0x42 :: 0x01 :: testSps) = some ⟨0, 33, 0, 1⟩ ∧ isSliceSegment 33 = false ∧ rawHeader [0x44, 0x01, 0xc0, 0xf3, 0xc0, 0x02, 0x10] = some ⟨0, 34, 0, 1⟩ := by
  refine ⟨by decide +kernel, ?_, by decide, by decide, by decide⟩
  intro x hx
  simp only [testUnits, List.take, List.drop, List.cons_append, List.nil_append, List.mem_cons, List.not_mem_nil, or_false] at hx
  rcases hx with rfl | rfl | rfl | rfl | rfl <;> exact nalBytes_of _ (by decide) (by decide) (by decide)


end H265
