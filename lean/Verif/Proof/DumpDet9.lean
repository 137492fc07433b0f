/-
C69 for configuration boxes.
-/
import Verif.Proof.DumpDet8

set_option autoImplicit false

namespace H265
open Spec

/-- units of a configuration box with the state before each -/
abbrev hvccFrom (st : ParserState) (us : List HvccUnit) : List (ParserState × HvccUnit) := withStates HvccUnit.payload st us

/-- the text of unit `i` of array `j` -/
abbrev hvccText (o : ParsingOptions) (j i : Nat) (y : ParserState × HvccUnit) : Text :=
  u32 (indexedName (indexedName "nalUnitLength" j) i) y.2.nalUnitLength ++ some? y.2.nalUnit (textNalUnit o y.1)

/-- what is known of it -/
structure HvccIn (o : ParsingOptions) (y : ParserState × HvccUnit) : Prop where
  length : y.2.nalUnitLength < 2 ^ 16
  unit : ∃ n, y.2.nalUnit = some n ∧ UnitIn o y.1 n

/-- the texts of units from number `i` on -/
def hvccTexts (o : ParsingOptions) (j : Nat) : Nat → List (ParserState × HvccUnit) → Text
  | _, [] => []
  | i, y :: l => hvccText o j i y ++ hvccTexts o j (i + 1) l

theorem mapIdx_hvccTexts (o : ParsingOptions) (j : Nat) : ∀ (l : List (ParserState × HvccUnit)) (k : Nat),
    (l.mapIdx fun i y => hvccText o j (i + k) y).flatten = hvccTexts o j k l
  | [], k => rfl
  | y :: l, k => by
    rw [List.mapIdx_cons, List.flatten_cons, hvccTexts, ← mapIdx_hvccTexts o j l (k + 1)]
    simp only [Nat.zero_add, Nat.add_assoc, Nat.add_comm 1 k]

theorem hvccUnits_det {o : ParsingOptions} {j : Nat} : ∀ {us us' : List HvccUnit} {st st' : ParserState} {i : Nat}, us.length = us'.length → Alike st st' →
    (∀ y ∈ hvccFrom st us, HvccIn o y) → (∀ y ∈ hvccFrom st' us', HvccIn o y) →
    Det (hvccTexts o j i (hvccFrom st us)) (hvccTexts o j i (hvccFrom st' us'))
      (us.map (HvccUnit.shown o) = us'.map (HvccUnit.shown o) ∧ Alike (statesAfter HvccUnit.payload st us) (statesAfter HvccUnit.payload st' us'))
  | [], [], st, st', i, _, hs, _, _ => det_nil ⟨rfl, hs⟩
  | [], u :: us', st, st', i, hl, _, _, _ => by cases hl
  | u :: us, [], st, st', i, hl, _, _, _ => by cases hl
  | u :: us, u' :: us', st, st', i, hl, hs, ha, hb => by
    obtain ⟨a1, n, a2, a3⟩ := ha _ List.mem_cons_self
    obtain ⟨b1, n', b2, b3⟩ := hb _ List.mem_cons_self
    dsimp only at a1 a2 a3 b1 b2 b3
    obtain ⟨ul, un⟩ := u
    obtain ⟨ul', un'⟩ := u'
    dsimp only at a1 a2 b1 b2
    subst a2 b2
    intro r t h
    have h2 : (hvccText o j i (st, ⟨ul, some n⟩) ++ hvccTexts o j (i + 1) (hvccFrom (st.stored n.nal_unit_payload) us)) ++ r =
      (hvccText o j i (st', ⟨ul', some n'⟩) ++ hvccTexts o j (i + 1) (hvccFrom (st'.stored n'.nal_unit_payload) us')) ++ t := h
    unfold hvccText at h2
    dsimp only at h2
    rw [some?_some, some?_some] at h2
    simp only [List.append_assoc] at h2
    obtain ⟨e1, h2⟩ := det_u32 (by omega) (by omega) _ _ h2
    obtain ⟨e2, h2⟩ := det_NalUnit hs a3 b3 _ _ h2
    obtain ⟨⟨e3, e4⟩, h2⟩ := hvccUnits_det (Nat.succ.inj hl) (stored_alike hs (shownNal_payload e2)) (fun x hx => ha x (List.mem_cons_of_mem _ hx))
      (fun x hx => hb x (List.mem_cons_of_mem _ hx)) _ _ h2
    refine ⟨⟨?_, e4⟩, h2⟩
    rw [List.map_cons, List.map_cons, e3, e1]
    unfold HvccUnit.shown
    simp only [Option.map_some, e2]

theorem hvccUnits_alike {o : ParsingOptions} {j : Nat} : ∀ {us us' : List HvccUnit} {st st' : ParserState} {i : Nat}, Alike st st' →
    (∀ y ∈ hvccFrom st us, HvccIn o y) → (∀ y ∈ hvccFrom st' us', HvccIn o y) → us.map (HvccUnit.shown o) = us'.map (HvccUnit.shown o) →
    hvccTexts o j i (hvccFrom st us) = hvccTexts o j i (hvccFrom st' us') ∧ Alike (statesAfter HvccUnit.payload st us) (statesAfter HvccUnit.payload st' us')
  | [], [], st, st', i, hs, _, _, _ => ⟨rfl, hs⟩
  | [], u :: us', st, st', i, _, _, _, h => by cases h
  | u :: us, [], st, st', i, _, _, _, h => by cases h
  | u :: us, u' :: us', st, st', i, hs, ha, hb, h => by
    obtain ⟨a1, n, a2, a3⟩ := ha _ List.mem_cons_self
    obtain ⟨b1, n', b2, b3⟩ := hb _ List.mem_cons_self
    dsimp only at a1 a2 a3 b1 b2 b3
    obtain ⟨ul, un⟩ := u
    obtain ⟨ul', un'⟩ := u'
    dsimp only at a1 a2 b1 b2
    subst a2 b2
    obtain ⟨e, h⟩ := List.cons.inj h
    have e1 : ul = ul' := (congrArg HvccUnit.nalUnitLength e :)
    have e2 : n.shown o = n'.shown o := Option.some.inj (congrArg HvccUnit.nalUnit e :)
    obtain ⟨k1, k2⟩ := hvccUnits_alike (j := j) (i := i + 1) (stored_alike hs (shownNal_payload e2)) (fun x hx => ha x (List.mem_cons_of_mem _ hx))
      (fun x hx => hb x (List.mem_cons_of_mem _ hx)) h
    refine ⟨?_, k2⟩
    show hvccText o j i (st, ⟨ul, some n⟩) ++ hvccTexts o j (i + 1) (hvccFrom (st.stored n.nal_unit_payload) us) =
      hvccText o j i (st', ⟨ul', some n'⟩) ++ hvccTexts o j (i + 1) (hvccFrom (st'.stored n'.nal_unit_payload) us')
    rw [k1]
    unfold hvccText
    dsimp only
    rw [some?_some, some?_some, e1, textNalUnit_alike hs a3 b3 e2]

/-! ### Arrays -/

/-- what is known of an array -/
structure ArrayIn (o : ParsingOptions) (x : ParserState × HvccArray) : Prop where
  head : ValidHvccArrayHead x.2.head
  count : x.2.units.length = x.2.head.numNalus
  units : ∀ y ∈ hvccFrom x.1 x.2.units, HvccIn o y

theorem textHvccArray_from (o : ParsingOptions) (st : ParserState) (j : Nat) (a : HvccArray) : textHvccArray o st j a = List.flatten [
    u32 (indexedName "array_completeness" j) a.head.array_completeness, u32 (indexedName "reserved6" j) a.head.reserved6,
    u32 (indexedName "NAL_unit_type" j) a.head.NAL_unit_type, u32 (indexedName "numNalus" j) a.head.numNalus, hvccTexts o j 0 (hvccFrom st a.units)] := by
  unfold textHvccArray
  have := mapIdx_hvccTexts o j (hvccFrom st a.units) 0
  rw [← this]
  unfold hvccFrom
  rw [withStates_eq, mapIdx_mapIdx_text]
  rfl

theorem det_HvccArray {o : ParsingOptions} {st st' : ParserState} {j : Nat} {a a' : HvccArray} (hs : Alike st st') (ha : ArrayIn o (st, a)) (hb : ArrayIn o (st', a')) :
    Det (textHvccArray o st j a) (textHvccArray o st' j a')
      (a.shown o = a'.shown o ∧ Alike (statesAfter HvccUnit.payload st a.units) (statesAfter HvccUnit.payload st' a'.units)) := by
  obtain ⟨⟨k1, k2, k3, k4⟩, us⟩ := a
  obtain ⟨⟨l1, l2, l3, l4⟩, us'⟩ := a'
  obtain ⟨⟨a1, a2, -, a3, a4⟩, a5, a6⟩ := ha
  obtain ⟨⟨b1, b2, -, b3, b4⟩, b5, b6⟩ := hb
  dsimp only at *
  intro r t h
  rw [textHvccArray_from, textHvccArray_from] at h
  dsimp only at h
  replace h := step (det_u32 (by omega) (by omega)) h
  obtain ⟨rfl, h⟩ := h
  replace h := step (det_u32 (by omega) (by omega)) h
  obtain ⟨rfl, h⟩ := h
  replace h := step (det_u32 (by omega) (by omega)) h
  obtain ⟨rfl, h⟩ := h
  replace h := step (det_u32 (by omega) (by omega)) h
  obtain ⟨rfl, h⟩ := h
  obtain ⟨⟨e1, e2⟩, h⟩ := step (hvccUnits_det (a5.trans b5.symm) hs a6 b6) h
  refine ⟨⟨?_, e2⟩, steps_nil h⟩
  unfold HvccArray.shown
  dsimp only
  rw [e1]

theorem textHvccArray_alike {o : ParsingOptions} {st st' : ParserState} {j : Nat} {a a' : HvccArray} (hs : Alike st st') (ha : ArrayIn o (st, a))
    (hb : ArrayIn o (st', a')) (h : a.shown o = a'.shown o) :
    textHvccArray o st j a = textHvccArray o st' j a' ∧ Alike (statesAfter HvccUnit.payload st a.units) (statesAfter HvccUnit.payload st' a'.units) := by
  have e1 : a.head = a'.head := (congrArg HvccArray.head h :)
  have e2 : a.units.map (HvccUnit.shown o) = a'.units.map (HvccUnit.shown o) := (congrArg HvccArray.units h :)
  obtain ⟨k1, k2⟩ := hvccUnits_alike (j := j) (i := 0) hs ha.units hb.units e2
  dsimp only at k1
  refine ⟨?_, k2⟩
  rw [textHvccArray_from, textHvccArray_from, e1, k1]

/-- the texts of arrays from number `j` on -/
def arrayTexts (o : ParsingOptions) : Nat → List (ParserState × HvccArray) → Text
  | _, [] => []
  | j, x :: l => textHvccArray o x.1 j x.2 ++ arrayTexts o (j + 1) l

theorem mapIdx_arrayTexts (o : ParsingOptions) : ∀ (l : List (ParserState × HvccArray)) (k : Nat),
    (l.mapIdx fun j x => textHvccArray o x.1 (j + k) x.2).flatten = arrayTexts o k l
  | [], k => rfl
  | y :: l, k => by
    rw [List.mapIdx_cons, List.flatten_cons, arrayTexts, ← mapIdx_arrayTexts o l (k + 1)]
    simp only [Nat.zero_add, Nat.add_assoc, Nat.add_comm 1 k]

theorem arrays_det {o : ParsingOptions} : ∀ {as as' : List HvccArray} {st st' : ParserState} {j : Nat}, as.length = as'.length → Alike st st' →
    (∀ x ∈ arrayStates st as, ArrayIn o x) → (∀ x ∈ arrayStates st' as', ArrayIn o x) →
    Det (arrayTexts o j (arrayStates st as)) (arrayTexts o j (arrayStates st' as')) (as.map (HvccArray.shown o) = as'.map (HvccArray.shown o))
  | [], [], st, st', i, _, hs, _, _ => det_nil rfl
  | [], u :: us', st, st', i, hl, _, _, _ => by cases hl
  | u :: us, [], st, st', i, hl, _, _, _ => by cases hl
  | a :: as, a' :: as', st, st', j, hl, hs, ha, hb => by
    intro r t h
    rw [arrayStates, arrayStates, arrayTexts, arrayTexts, List.append_assoc, List.append_assoc] at h
    obtain ⟨⟨e1, e2⟩, h⟩ := det_HvccArray hs (ha _ List.mem_cons_self) (hb _ List.mem_cons_self) _ _ h
    obtain ⟨e3, h⟩ := arrays_det (Nat.succ.inj hl) e2 (fun x hx => ha x (List.mem_cons_of_mem _ hx)) (fun x hx => hb x (List.mem_cons_of_mem _ hx)) _ _ h
    exact ⟨by rw [List.map_cons, List.map_cons, e1, e3], h⟩

theorem arrays_alike {o : ParsingOptions} : ∀ {as as' : List HvccArray} {st st' : ParserState} {j : Nat}, Alike st st' →
    (∀ x ∈ arrayStates st as, ArrayIn o x) → (∀ x ∈ arrayStates st' as', ArrayIn o x) → as.map (HvccArray.shown o) = as'.map (HvccArray.shown o) →
    arrayTexts o j (arrayStates st as) = arrayTexts o j (arrayStates st' as')
  | [], [], st, st', i, hs, _, _, _ => rfl
  | [], u :: us', st, st', i, _, _, _, h => by cases h
  | u :: us, [], st, st', i, _, _, _, h => by cases h
  | a :: as, a' :: as', st, st', j, hs, ha, hb, h => by
    obtain ⟨e, h⟩ := List.cons.inj h
    obtain ⟨k1, k2⟩ := textHvccArray_alike (j := j) hs (ha _ List.mem_cons_self) (hb _ List.mem_cons_self) e
    rw [arrayStates, arrayStates, arrayTexts, arrayTexts, k1,
      arrays_alike k2 (fun x hx => ha x (List.mem_cons_of_mem _ hx)) (fun x hx => hb x (List.mem_cons_of_mem _ hx)) h]

/-! ### Boxes -/

/-- what the parser guarantees about a configuration box that can be dumped -/
structure BoxIn (o : ParsingOptions) (st : ParserState) (b : ConfigurationBox) : Prop where
  head : ValidHvccHeader b.head
  count : b.arrays.length = b.head.numOfArrays
  arrays : ∀ x ∈ arrayStates st b.arrays, ArrayIn o x

theorem mem_arrayStates_snd {st : ParserState} {l : List HvccArray} {x : ParserState × HvccArray} (h : x ∈ arrayStates st l) : x.2 ∈ l := by
  rw [arrayStates_eq] at h
  obtain ⟨i, hi, rfl⟩ := List.mem_mapIdx.1 h
  exact List.getElem_mem hi

theorem BoxOk.boxIn {cs : Bool} {o : ParsingOptions} {st : ParserState} {b : ConfigurationBox} (h : BoxOk cs st b) (hn : ¬ NoBoxText o b) : BoxIn o st b := by
  refine ⟨h.head, h.count, fun x hx => ?_⟩
  obtain ⟨a1, -, a3⟩ := h.arrays x hx
  have hm := mem_arrayStates_snd hx
  obtain ⟨b1, b2⟩ := h.heads _ hm
  refine ⟨b1, a1, fun y hy => ⟨b2 _ (mem_withStates_snd hy), ?_⟩⟩
  cases hu : y.2.nalUnit with
  | none => exact absurd ⟨_, hm, _, mem_withStates_snd hy, fun n e => by rw [hu] at e; cases e⟩ hn
  | some n =>
    exact ⟨n, rfl, (a3 y hy n hu).unitIn (fun k => hn ⟨_, hm, _, mem_withStates_snd hy, fun m e => by rw [hu] at e; cases e; exact k⟩)⟩

theorem textBox_from (o : ParsingOptions) (st : ParserState) (b : ConfigurationBox) :
    textConfigurationBox o st b = block "configuration_box" (textHvccHeader b.head ++ [arrayTexts o 0 (arrayStates st b.arrays)]) := by
  refine block_of_flatten ?_
  have := mapIdx_arrayTexts o (arrayStates st b.arrays) 0
  rw [← this, arrayStates_eq, mapIdx_mapIdx_text]
  simp only [List.flatten_append, List.flatten_cons, List.flatten_nil, List.append_nil, Nat.add_zero]

theorem det_HvccHeader {s t : HvccHeader} (ha : ValidHvccHeader s) (hb : ValidHvccHeader t) :
    Det (textHvccHeader s).flatten (textHvccHeader t).flatten (s = t) := by
  obtain ⟨a_configurationVersion, a_general_profile_space, a_general_tier_flag, a_general_profile_idc, a_general_profile_compatibility_flags, a_general_constraint_indicator_flags, a_general_level_idc, a_reserved1, a_min_spatial_segmentation_idc, a_reserved2, a_parallelismType, a_reserved3, a_chroma_format_idc, a_reserved4, a_bit_depth_luma_minus8, a_reserved5, a_bit_depth_chroma_minus8, a_avgFrameRate, a_constantFrameRate, a_numTemporalLayers, a_temporalIdNested, a_lengthSizeMinusOne, a_numOfArrays⟩ := s
  obtain ⟨b_configurationVersion, b_general_profile_space, b_general_tier_flag, b_general_profile_idc, b_general_profile_compatibility_flags, b_general_constraint_indicator_flags, b_general_level_idc, b_reserved1, b_min_spatial_segmentation_idc, b_reserved2, b_parallelismType, b_reserved3, b_chroma_format_idc, b_reserved4, b_bit_depth_luma_minus8, b_reserved5, b_bit_depth_chroma_minus8, b_avgFrameRate, b_constantFrameRate, b_numTemporalLayers, b_temporalIdNested, b_lengthSizeMinusOne, b_numOfArrays⟩ := t
  obtain ⟨va_configurationVersion, -, va_general_profile_space, va_general_tier_flag, va_general_profile_idc, va_general_profile_compatibility_flags, va_general_constraint_indicator_flags, va_general_level_idc, va_reserved1, -, va_min_spatial_segmentation_idc, va_reserved2, -, va_parallelismType, va_reserved3, -, va_chroma_format_idc, va_reserved4, -, va_bit_depth_luma_minus8, va_reserved5, -, va_bit_depth_chroma_minus8, va_avgFrameRate, va_constantFrameRate, va_numTemporalLayers, va_temporalIdNested, va_lengthSizeMinusOne, va_numOfArrays⟩ := ha
  obtain ⟨vb_configurationVersion, -, vb_general_profile_space, vb_general_tier_flag, vb_general_profile_idc, vb_general_profile_compatibility_flags, vb_general_constraint_indicator_flags, vb_general_level_idc, vb_reserved1, -, vb_min_spatial_segmentation_idc, vb_reserved2, -, vb_parallelismType, vb_reserved3, -, vb_chroma_format_idc, vb_reserved4, -, vb_bit_depth_luma_minus8, vb_reserved5, -, vb_bit_depth_chroma_minus8, vb_avgFrameRate, vb_constantFrameRate, vb_numTemporalLayers, vb_temporalIdNested, vb_lengthSizeMinusOne, vb_numOfArrays⟩ := hb
  dsimp only at *
  unfold textHvccHeader
  dsimp only
  intro r r' h1
  replace h1 := step (det_u32 (by bd va_configurationVersion) (by bd vb_configurationVersion)) h1
  obtain ⟨rfl, h1⟩ := h1
  replace h1 := step (det_u32 (by bd va_general_profile_space) (by bd vb_general_profile_space)) h1
  obtain ⟨rfl, h1⟩ := h1
  replace h1 := step (det_u32 (by bd va_general_tier_flag) (by bd vb_general_tier_flag)) h1
  obtain ⟨rfl, h1⟩ := h1
  replace h1 := step (det_u32 (by bd va_general_profile_idc) (by bd vb_general_profile_idc)) h1
  obtain ⟨rfl, h1⟩ := h1
  replace h1 := step (det_list32 (by bdl va_general_profile_compatibility_flags) (by bdl vb_general_profile_compatibility_flags)) h1
  obtain ⟨rfl, h1⟩ := h1
  replace h1 := step det_numNat h1
  obtain ⟨rfl, h1⟩ := h1
  replace h1 := step (det_u32 (by bd va_general_level_idc) (by bd vb_general_level_idc)) h1
  obtain ⟨rfl, h1⟩ := h1
  replace h1 := step (det_u32 (by bd va_reserved1) (by bd vb_reserved1)) h1
  obtain ⟨rfl, h1⟩ := h1
  replace h1 := step (det_u32 (by bd va_min_spatial_segmentation_idc) (by bd vb_min_spatial_segmentation_idc)) h1
  obtain ⟨rfl, h1⟩ := h1
  replace h1 := step (det_u32 (by bd va_reserved2) (by bd vb_reserved2)) h1
  obtain ⟨rfl, h1⟩ := h1
  replace h1 := step (det_u32 (by bd va_parallelismType) (by bd vb_parallelismType)) h1
  obtain ⟨rfl, h1⟩ := h1
  replace h1 := step (det_u32 (by bd va_reserved3) (by bd vb_reserved3)) h1
  obtain ⟨rfl, h1⟩ := h1
  replace h1 := step (det_u32 (by bd va_chroma_format_idc) (by bd vb_chroma_format_idc)) h1
  obtain ⟨rfl, h1⟩ := h1
  replace h1 := step (det_u32 (by bd va_reserved4) (by bd vb_reserved4)) h1
  obtain ⟨rfl, h1⟩ := h1
  replace h1 := step (det_u32 (by bd va_bit_depth_luma_minus8) (by bd vb_bit_depth_luma_minus8)) h1
  obtain ⟨rfl, h1⟩ := h1
  replace h1 := step (det_u32 (by bd va_reserved5) (by bd vb_reserved5)) h1
  obtain ⟨rfl, h1⟩ := h1
  replace h1 := step (det_u32 (by bd va_bit_depth_chroma_minus8) (by bd vb_bit_depth_chroma_minus8)) h1
  obtain ⟨rfl, h1⟩ := h1
  replace h1 := step (det_u32 (by bd va_avgFrameRate) (by bd vb_avgFrameRate)) h1
  obtain ⟨rfl, h1⟩ := h1
  replace h1 := step (det_u32 (by bd va_constantFrameRate) (by bd vb_constantFrameRate)) h1
  obtain ⟨rfl, h1⟩ := h1
  replace h1 := step (det_u32 (by bd va_numTemporalLayers) (by bd vb_numTemporalLayers)) h1
  obtain ⟨rfl, h1⟩ := h1
  replace h1 := step (det_u32 (by bd va_temporalIdNested) (by bd vb_temporalIdNested)) h1
  obtain ⟨rfl, h1⟩ := h1
  replace h1 := step (det_u32 (by bd va_lengthSizeMinusOne) (by bd vb_lengthSizeMinusOne)) h1
  obtain ⟨rfl, h1⟩ := h1
  replace h1 := step (det_u32 (by bd va_numOfArrays) (by bd vb_numOfArrays)) h1
  obtain ⟨rfl, h1⟩ := h1
  exact ⟨rfl, steps_nil h1⟩

theorem det_ConfigurationBox {o : ParsingOptions} {st : ParserState} {b b' : ConfigurationBox} (ha : BoxIn o st b) (hb : BoxIn o st b') :
    Det (textConfigurationBox o st b) (textConfigurationBox o st b') (b.shown o = b'.shown o) := by
  rw [textBox_from, textBox_from]
  refine det_block (fun r t h => ?_)
  rw [List.flatten_append, List.flatten_append, List.append_assoc, List.append_assoc] at h
  obtain ⟨e1, h⟩ := det_HvccHeader ha.head hb.head _ _ h
  obtain ⟨e2, h⟩ := step (arrays_det (ha.count.trans ((congrArg HvccHeader.numOfArrays e1).trans hb.count.symm)) (.refl st) ha.arrays hb.arrays) h
  refine ⟨?_, steps_nil h⟩
  unfold ConfigurationBox.shown
  rw [e1, e2]

theorem textBox_alike {o : ParsingOptions} {st : ParserState} {b b' : ConfigurationBox} (ha : BoxIn o st b) (hb : BoxIn o st b') (h : b.shown o = b'.shown o) :
    textConfigurationBox o st b = textConfigurationBox o st b' := by
  have e1 : b.head = b'.head := (congrArg ConfigurationBox.head h :)
  have e2 : b.arrays.map (HvccArray.shown o) = b'.arrays.map (HvccArray.shown o) := (congrArg ConfigurationBox.arrays h :)
  rw [textBox_from, textBox_from, e1, arrays_alike (.refl st) ha.arrays hb.arrays e2]

end H265
