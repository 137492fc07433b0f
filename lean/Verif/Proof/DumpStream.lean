/-
The text form of bitstreams, configuration boxes and RTP payloads.
-/
import Verif.Proof.DumpNalSays

set_option autoImplicit false

namespace H265
open Spec

/-! ### Bitstreams -/

theorem seq_lines {α : Type} {f : α → Dump} : ∀ {l : List α} {d : Doc}, Dump.seq (l.map fun x => Dump.seq [f x, .ok (.put ['\n'])]) = .ok d →
    ∃ docs : List Doc, docs.length = l.length ∧ (∀ k (hk : k < l.length) (hk' : k < docs.length), f l[k] = .ok docs[k]) ∧
      ∀ lvl, d.render lvl = docs.flatMap fun e => e.render lvl ++ ['\n']
  | [], d, h => by cases h; exact ⟨[], rfl, (by intro k hk; exact absurd hk (by simp)), fun _ => rfl⟩
  | a :: l, d, h => by
    rw [List.map_cons] at h
    obtain ⟨x, y, hx, hy, rfl⟩ := seq_cons_ok h
    obtain ⟨e, z, he, hz, rfl⟩ := seq_cons_ok hx
    obtain ⟨u, w, hu, hw, rfl⟩ := seq_cons_ok hz
    cases hu; cases hw
    obtain ⟨docs, h1, h2, h3⟩ := seq_lines hy
    refine ⟨e :: docs, by simp [h1], ?_, fun lvl => ?_⟩
    · intro k hk hk'
      cases k with
      | zero => simpa using he
      | succ k => simpa using h2 k (by simpa using hk) (by simpa using hk')
    · simp only [Doc.render, h3, List.flatMap_cons, List.append_nil]

theorem null_dumpBitstream {cs : Bool} {o : ParsingOptions} {st : ParserState} {ns : List NalUnit}
    (h : ∀ x ∈ withStates (fun n => some n.nal_unit_payload) st ns, UnitOk cs x.1 x.2) :
    Null (dumpBitstream o st ns) (∃ n ∈ ns, Spec.NoText o n) := by
  refine (Null.each (B := fun x => Spec.NoText o x.2) (fun x hx => ?_)).congr ?_
  · exact (Null.cons (h x hx).null (Null.one (Null.ok ⟨_, rfl⟩))).congr (by simp)
  · rw [withStates_eq]
    constructor
    · rintro ⟨x, hx, hn⟩
      obtain ⟨i, hi, rfl⟩ := List.mem_mapIdx.1 hx
      exact ⟨_, List.getElem_mem hi, hn⟩
    · rintro ⟨n, hn, hx⟩
      obtain ⟨i, hi, rfl⟩ := List.getElem_of_mem hn
      exact ⟨_, List.mem_mapIdx.2 ⟨i, hi, rfl⟩, hx⟩

/-! ### Configuration boxes -/

theorem Line.upToIdx {α : Type} {n : Nat} {l : List α} {f : Nat → α → Dump} {g : Nat → α → Text} (hn : l.length = n)
    (h : ∀ i (hi : i < l.length), Line (f i l[i]) (g i l[i])) : Line (Dump.upTo n l f) (l.mapIdx g).flatten := by
  subst hn
  unfold Dump.upTo
  rw [if_pos (Nat.le_refl _), List.take_length]
  have : ∀ (l : List α) (f : Nat → α → Dump) (g : Nat → α → Text), (∀ i (hi : i < l.length), Line (f i l[i]) (g i l[i])) → Lists (l.mapIdx f) (l.mapIdx g) := by
    intro l
    induction l with
    | nil => intro f g _; exact Lists.nil
    | cons a l ih =>
      intro f g h; rw [List.mapIdx_cons, List.mapIdx_cons]
      exact Lists.cons (h 0 (by simp)) (ih _ _ (fun i hi => h (i + 1) (by simpa using hi)))
  exact Line.seq (this l f g h)

theorem indexed_eq {j : Nat} (hj : j < 2 ^ 31) (name : String) : indexed name j = indexedName name j := by
  unfold indexed indexedName
  congr 2
  rw [putI_decimal]
  unfold decimal int32
  rw [if_pos hj, String.ofList_toList]
  rfl

theorem NameSolid.indexed {name : String} (h : NameSolid name) (j : Nat) : NameSolid (indexed name j) := by
  refine ⟨?_⟩
  unfold H265.indexed
  simp only [String.toList_append, String.toList_ofList]
  refine ⟨by simp, fun c hc => ?_⟩
  simp only [List.mem_append] at hc
  rcases hc with ((hc | hc) | hc) | hc
  · exact h.solid.2 c hc
  · have : c = '[' := by simpa using hc
    subst this; rfl
  · exact (putI_word j).solid.2 c hc
  · have : c = ']' := by simpa using hc
    subst this; rfl

theorem Line.fldIdx {name : String} {j v : Nat} (hn : NameSolid name) (hj : j < 2 ^ 31) : Line (Dump.fld (indexed name j) (putI v)) (u32 (indexedName name j) v) := by
  rw [← indexed_eq hj]; exact Line.fldI (hn.indexed j)

theorem mapIdx_mapIdx_text {α β : Type} (h : Nat → α → β) (g : Nat → β → Text) (l : List α) : (l.mapIdx h).mapIdx g = l.mapIdx fun i a => g i (h i a) := by
  rw [List.mapIdx_mapIdx]; rfl

theorem line_dumpHvccArray {cs : Bool} {o : ParsingOptions} {j : Nat} {st : ParserState} {a : HvccArray} (hj : j < 2 ^ 31)
    (hl : a.units.length = a.head.numNalus) (hb : a.head.numNalus < 2 ^ 16)
    (h : ∀ y ∈ withStates HvccUnit.payload st a.units, ∀ n, y.2.nalUnit = some n → UnitOk cs y.1 n) :
    Line (dumpHvccArray o j (st, a)) (textHvccArray o st j a) := by
  have hlen : (withStates HvccUnit.payload st a.units).length = a.head.numNalus := by rw [withStates_eq, List.length_mapIdx, hl]
  have key : Line (Dump.upTo a.head.numNalus (withStates HvccUnit.payload st a.units) (dumpHvccUnit o j)) (List.flatten (a.units.mapIdx fun i u =>
      u32 (indexedName (indexedName "nalUnitLength" j) i) u.nalUnitLength ++
        some? u.nalUnit (textNalUnit o (known st (payloadsOf (a.units.take i)))))) := by
    have := Line.upToIdx (g := fun i x => u32 (indexedName (indexedName "nalUnitLength" j) i) x.2.nalUnitLength ++
        some? x.2.nalUnit (textNalUnit o x.1)) (f := dumpHvccUnit o j) hlen (fun i hi => ?_)
    · rw [withStates_eq, mapIdx_mapIdx_text] at this
      rw [withStates_eq]; exact this
    · have hu := h _ (List.getElem_mem hi)
      generalize (withStates HvccUnit.payload st a.units)[i] = x at hu ⊢
      unfold dumpHvccUnit
      have hi2 : i < 2 ^ 31 := by omega
      have hL : Lists [Dump.fld (indexed (indexed "nalUnitLength" j) i) (putI x.2.nalUnitLength), .on (.deref x.2.nalUnit (dumpNalUnit o x.1))]
          [u32 (indexedName (indexedName "nalUnitLength" j) i) x.2.nalUnitLength, some? x.2.nalUnit (textNalUnit o x.1)] := by
        refine Lists.cons ?_ (Lists.cons (Line.on ?_) Lists.nil)
        · rw [← indexed_eq hj]
          exact Line.fldIdx (NameSolid.indexed (NameSolid.lit _ rfl rfl) j) hi2
        · cases hn : x.2.nalUnit with
          | none => intro d hd; cases hd
          | some n => simpa [some?, Dump.deref] using (hu n hn).says (o := o)
      have := Line.seq hL
      simpa using this
  unfold dumpHvccArray textHvccArray
  exact Line.seq (Lists.cons (Line.fldIdx (NameSolid.lit _ rfl rfl) hj) (Lists.cons (Line.fldIdx (NameSolid.lit _ rfl rfl) hj)
    (Lists.cons (Line.fldIdx (NameSolid.lit _ rfl rfl) hj) (Lists.cons (Line.fldIdx (NameSolid.lit _ rfl rfl) hj) (Lists.cons key Lists.nil)))))

/-- what `ParseConfigurationBox` returns -/
structure BoxOk (cs : Bool) (st : ParserState) (b : ConfigurationBox) : Prop where
  reach : Reach st
  count : b.arrays.length = b.head.numOfArrays
  few : b.head.numOfArrays < 2 ^ 8
  arrays : ∀ x ∈ arrayStates st b.arrays, x.2.units.length = x.2.head.numNalus ∧ x.2.head.numNalus < 2 ^ 16 ∧
    ∀ y ∈ withStates HvccUnit.payload x.1 x.2.units, ∀ n, y.2.nalUnit = some n → UnitOk cs y.1 n
  head : ValidHvccHeader b.head
  heads : ∀ a ∈ b.arrays, ValidHvccArrayHead a.head ∧ ∀ u ∈ a.units, u.nalUnitLength < 2 ^ 16

theorem hvccParsed_heads {cs : Bool} {st st' : ParserState} {raw : List (HvccArrayHead × List (List UInt8))} {as : List HvccArray}
    (h : HvccParsed cs st raw as st') (hn : ∀ a ∈ raw, ValidHvccArrayHead a.1 ∧ ∀ nal ∈ a.2, nal.length < 2 ^ 16) :
    ∀ a ∈ as, ValidHvccArrayHead a.head ∧ ∀ u ∈ a.units, u.nalUnitLength < 2 ^ 16 := by
  have key : ∀ {st st' : ParserState} {nals : List (List UInt8)} {us : List HvccUnit}, HvccNals cs st nals us st' → (∀ nal ∈ nals, nal.length < 2 ^ 16) →
      ∀ u ∈ us, u.nalUnitLength < 2 ^ 16 := by
    intro st st' nals us h
    induction h with
    | nil st => intro _ u hu; cases hu
    | ok _ _ ih =>
      intro hn u hu
      rcases List.mem_cons.1 hu with rfl | hu
      · exact hn _ List.mem_cons_self
      · exact ih (fun x hx => hn x (List.mem_cons_of_mem _ hx)) u hu
    | null _ _ ih =>
      intro hn u hu
      rcases List.mem_cons.1 hu with rfl | hu
      · exact hn _ List.mem_cons_self
      · exact ih (fun x hx => hn x (List.mem_cons_of_mem _ hx)) u hu
  induction h with
  | nil st => intro a ha; cases ha
  | cons hu _ ih =>
    intro a ha
    rcases List.mem_cons.1 ha with rfl | ha
    · obtain ⟨k1, k2⟩ := hn _ List.mem_cons_self
      exact ⟨k1, key hu k2⟩
    · exact ih (fun x hx => hn x (List.mem_cons_of_mem _ hx)) a ha

theorem box_ok {cs : Bool} {st st' : ParserState} {data : List UInt8} {box : ConfigurationBox} {bb' : BB} (hs : Reach st)
    (h : parseConfigurationBoxBytes cs st data = .ok (some box, st') bb') : BoxOk cs st box := by
  unfold parseConfigurationBoxBytes Prog.runBytes at h
  split at h
  · obtain ⟨x, hv, _, hh, hp⟩ := C43_sound (BB.WF.init _) h
    obtain ⟨h1, h2⟩ := hvccParsed_units hs hp (fun a ha => ⟨hv.numNalus a ha, (hv.arrayHead a ha).numNalus⟩)
    exact ⟨hs, by rw [h2, hv.numOfArrays, hh], by rw [hh]; exact hv.head.numOfArrays, h1, by rw [hh]; exact hv.head,
      hvccParsed_heads hp (fun a ha => ⟨hv.arrayHead a ha, hv.nalUnitLength a ha⟩)⟩
  · cases h

theorem says_dumpConfigurationBox {cs : Bool} {o : ParsingOptions} {st : ParserState} {b : ConfigurationBox} (h : BoxOk cs st b) :
    Says (dumpConfigurationBox o st b) (textConfigurationBox o st b) := by
  have hlen : (arrayStates st b.arrays).length = b.head.numOfArrays := by rw [arrayStates_eq, List.length_mapIdx, h.count]
  have h1 : Lists (dumpHvccHeader.items b.head) (textHvccHeader b.head) := by
    unfold dumpHvccHeader.items textHvccHeader
    repeat' first
      | exact Lists.nil | apply Lists.cons | exact Line.fldI (NameSolid.lit _ rfl rfl) | exact Line.fldU (NameSolid.lit _ rfl rfl)
      | exact Line.lst (NameSolid.lit _ rfl rfl) itemI
  have h2 := Line.upToIdx (f := dumpHvccArray o) (g := fun j x => textHvccArray o x.1 j x.2) hlen (fun j hj => by
    have hf := h.few
    have hj2 : j < 2 ^ 31 := by omega
    obtain ⟨e1, e2, e3⟩ := h.arrays _ (List.getElem_mem hj)
    exact line_dumpHvccArray hj2 e1 e2 e3)
  have e : textConfigurationBox o st b = block "configuration_box" (textHvccHeader b.head ++ [((arrayStates st b.arrays).mapIdx fun j x => textHvccArray o x.1 j x.2).flatten]) := by
    refine block_of_flatten ?_
    rw [arrayStates_eq, mapIdx_mapIdx_text]
    simp only [List.flatten_append, List.flatten_cons, List.flatten_nil, List.append_nil]
  unfold dumpConfigurationBox
  rw [e]
  exact Says.blk (Lists.append h1 (Lists.cons h2 Lists.nil))

theorem seq_append_ok {l m : List Dump} (h : OkAll l) {B : Prop} (hm : Null (Dump.seq m) B) : Null (Dump.seq (l ++ m)) B := by
  induction l with
  | nil => exact hm
  | cons a l ih => rw [List.cons_append]; exact Null.okCons (h.all a (by simp)) (ih ⟨fun x hx => h.all x (by simp [hx])⟩)

theorem mem_withStates {α : Type} {pay : α → Option NalUnitPayload} {st : ParserState} {l : List α} {P : α → Prop} :
    (∃ x ∈ withStates pay st l, P x.2) ↔ ∃ a ∈ l, P a := by
  rw [withStates_eq]
  constructor
  · rintro ⟨x, hx, hn⟩
    obtain ⟨i, hi, rfl⟩ := List.mem_mapIdx.1 hx
    exact ⟨_, List.getElem_mem hi, hn⟩
  · rintro ⟨n, hn, hx⟩
    obtain ⟨i, hi, rfl⟩ := List.getElem_of_mem hn
    exact ⟨_, List.mem_mapIdx.2 ⟨i, hi, rfl⟩, hx⟩

theorem null_dumpConfigurationBox {cs : Bool} {o : ParsingOptions} {st : ParserState} {b : ConfigurationBox} (h : BoxOk cs st b) :
    Null (dumpConfigurationBox o st b) (Spec.NoBoxText o b) := by
  have hlen : (arrayStates st b.arrays).length = b.head.numOfArrays := by rw [arrayStates_eq, List.length_mapIdx, h.count]
  unfold dumpConfigurationBox
  refine Null.blk (seq_append_ok ?_ (Null.one ?_))
  · unfold dumpHvccHeader.items; safe
  · refine (Null.upTo (B := fun x => ∃ u ∈ x.2.units, ∀ n, u.nalUnit = some n → Spec.NoText o n) hlen (fun j x hx => ?_)).congr ?_
    · obtain ⟨e1, e2, e3⟩ := h.arrays x hx
      have hl2 : (withStates HvccUnit.payload x.1 x.2.units).length = x.2.head.numNalus := by rw [withStates_eq, List.length_mapIdx, e1]
      unfold dumpHvccArray
      refine Null.okCons (OkD.fld _ _) (Null.okCons (OkD.fld _ _) (Null.okCons (OkD.fld _ _) (Null.okCons (OkD.fld _ _) (Null.one ?_))))
      refine (Null.upTo (B := fun y => ∀ n, y.2.nalUnit = some n → Spec.NoText o n) hl2 (fun i y hy => ?_)).congr (mem_withStates (P := fun u : HvccUnit => ∀ n, u.nalUnit = some n → Spec.NoText o n))
      unfold dumpHvccUnit
      refine Null.okCons (OkD.fld _ _) (Null.one (Null.on ?_))
      refine (Null.deref (B := fun n => Spec.NoText o n) (fun n hn => (e3 y hy n hn).null)).congr ?_
      cases y.2.nalUnit with
      | none => simp
      | some n => simp
    · rw [arrayStates_eq]
      constructor
      · rintro ⟨x, hx, hn⟩
        obtain ⟨i, hi, rfl⟩ := List.mem_mapIdx.1 hx
        exact ⟨_, List.getElem_mem hi, hn⟩
      · rintro ⟨n, hn, hx⟩
        obtain ⟨i, hi, rfl⟩ := List.getElem_of_mem hn
        exact ⟨_, List.mem_mapIdx.2 ⟨i, hi, rfl⟩, hx⟩

end H265
