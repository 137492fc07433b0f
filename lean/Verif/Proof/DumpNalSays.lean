/-
The words of the text form of NAL units, bitstreams, configuration boxes and RTP payloads, and when a null pointer is dereferenced.
-/
import Verif.Proof.DumpSafe
import Verif.Proof.DumpSays
import Verif.Props.ConfigBox
import Verif.Props.Stream
import Verif.Spec.DumpNalText

set_option autoImplicit false

namespace H265
open Spec

/-! ### The parser state seen by each unit -/

theorem known_nil (st : ParserState) : known st [] = st := rfl

theorem known_cons (st : ParserState) (p : NalUnitPayload) (ps : List NalUnitPayload) : known st (p :: ps) = known (st.stored p) ps := by
  unfold known
  congr 1
  · funext i; rw [latest_cons]; unfold ParserState.stored; congr 1
    cases p.vps with
    | none => rfl
    | some x => simp only [mapSet, eq_comm (a := i)]
  · funext i; rw [latest_cons]; unfold ParserState.stored; congr 1
    cases p.sps with
    | none => rfl
    | some x => simp only [mapSet, eq_comm (a := i)]
  · funext i; rw [latest_cons]; unfold ParserState.stored; congr 1
    cases p.pps with
    | none => rfl
    | some x => simp only [mapSet, eq_comm (a := i)]

theorem withStates_eq {α : Type} (pay : α → Option NalUnitPayload) : ∀ (l : List α) (st : ParserState),
    withStates pay st l = l.mapIdx fun k a => (known st ((l.take k).filterMap pay), a)
  | [], st => rfl
  | a :: l, st => by
    rw [withStates, List.mapIdx_cons, withStates_eq pay l]
    congr 1
    congr 1
    funext k b
    rw [List.take_succ_cons, List.filterMap_cons]
    cases pay a with
    | none => rfl
    | some p => simp only; rw [known_cons]

theorem statesAfter_eq {α : Type} (pay : α → Option NalUnitPayload) : ∀ (l : List α) (st : ParserState),
    statesAfter pay st l = known st (l.filterMap pay)
  | [], st => rfl
  | a :: l, st => by
    rw [statesAfter, statesAfter_eq pay l, List.filterMap_cons]
    cases pay a with
    | none => rfl
    | some p => simp only; rw [known_cons]

theorem known_append (st : ParserState) : ∀ (ps qs : List NalUnitPayload), known st (ps ++ qs) = known (known st ps) qs
  | [], qs => rfl
  | p :: ps, qs => by rw [List.cons_append, known_cons, known_cons, known_append]

theorem arrayStates_eq : ∀ (l : List HvccArray) (st : ParserState),
    arrayStates st l = l.mapIdx fun j a => (known st (payloadsOf ((l.take j).flatMap (·.units))), a)
  | [], st => rfl
  | a :: l, st => by
    rw [arrayStates, List.mapIdx_cons, arrayStates_eq l, statesAfter_eq]
    congr 1
    congr 1
    funext k b
    rw [List.take_succ_cons, List.flatMap_cons, payloadsOf, payloadsOf, List.filterMap_append, known_append]
    rfl

theorem mapIdx_flatMap {α β γ : Type} (h : Nat → α → β) (g : β → List γ) : ∀ (l : List α), (l.mapIdx h).flatMap g = (l.mapIdx fun i a => g (h i a)).flatten := by
  intro l
  induction l generalizing h with
  | nil => rfl
  | cons a l ih => simp only [List.mapIdx_cons, List.flatMap_cons, List.flatten_cons]; rw [ih]

/-! ### Members of lists -/

theorem Line.eachMem {α : Type} {l : List α} {f : α → Dump} {g : α → Text} (h : ∀ a ∈ l, Line (f a) (g a)) : Line (Dump.each l f) (l.flatMap g) := by
  have : ∀ (l : List α), (∀ a ∈ l, Line (f a) (g a)) → Lists (l.map f) (l.map g) := by
    intro l h
    induction l with
    | nil => exact Lists.nil
    | cons a l ih => exact Lists.cons (h a (by simp)) (ih (fun b hb => h b (by simp [hb])))
  exact Line.seq (this l h)

theorem Line.upToMem {α : Type} {n : Nat} {l : List α} {f : Nat → α → Dump} {g : Nat → α → Text} (h : ∀ i a, a ∈ l → Line (f i a) (g i a)) :
    Line (Dump.upTo n l f) ((l.take n).mapIdx g).flatten := by
  unfold Dump.upTo; split
  · have : ∀ (l : List α) (f : Nat → α → Dump) (g : Nat → α → Text), (∀ i a, a ∈ l → Line (f i a) (g i a)) → Lists (l.mapIdx f) (l.mapIdx g) := by
      intro l
      induction l with
      | nil => intro f g _; exact Lists.nil
      | cons a l ih =>
        intro f g h; rw [List.mapIdx_cons, List.mapIdx_cons]
        exact Lists.cons (h 0 a (by simp)) (ih _ _ (fun i b hb => h (i + 1) b (by simp [hb])))
    exact Line.seq (this _ f g (fun i a ha => h i a (List.mem_of_mem_take ha)))
  · exact ⟨(by intro d lvl r hd; cases hd), (by intro d hd; cases hd)⟩

/-! ### Payloads -/

/-- the payload was returned by the payload parser, in state `st`, for NAL unit type `t` -/
def ParsedIn (st : ParserState) (t : Nat) (p : NalUnitPayload) : Prop :=
  ∃ bb bb' st', bb.WF ∧ (parseNalUnitPayload t st).run bb = .ok (p, st') bb'

theorem says_dumpSlice (st : ParserState) (h : SliceSegmentHeader) : Says (dumpSlice st h) (textSlice st h) :=
  Says.deref (fun _ => Says.deref (fun _ => says_dumpSliceSegmentLayer _ _ _))

theorem ParsedIn.fields {st : ParserState} {t : Nat} {p : NalUnitPayload} (h : ParsedIn st t p) :
    (t ≠ 32 → p.vps = none) ∧ (t ≠ 33 → p.sps = none) ∧ (t ≠ 34 → p.pps = none) ∧ (t ≠ 35 → p.aud = none) ∧
    (¬ isSliceSegment t = true → p.slice_segment_layer = none) ∧ (¬ (t = 39 ∨ t = 40) → p.sei = none) := by
  obtain ⟨bb, bb', st', _, hr⟩ := h
  obtain ⟨h1, h2, h3, h4, h5, h6⟩ := C21_payload hr
  have key : ∀ {α : Type} {c : Prop} {P : α → Prop} (o : Option α), (∀ x, o = some x → c ∧ P x) → ¬ c → o = none := by
    intro α c P o h hc
    cases o with
    | none => rfl
    | some x => exact absurd (h x rfl).1 hc
  exact ⟨fun h => key _ h1 h, fun h => key _ h2 h, fun h => key _ h3 h, fun h => key _ h4 h, fun h => key _ h5 h, fun h => key _ h6 h⟩

theorem isSlice_iff (t : Nat) : isSliceSegment t = true ↔ (t ≤ 9 ∨ (16 ≤ t ∧ t ≤ 21)) := by
  unfold isSliceSegment
  simp only [List.contains_eq_mem, decide_eq_true_eq, List.mem_cons, List.not_mem_nil, or_false]
  omega

theorem block_of_flatten {name : String} {ts us : List Text} (h : ts.flatten = us.flatten) : block name ts = block name us := by
  unfold block; rw [h]

theorem says_dumpNalUnitPayload {o : ParsingOptions} {st : ParserState} {t : Nat} {p : NalUnitPayload} (h : ParsedIn st t p) :
    Says (dumpNalUnitPayload o st t p) (textNalUnitPayload o st p) := by
  obtain ⟨f1, f2, f3, f4, f5, f6⟩ := h.fields
  have hres : ∀ v, p.sps = some v → v.body.getResolution = .ok
    (v.body.pic_width_in_luma_samples - subWidthC v.body.chroma_format_idc * (v.body.conf_win_left_offset + v.body.conf_win_right_offset),
     v.body.pic_height_in_luma_samples - subHeightC v.body.chroma_format_idc * (v.body.conf_win_top_offset + v.body.conf_win_bottom_offset)) := by
    intro v hv
    obtain ⟨bb, bb', st', hw, hr⟩ := h
    exact C42_resolution hw ((C21_payload hr).2.1 v hv).2
  rw [isSlice_iff] at f5
  unfold dumpNalUnitPayload dumpNalUnitPayload.items
  have key : ∀ x ws, Says x ws → ws = List.flatten [
    some? p.slice_segment_layer (textSlice st), some? p.vps textVps, some? p.sps (textSps o.add_resolution),
    some? p.pps textPps, some? p.aud textAud, some? p.sei textSei] →
    Says (Dump.blk "nal_unit_payload" [.on x]) (textNalUnitPayload o st p) := by
    intro x ws hx hw
    have : textNalUnitPayload o st p = block "nal_unit_payload" [ws] := block_of_flatten (by rw [hw]; simp only [List.flatten_cons, List.flatten_nil, List.append_nil])
    rw [this]
    exact Says.blk (Lists.cons (Line.on hx) Lists.nil)
  split
  · rename_i h0
    refine key _ _ (Says.ifSome (says_dumpSlice st)) ?_
    rw [f1 (by omega), f2 (by omega), f3 (by omega), f4 (by omega), f6 (by omega)]; simp [some?]
  rename_i h0
  rw [f5 h0] at key
  split
  · rename_i h1; subst h1
    refine key _ _ (Says.ifSome says_dumpVps) ?_
    rw [f2 (by omega), f3 (by omega), f4 (by omega), f6 (by omega)]; simp [some?]
  rename_i h1
  rw [f1 h1] at key
  split
  · rename_i h1; subst h1
    refine key _ (some? p.sps (textSps o.add_resolution)) ?_ ?_
    · cases hs : p.sps with
      | none => intro d hd; cases hd; rfl
      | some v => simpa [some?, Dump.ifSome] using says_dumpSps o.add_resolution v (fun _ => hres v hs)
    · rw [f3 (by omega), f4 (by omega), f6 (by omega)]; simp [some?]
  rename_i h2
  rw [f2 h2] at key
  split
  · rename_i h1; subst h1
    refine key _ _ (Says.ifSome says_dumpPps) ?_
    rw [f4 (by omega), f6 (by omega)]; simp [some?]
  rename_i h3
  rw [f3 h3] at key
  split
  · rename_i h1; subst h1
    refine key _ _ (Says.deref says_dumpAud) ?_
    rw [f6 (by omega)]; simp [some?]
  rename_i h4
  rw [f4 h4] at key
  split
  · refine key _ _ (Says.ifSome says_dumpSei) ?_
    simp [some?]
  · rename_i h5
    refine key _ [] (fun d hd => by cases hd; rfl) ?_
    rw [f6 h5]; simp [some?]

/-! ### NAL units and streams -/

theorem flatMap_solid {α : Type} {f : α → List Char} (h : ∀ a, Solid (f a)) : ∀ (l : List α), ∀ c ∈ l.flatMap f, blank c = false := by
  intro l c hc
  obtain ⟨a, _, ha⟩ := List.mem_flatMap.1 hc
  exact (h a).2 c ha

theorem solid_0x {w : List Char} (h : ∀ c ∈ w, blank c = false) : Solid ("0x".toList ++ w) := by
  refine ⟨by simp, fun c hc => ?_⟩
  rcases List.mem_append.1 hc with hc | hc
  · have : c = '0' ∨ c = 'x' := by simpa using hc
    rcases this with rfl | rfl <;> rfl
  · exact h c hc

theorem dumpChecksum_eq {c : List UInt8} (h : c.length ≤ 31) : dumpChecksum c = c.flatMap fun b => hexadecimal 2 b.toNat := by
  unfold dumpChecksum
  rw [List.take_of_length_le h]
  simp only [putX0_hex]

theorem says_dumpNalUnit {o : ParsingOptions} {st : ParserState} {n : NalUnit} (h : ParsedIn st n.nal_unit_header.nal_unit_type n.nal_unit_payload)
    (hc : ∀ c, n.checksum = some c → c.length ≤ 31) : Says (dumpNalUnit o st n) (textNalUnit o st n) := by
  unfold dumpNalUnit dumpNalUnit.items textNalUnit
  refine Says.blk (Lists.cons ?_ (Lists.cons ?_ (Lists.cons ?_ (Lists.cons ?_ (Lists.cons ?_ (Lists.cons ?_ Lists.nil))))))
  · refine Line.cond (Lists.cons (Line.fldText (NameSolid.lit _ rfl rfl) ?_) Lists.nil)
    rw [putX0_hex, words_solid]
    rw [← putX0_hex]
    exact solid_0x (putX0_word 8 n.offset).solid.2
  · exact Line.cond (Lists.cons (Line.fldU (NameSolid.lit _ rfl rfl)) Lists.nil)
  · exact Line.cond (Lists.cons (Line.fldU (NameSolid.lit _ rfl rfl)) Lists.nil)
  · refine Line.cond (Lists.cons ?_ Lists.nil)
    cases hk : n.checksum with
    | none => exact ⟨Spaced.deref (fun a => Spaced.fld _ _), (by intro d hd; cases hd)⟩
    | some c =>
      have := Line.fldText (name := "checksum") (v := "0x".toList ++ dumpChecksum c) (NameSolid.lit _ rfl rfl) rfl
      rw [words_solid (solid_0x (by
        unfold dumpChecksum
        exact flatMap_solid (fun b : UInt8 => (putX0_word 2 b.toNat).solid) _)), dumpChecksum_eq (hc c hk)] at this
      simpa [some?, Dump.deref, dumpChecksum_eq (hc c hk)] using this
  · exact Line.on (says_dumpNalUnitHeader _)
  · exact Line.on (says_dumpNalUnitPayload h)

/-! ### Null pointers -/

/-- The outcome of a dump: a null pointer is dereferenced if `B`, and nothing bad happens if not `B`. -/
def Null (x : Dump) (B : Prop) : Prop := (B ∧ x = .error .nullDeref) ∨ (¬ B ∧ OkD x)

theorem Null.ok {x : Dump} (h : OkD x) : Null x False := .inr ⟨fun h => h, h⟩
theorem Null.congr {x : Dump} {B C : Prop} (h : Null x B) (hc : B ↔ C) : Null x C := by
  rcases h with ⟨h1, h2⟩ | ⟨h1, h2⟩
  · exact .inl ⟨hc.1 h1, h2⟩
  · exact .inr ⟨fun h => h1 (hc.2 h), h2⟩
theorem Null.nil : Null (Dump.seq []) False := Null.ok ⟨_, rfl⟩
theorem Null.cons {x : Dump} {l : List Dump} {B C : Prop} (h : Null x B) (hl : Null (Dump.seq l) C) : Null (Dump.seq (x :: l)) (B ∨ C) := by
  rcases h with ⟨h1, rfl⟩ | ⟨h1, a, rfl⟩
  · exact .inl ⟨.inl h1, rfl⟩
  · rcases hl with ⟨h2, hs⟩ | ⟨h2, b, hs⟩
    · exact .inl ⟨.inr h2, by simp [Dump.seq, hs]⟩
    · exact .inr ⟨fun h => h.elim h1 h2, _, by simp only [Dump.seq, hs]; rfl⟩
theorem Null.okCons {x : Dump} {l : List Dump} {C : Prop} (h : OkD x) (hl : Null (Dump.seq l) C) : Null (Dump.seq (x :: l)) C :=
  (Null.cons (Null.ok h) hl).congr (by simp)
theorem Null.one {x : Dump} {B : Prop} (h : Null x B) : Null (Dump.seq [x]) B := (Null.cons h Null.nil).congr (by simp)
theorem Null.on {x : Dump} {B : Prop} (h : Null x B) : Null (Dump.on x) B := Null.okCons ⟨_, rfl⟩ (Null.one h)
theorem Null.blk {name : String} {l : List Dump} {B : Prop} (h : Null (Dump.seq l) B) : Null (Dump.blk name l) B := by
  rcases h with ⟨h1, h2⟩ | ⟨h1, a, h2⟩
  · exact .inl ⟨h1, by unfold Dump.blk; rw [h2]⟩
  · exact .inr ⟨h1, _, by unfold Dump.blk; rw [h2]⟩
theorem Null.cond {c : Prop} [Decidable c] {l : List Dump} {B : Prop} (h : c → Null (Dump.seq l) B) : Null (Dump.cond c l) (c ∧ B) := by
  unfold Dump.cond; split
  · rename_i hc; exact (h hc).congr (by simp [hc])
  · rename_i hc; exact (Null.ok ⟨_, rfl⟩).congr (by simp [hc])
theorem Null.deref {α : Type} {o : Option α} {f : α → Dump} {B : α → Prop} (h : ∀ a, o = some a → Null (f a) (B a)) :
    Null (Dump.deref o f) (o = none ∨ ∃ a, o = some a ∧ B a) := by
  cases o with
  | none => exact .inl ⟨.inl rfl, rfl⟩
  | some a => exact (h a rfl).congr (by simp)
theorem Null.ifSome {α : Type} {o : Option α} {f : α → Dump} {B : α → Prop} (h : ∀ a, o = some a → Null (f a) (B a)) :
    Null (Dump.ifSome o f) (∃ a, o = some a ∧ B a) := by
  cases o with
  | none => exact (Null.ok ⟨_, rfl⟩).congr (by simp)
  | some a => exact (h a rfl).congr (by simp)
theorem Null.list {l : List Dump} {B : Dump → Prop} (h : ∀ a ∈ l, Null a (B a)) : Null (Dump.seq l) (∃ a ∈ l, B a) := by
  induction l with
  | nil => exact Null.nil.congr (by simp)
  | cons a l ih => exact (Null.cons (h a (by simp)) (ih (fun b hb => h b (by simp [hb])))).congr (by simp)
theorem Null.each {α : Type} {l : List α} {f : α → Dump} {B : α → Prop} (h : ∀ a ∈ l, Null (f a) (B a)) : Null (Dump.each l f) (∃ a ∈ l, B a) := by
  unfold Dump.each
  induction l with
  | nil => exact Null.nil.congr (by simp)
  | cons a l ih => exact (Null.cons (h a (by simp)) (ih (fun b hb => h b (by simp [hb])))).congr (by simp)
theorem Null.upTo {α : Type} {n : Nat} {l : List α} {f : Nat → α → Dump} {B : α → Prop} (hn : l.length = n) (h : ∀ i a, a ∈ l → Null (f i a) (B a)) :
    Null (Dump.upTo n l f) (∃ a ∈ l, B a) := by
  unfold Dump.upTo
  subst hn
  rw [if_pos (Nat.le_refl _), List.take_length]
  induction l generalizing f with
  | nil => exact Null.nil.congr (by simp)
  | cons a l ih =>
    rw [List.mapIdx_cons]
    exact (Null.cons (h 0 a (by simp)) (ih (fun i b hb => h (i + 1) b (by simp [hb])))).congr (by simp)

theorem pps_facts {bb bb' : BB} {s : Pps} (h : bb.WF) (hr : parsePps.run bb = .ok s bb') :
    (s.body.head.pps_scc_extension_flag ≠ 0 → s.body.pps_scc_extension.isSome) ∧ s.body.head.pps_multilayer_extension_flag < 2 := by
  obtain ⟨r, hd, _⟩ := parsePps_run h hr
  have hs := parsePpsBody_sound (H := Cond.canon) (A := fun k => k = .signedOverflow) bb.rem
  rw [hd] at hs
  obtain ⟨w, _, _, hv, _, hm, _⟩ := hs
  refine ⟨fun h => hm.present.2 h, ?_⟩
  by_cases hp : s.body.head.pps_extension_present_flag ≠ 0
  · have := hv.pps_multilayer_extension_flag.present hp; omega
  · have := hv.pps_multilayer_extension_flag.absent hp; omega

theorem null_dumpPps {bb bb' : BB} {s : Pps} (h : bb.WF) (hr : parsePps.run bb = .ok s bb') : Null (dumpPps s) (Spec.MultilayerLost s.body) := by
  obtain ⟨hs, hf⟩ := pps_facts h hr
  by_cases hl : Spec.MultilayerLost s.body
  · refine .inl ⟨hl, ?_⟩
    have key : Null (dumpPps s) True := by
      unfold dumpPps dumpPps.items
      apply Null.blk
      repeat first
        | exact (Null.cons (B := True) (C := False) ((Null.cond (B := True) (fun _ => Null.one (Null.on ((Null.deref (B := fun _ => True) (fun a ha => absurd ha (by rw [hl.2]; simp))).congr
            (by simp [hl.2]))))).congr (by simp [hl.1])) (Null.one (Null.ok (OkD.cond (fun hc => OkAll.cons (OkD.on (OkD.deref (hs hc) (fun _ _ => safe_dumpPpsSccExtension _))) OkAll.nil))))).congr (by simp)
        | refine Null.okCons (OkD.fld _ _) ?_
        | refine Null.okCons (by repeat' first | exact OkD.deref (And.right (by assumption)) (fun _ _ => safe_dumpScalingListData _) | safe1) ?_
    rcases key with ⟨_, h2⟩ | ⟨h1, _⟩
    · exact h2
    · exact absurd trivial h1
  · refine .inr ⟨hl, safe_dumpPps hs (fun hm => ?_)⟩
    cases hn : s.body.pps_multilayer_extension with
    | none => exact absurd ⟨by omega, hn⟩ hl
    | some _ => rfl

theorem null_dumpNalUnitPayload {o : ParsingOptions} {st : ParserState} {t : Nat} {p : NalUnitPayload} (hst : Reach st) (h : ParsedIn st t p) :
    Null (dumpNalUnitPayload o st t p) (Spec.NoPayload t p) := by
  obtain ⟨f1, f2, f3, f4, f5, f6⟩ := h.fields
  rw [isSlice_iff] at f5
  obtain ⟨bb, bb', st', hw, hr⟩ := h
  obtain ⟨h1, h2, h3, h4, h5, h6⟩ := C21_payload hr
  have hok := C21_reachable_states hst
  unfold dumpNalUnitPayload dumpNalUnitPayload.items
  refine Null.blk (Null.one (Null.on ?_))
  unfold Spec.NoPayload
  split
  · refine (Null.ok (OkD.ifSome (fun s hs => ?_))).congr ?_
    · obtain ⟨P, S, hn, hv, _⟩ := C36_slice_sound (fun i P hP => (hok.pps i P hP).1) (fun i P hP => (hok.sps i P hP).1) hw (h5 s hs).2
      have e : dumpSlice st s = dumpSliceSegmentLayer P.body S.body s := by
        unfold dumpSlice
        rw [hn.1]
        simp only [Dump.deref]
        rw [hn.2]
      rw [e]
      refine safe_dumpSliceSegmentLayer (t := s.head.first_slice_segment_in_pic_flag) ?_
      rw [hv.nal_unit_type]; exact hv.body
    · rw [f3 (by omega)]; simp; omega
  split
  · subst t
    refine (Null.ok (OkD.ifSome (fun s hs => ?_))).congr (by rw [f3 (by omega)]; simp)
    exact safe_dumpVps (C28_vps_inverts.sound _ _ _ hw (h1 s hs).2).1
  split
  · subst t
    refine (Null.ok (OkD.ifSome (fun s hs => ?_))).congr (by rw [f3 (by omega)]; simp)
    refine safe_dumpSps (C27_sps_inverts.sound _ _ _ hw (h2 s hs).2).1 ?_
    unfold dumpResolution
    rw [C42_resolution hw (h2 s hs).2]
    simp only
    safe
  split
  · subst t
    refine (Null.ifSome (B := fun s => Spec.MultilayerLost s.body) (fun s hs => null_dumpPps hw (h3 s hs).2)).congr (by simp)
  rename_i h34
  split
  · subst t
    exact (Null.deref (B := fun _ => False) (fun s hs => Null.ok (safe_dumpAud s))).congr (by rw [f3 (by omega)]; simp)
  rename_i h35
  rw [f3 h34]
  split
  · refine (Null.ok (OkD.ifSome (fun s hs => safe_dumpSei (fun q hq => ?_)))).congr (by simp [h35])
    obtain ⟨_, _, _, _, rest, _, hv⟩ := C40_sei_sound hw (h6 s hs).2
    rw [hq] at hv
    exact hv.1
  · exact (Null.ok ⟨_, rfl⟩).congr (by simp [h35])

theorem null_dumpNalUnit {o : ParsingOptions} {st : ParserState} {n : NalUnit} (hst : Reach st)
    (h : ParsedIn st n.nal_unit_header.nal_unit_type n.nal_unit_payload) : Null (dumpNalUnit o st n) (Spec.NoText o n) := by
  unfold dumpNalUnit dumpNalUnit.items Spec.NoText
  refine Null.blk ?_
  refine Null.okCons (by safe) (Null.okCons (by safe) (Null.okCons (by safe) (Null.cons ?_ (Null.okCons (OkD.on (safe_dumpNalUnitHeader _))
    (Null.one (Null.on (null_dumpNalUnitPayload hst h)))))))
  exact Null.cond (fun _ => (Null.one ((Null.deref (B := fun _ => False) (fun _ _ => Null.ok (OkD.fld _ _))).congr (by simp))))

/-! ### What the parsers return -/

theorem stored_payload {t : Nat} {st st' : ParserState} {bb bb' : BB} {p : NalUnitPayload} (h : (parseNalUnitPayload t st).run bb = .ok (p, st') bb') :
    st' = st.stored p := by
  obtain ⟨h1, h2, h3⟩ := payload_effect h
  cases st'
  simp only at h1 h2 h3
  rw [h1, h2, h3]
  rfl

/-- a NAL unit parsed in a state that can arise, with or without checksum -/
structure UnitOk (cs : Bool) (st : ParserState) (n : NalUnit) : Prop where
  reach : Reach st
  parsed : ParsedIn st n.nal_unit_header.nal_unit_type n.nal_unit_payload
  checksum : n.checksum.isSome = cs
  short : ∀ c, n.checksum = some c → c.length ≤ 31
  header : ValidNalUnitHeader n.nal_unit_header

theorem UnitOk.says {cs : Bool} {o : ParsingOptions} {st : ParserState} {n : NalUnit} (h : UnitOk cs st n) : Says (dumpNalUnit o st n) (textNalUnit o st n) :=
  says_dumpNalUnit h.parsed h.short
theorem UnitOk.null {cs : Bool} {o : ParsingOptions} {st : ParserState} {n : NalUnit} (h : UnitOk cs st n) : Null (dumpNalUnit o st n) (Spec.NoText o n) :=
  null_dumpNalUnit h.reach h.parsed

theorem parseNalUnit_unit {cs : Bool} {st st' : ParserState} {data : List UInt8} {n : NalUnit} {b : BB} (hs : Reach st)
    (h : parseNalUnit cs st data = .ok (n, st') b) : UnitOk cs st n ∧ st' = st.stored n.nal_unit_payload := by
  obtain ⟨rbsp, _, hp⟩ := parseNalUnit_ok h
  obtain ⟨b1, b2, h1, h2, _⟩ := hp.parts
  refine ⟨⟨hs, ⟨b1, b2, st', (run_ok_wf (BB.WF.init rbsp) h1).1, h2⟩, ?_, ?_, (parseNalUnitHeader_codec.inverts.sound _ _ _ (BB.WF.init rbsp) h1).1⟩, stored_payload h2⟩
  · rw [hp.checksum]; cases cs <;> rfl
  · intro c hc
    rw [hp.checksum] at hc
    cases cs with
    | false => cases hc
    | true => simp only [if_true, Option.some.injEq] at hc; subst hc; rw [beBytes_length]; omega

theorem UnitOk.place {cs : Bool} {st : ParserState} {n : NalUnit} {off len : Nat} (h : UnitOk cs st n) :
    UnitOk cs st { n with offset := off, length := len } := ⟨h.reach, h.parsed, h.checksum, h.short, h.header⟩

theorem parseAll_units {cs : Bool} : ∀ {l : List (Nat × Nat × List UInt8)} {st st' : ParserState} {ns : List NalUnit}, Reach st →
    parseAll cs l st = .ok (ns, st') → ∀ x ∈ withStates (fun n => some n.nal_unit_payload) st ns, UnitOk cs x.1 x.2
  | [], st, st', ns, hs, h => by cases h; intro x hx; cases hx
  | (off, len, nal) :: rest, st, st', ns, hs, h => by
    simp only [parseAll] at h
    cases hp : parseNalUnit cs st nal with
    | bad k => rw [hp] at h; cases h
    | fail b => rw [hp] at h; exact parseAll_units hs h
    | ok x b =>
      obtain ⟨n, st1⟩ := x
      rw [hp] at h
      simp only at h
      cases hr : parseAll cs rest st1 with
      | error k => rw [hr] at h; cases h
      | ok y =>
        rw [hr] at h
        cases h
        obtain ⟨hu, hst⟩ := parseNalUnit_unit hs hp
        intro x hx
        rw [withStates] at hx
        rcases List.mem_cons.1 hx with rfl | hx
        · exact hu.place
        · refine parseAll_units (hs.step (parseNalUnit_steps hp)) hr x ?_
          rw [hst]; exact hx

theorem hvccNals_units {cs : Bool} {st st' : ParserState} {nals : List (List UInt8)} {us : List HvccUnit} (hs : Reach st) (h : HvccNals cs st nals us st') :
    (∀ x ∈ withStates HvccUnit.payload st us, ∀ n, x.2.nalUnit = some n → UnitOk cs x.1 n) ∧ us.length = nals.length ∧
      st' = statesAfter HvccUnit.payload st us ∧ Reach st' := by
  induction h with
  | nil st => exact ⟨(by intro x hx; cases hx), rfl, rfl, hs⟩
  | @ok st st1 st2 nal nals n us b hp ht ih =>
    obtain ⟨hu, hst⟩ := parseNalUnit_unit hs hp
    obtain ⟨h1, h2, h3, h4⟩ := ih (hs.step (parseNalUnit_steps hp))
    refine ⟨fun x hx => ?_, by simp [h2], ?_, h4⟩
    · rw [withStates] at hx
      rcases List.mem_cons.1 hx with rfl | hx
      · intro m hm; cases hm; exact hu
      · exact h1 x (by rw [hst]; exact hx)
    · rw [h3, hst]; rfl
  | @null st st2 nal nals us b hp ht ih =>
    obtain ⟨h1, h2, h3, h4⟩ := ih hs
    refine ⟨fun x hx => ?_, by simp [h2], ?_, h4⟩
    · rw [withStates] at hx
      rcases List.mem_cons.1 hx with rfl | hx
      · intro m hm; cases hm
      · exact h1 x hx
    · rw [h3]; rfl

theorem hvccParsed_units {cs : Bool} {st st' : ParserState} {raw : List (HvccArrayHead × List (List UInt8))} {as : List HvccArray} (hs : Reach st)
    (h : HvccParsed cs st raw as st') (hn : ∀ a ∈ raw, a.2.length = a.1.numNalus ∧ a.1.numNalus < 2 ^ 16) :
    (∀ x ∈ arrayStates st as, x.2.units.length = x.2.head.numNalus ∧ x.2.head.numNalus < 2 ^ 16 ∧ ∀ y ∈ withStates HvccUnit.payload x.1 x.2.units, ∀ n, y.2.nalUnit = some n → UnitOk cs y.1 n) ∧
      as.length = raw.length := by
  induction h with
  | nil st => exact ⟨(by intro x hx; cases hx), rfl⟩
  | @cons st st1 st2 h nals us as bs hu ht ih =>
    obtain ⟨h1, h2, h3, h4⟩ := hvccNals_units hs hu
    obtain ⟨g1, g2⟩ := ih h4 (fun a ha => hn a (by simp [ha]))
    refine ⟨fun x hx => ?_, by simp [g2]⟩
    rw [arrayStates] at hx
    rcases List.mem_cons.1 hx with rfl | hx
    · have := hn (h, nals) (by simp)
      exact ⟨h2.trans this.1, this.2, h1⟩
    · exact g1 x (by rw [h3]; exact hx)

theorem PayloadOn.parsed {t : Nat} {st st' : ParserState} {r r' : List Bool} {p : NalUnitPayload} (h : PayloadOn t st r p st' r') :
    ParsedIn st t p ∧ st' = st.stored p ∧ Steps st [p] st' := by
  obtain ⟨b, b', hw, _, _, hr⟩ := h
  exact ⟨⟨b, b', st', hw, hr⟩, stored_payload hr, .cons hw hr (.nil _)⟩

theorem apUnits_units {st st' : ParserState} {r : List Bool} {us : List RtpApUnit} (hs : Reach st) (h : ApUnits st r us st') :
    ∀ x ∈ withStates (fun u => some u.nal_unit_payload) st us, Reach x.1 ∧ ParsedIn x.1 x.2.nal_unit_header.nal_unit_type x.2.nal_unit_payload := by
  induction h with
  | nil st => intro x hx; cases hx
  | @cons st st1 st2 size h p r r' us _ _ _ hp ht ih =>
    obtain ⟨h1, h2, h3⟩ := hp.parsed
    intro x hx
    rw [withStates] at hx
    rcases List.mem_cons.1 hx with rfl | hx
    · exact ⟨hs, h1⟩
    · exact ih (hs.step h3) x (by rw [h2]; exact hx)

end H265
