/- C43: hvcC configuration boxes. -/
import Verif.Proof.Hvcc
import Verif.Spec.HvccBox
import Verif.Props.Nal
import Verif.Props.Rtp

namespace H265
open Spec

/-! ### soundness -/

theorem bitsOf_list_u8 (l : List UInt8) : bitsOf l = Spec.list (Spec.u 8) (l.map (·.toNat)) := by
  induction l with
  | nil => rfl
  | cons b t ih => rw [bitsOf_cons, ih]; rfl

theorem map_ofNat_toNat : ∀ l : List Nat, (∀ x ∈ l, x < 2 ^ 8) → (l.map UInt8.ofNat).map (·.toNat) = l
  | [], _ => rfl
  | x :: l, h => by
    have := h x (by simp)
    simp only [List.map_cons, map_ofNat_toNat l (fun y hy => h y (by simp [hy]))]
    rw [UInt8.toNat_ofNat', Nat.mod_eq_of_lt this]

theorem map_toNat_ofNat (l : List UInt8) : (l.map (·.toNat)).map UInt8.ofNat = l := by
  rw [List.map_map]
  exact (List.map_congr_left (g := id) (fun b _ => by simp)).trans (List.map_id l)

section
codec_opaque
theorem hvccBytes_codec {H : Cond} {A : Bad → Prop} [CondOk H] : Codec H A parseHvccBytes hvccUnitBits (fun l => l.length < 2 ^ 16) where
  sound := by
    unfold parseHvccBytes
    refine Codec.snd_bind (u_codec (by decide) (by decide)) (fun n hn => ?_)
    refine Codec.snd_bind (rep_codec (u_codec (n := 8) (by decide) (by decide))) (fun l hl => ?_)
    refine Snd.pure ⟨?_, ?_⟩
    · unfold hvccUnitBits
      rw [bitsOf_list_u8, map_ofNat_toNat l hl.2, List.length_map, hl.1, List.append_nil]
    · simp only [List.length_map, hl.1]; exact hn
  complete := by
    intro l hl
    unfold parseHvccBytes hvccUnitBits
    rw [bitsOf_list_u8]
    refine Codec.cmp_bind (u_codec (by decide) (by decide)) rfl hl ?_
    rw [← List.append_nil (Spec.list _ _)]
    refine Codec.cmp_bind (rep_codec (u_codec (n := 8) (by decide) (by decide))) rfl ⟨by simp, ?_⟩ ?_
    · intro x hx
      obtain ⟨b, _, rfl⟩ := List.mem_map.mp hx
      exact b.toNat_lt
    · rw [map_toNat_ofNat]; exact Cmp.pure
end

theorem hvccUnits_sound (cs : Bool) : ∀ (n : Nat) (st st' : ParserState) (bb bb' : BB) (us : List HvccUnit), bb.WF →
    (hvccUnits cs n st).run bb = .ok (some us, st') bb' →
    ∃ nals, nals.length = n ∧ (∀ x ∈ nals, x.length < 2 ^ 16) ∧ HvccNals cs st nals us st' ∧ bb'.WF ∧ bb.rem = (nals.map hvccUnitBits).flatten ++ bb'.rem
  | 0, st, st', bb, bb', us, hw, h => by
    cases h
    exact ⟨[], rfl, by simp, .nil _, hw, by simp⟩
  | n + 1, st, st', bb, bb', us, hw, h => by
    simp only [hvccUnits] at h
    obtain ⟨o, c1, h1, h⟩ := Prog.bind_ok h
    rw [Prog.run_attempt] at h1
    split at h1
    · rename_i nal c hx
      cases h1
      obtain ⟨hl, w1, _, r1⟩ := (hvccBytes_codec (H := Cond.any) (A := fun _ => False)).inverts.sound _ _ _ hw hx
      obtain ⟨⟨o, st1⟩, c2, h2, h⟩ := Prog.bind_ok h
      obtain ⟨⟨o2, st2⟩, c3, h3, h⟩ := Prog.bind_ok h
      cases o2 with
      | none => cases h
      | some us' =>
        cases h
        unfold hvccNal at h2
        split at h2
        · rename_i x s b hp
          cases h2
          obtain ⟨nals, e1, e2, e3, e4, e5⟩ := hvccUnits_sound cs n _ _ _ _ _ w1 h3
          exact ⟨nal :: nals, by simp [e1], by simp [hl]; exact e2, .ok hp e3, e4, by rw [r1, e5]; simp⟩
        · rename_i b hp
          cases h2
          obtain ⟨nals, e1, e2, e3, e4, e5⟩ := hvccUnits_sound cs n _ _ _ _ _ w1 h3
          exact ⟨nal :: nals, by simp [e1], by simp [hl]; exact e2, .null hp e3, e4, by rw [r1, e5]; simp⟩
        · cases h2
    · cases h1; cases h
    · cases h1

theorem hvccArrays_sound (cs : Bool) : ∀ (n : Nat) (st st' : ParserState) (bb bb' : BB) (as : List HvccArray), bb.WF →
    (hvccArrays cs n st).run bb = .ok (some as, st') bb' →
    ∃ raw, raw.length = n ∧ (∀ a ∈ raw, ValidHvccArrayHead a.1 ∧ a.2.length = a.1.numNalus ∧ ∀ x ∈ a.2, x.length < 2 ^ 16) ∧
      HvccParsed cs st raw as st' ∧ bb'.WF ∧ bb.rem = (raw.map hvccArrayBits).flatten ++ bb'.rem
  | 0, st, st', bb, bb', us, hw, h => by
    cases h
    exact ⟨[], rfl, by simp, .nil _, hw, by simp⟩
  | n + 1, st, st', bb, bb', us, hw, h => by
    simp only [hvccArrays] at h
    obtain ⟨o, c1, h1, h⟩ := Prog.bind_ok h
    rw [Prog.run_attempt] at h1
    split at h1
    · rename_i hd c hx
      cases h1
      obtain ⟨hl, w1, _, r1⟩ := (parseHvccArrayHead_codec (H := Cond.any) (A := fun _ => False)).inverts.sound _ _ _ hw hx
      obtain ⟨⟨o, st1⟩, c2, h2, h⟩ := Prog.bind_ok h
      cases o with
      | none => cases h
      | some units =>
        obtain ⟨⟨o2, st2⟩, c3, h3, h⟩ := Prog.bind_ok h
        cases o2 with
        | none => cases h
        | some as' =>
          cases h
          obtain ⟨nals, d1, d2, d3, d4, d5⟩ := hvccUnits_sound cs _ _ _ _ _ _ w1 h2
          obtain ⟨raw, e1, e2, e3, e4, e5⟩ := hvccArrays_sound cs n _ _ _ _ _ d4 h3
          refine ⟨(hd, nals) :: raw, by simp [e1], ?_, .cons d3 e3, e4, by rw [r1, d5, e5]; simp [hvccArrayBits]⟩
          intro a ha
          rcases List.mem_cons.mp ha with rfl | ha
          · exact ⟨hl, d1, d2⟩
          · exact e2 a ha
    · cases h1; cases h
    · cases h1

/-- C43: a box that is returned is a configuration record of version 1 with the right reserved bits; it holds the fields of that record, and the results of parsing its
NAL units, one entry per NAL unit announced, in order, each parsed with the parser state left by the ones before. -/
theorem C43_sound {cs : Bool} {st st' : ParserState} {bb bb' : BB} {box : ConfigurationBox} (hw : bb.WF)
    (h : (parseConfigurationBox cs st).run bb = .ok (some box, st') bb') :
    ∃ x : Hvcc, x.Valid ∧ bb.rem = x.bits ++ bb'.rem ∧ box.head = x.head ∧ HvccParsed cs st x.arrays box.arrays st' := by
  unfold parseConfigurationBox at h
  obtain ⟨o, c1, h1, h⟩ := Prog.bind_ok h
  rw [Prog.run_attempt] at h1
  split at h1
  · rename_i hd c hx
    cases h1
    obtain ⟨hl, w1, _, r1⟩ := (parseHvccHeader_codec (H := Cond.any) (A := fun _ => False)).inverts.sound _ _ _ hw hx
    obtain ⟨⟨o, s2⟩, c2, h2, h⟩ := Prog.bind_ok h
    cases o with
    | none => cases h
    | some as =>
      cases h
      obtain ⟨raw, e1, e2, e3, e4, e5⟩ := hvccArrays_sound cs _ _ _ _ _ _ w1 h2
      exact ⟨⟨hd, raw⟩, ⟨hl, e1, fun a ha => (e2 a ha).1, fun a ha => (e2 a ha).2.1, fun a ha => (e2 a ha).2.2⟩, by rw [r1, e5]; simp [Hvcc.bits], rfl, e3⟩
  · cases h1; cases h
  · cases h1

/-! ### completeness -/

theorem hvccUnits_complete {cs : Bool} {st st' : ParserState} {nals : List (List UInt8)} {us : List HvccUnit} (h : HvccNals cs st nals us st') :
    ∀ (bb : BB) (r : List Bool), bb.WF → (∀ x ∈ nals, x.length < 2 ^ 16) → bb.rem = (nals.map hvccUnitBits).flatten ++ r →
      ∃ bb', (hvccUnits cs nals.length st).run bb = .ok (some us, st') bb' ∧ bb'.WF ∧ bb'.rem = r := by
  induction h with
  | nil st => intro bb r hw _ hr; exact ⟨bb, rfl, hw, by simpa using hr⟩
  | @ok st st1 st2 nal nals n us b hp ht ih =>
    intro bb r hw hl hr
    obtain ⟨b1, h1, w1, _, r1⟩ := (hvccBytes_codec (H := Cond.any) (A := fun _ => False)).inverts.complete bb nal _ hw (hl nal (by simp))
      (by simpa [List.append_assoc] using hr)
    obtain ⟨b2, h2, w2, r2⟩ := ih b1 r w1 (fun x hx => hl x (by simp [hx])) r1
    refine ⟨b2, ?_, w2, r2⟩
    simp only [hvccUnits, List.length_cons]
    have ha : parseHvccBytes.attempt.run bb = .ok (some nal) b1 := by rw [Prog.run_attempt, h1]
    rw [Prog.bind_of_ok ha]
    simp only
    have hn : (hvccNal cs st nal).run b1 = .ok (some n, st1) b1 := by unfold hvccNal; rw [hp]; rfl
    rw [Prog.bind_of_ok hn]
    simp only
    rw [Prog.bind_of_ok h2]
    rfl
  | @null st st2 nal nals us b hp ht ih =>
    intro bb r hw hl hr
    obtain ⟨b1, h1, w1, _, r1⟩ := (hvccBytes_codec (H := Cond.any) (A := fun _ => False)).inverts.complete bb nal _ hw (hl nal (by simp))
      (by simpa [List.append_assoc] using hr)
    obtain ⟨b2, h2, w2, r2⟩ := ih b1 r w1 (fun x hx => hl x (by simp [hx])) r1
    refine ⟨b2, ?_, w2, r2⟩
    simp only [hvccUnits, List.length_cons]
    have ha : parseHvccBytes.attempt.run bb = .ok (some nal) b1 := by rw [Prog.run_attempt, h1]
    rw [Prog.bind_of_ok ha]
    simp only
    have hn : (hvccNal cs st nal).run b1 = .ok (none, st) b1 := by unfold hvccNal; rw [hp]; rfl
    rw [Prog.bind_of_ok hn]
    simp only
    rw [Prog.bind_of_ok h2]
    rfl

theorem hvccArrays_complete {cs : Bool} {st st' : ParserState} {raw : List (HvccArrayHead × List (List UInt8))} {as : List HvccArray} (h : HvccParsed cs st raw as st') :
    ∀ (bb : BB) (r : List Bool), bb.WF → (∀ a ∈ raw, ValidHvccArrayHead a.1 ∧ a.2.length = a.1.numNalus ∧ ∀ x ∈ a.2, x.length < 2 ^ 16) →
      bb.rem = (raw.map hvccArrayBits).flatten ++ r → ∃ bb', (hvccArrays cs raw.length st).run bb = .ok (some as, st') bb' ∧ bb'.rem = r := by
  induction h with
  | nil st => intro bb r hw _ hr; exact ⟨bb, rfl, by simpa using hr⟩
  | @cons st st1 st2 hd nals us as bs hn ht ih =>
    intro bb r hw hl hr
    obtain ⟨v1, v2, v3⟩ := hl (hd, nals) (by simp)
    obtain ⟨b1, h1, w1, _, r1⟩ := (parseHvccArrayHead_codec (H := Cond.any) (A := fun _ => False)).inverts.complete bb hd _ hw v1
      (by simpa [List.append_assoc, hvccArrayBits] using hr)
    obtain ⟨b2, h2, w2, r2⟩ := hvccUnits_complete hn b1 _ w1 v3 r1
    obtain ⟨b3, h3, r3⟩ := ih b2 r w2 (fun x hx => hl x (by simp [hx])) r2
    refine ⟨b3, ?_, r3⟩
    simp only [hvccArrays, List.length_cons]
    have ha : parseHvccArrayHead.attempt.run bb = .ok (some hd) b1 := by rw [Prog.run_attempt, h1]
    rw [Prog.bind_of_ok ha]
    simp only
    simp only at v2
    rw [← v2, Prog.bind_of_ok h2]
    simp only
    rw [Prog.bind_of_ok h3]
    rfl

/-- C43: conversely, every such record is accepted, whatever follows it, with the results of its NAL units. -/
theorem C43_complete {cs : Bool} {st st' : ParserState} {x : Hvcc} {as : List HvccArray} {bb : BB} {r : List Bool} (hw : bb.WF) (hv : x.Valid)
    (hr : bb.rem = x.bits ++ r) (hp : HvccParsed cs st x.arrays as st') :
    ∃ bb', (parseConfigurationBox cs st).run bb = .ok (some ⟨x.head, as⟩, st') bb' ∧ bb'.rem = r := by
  obtain ⟨b1, h1, w1, _, r1⟩ := (parseHvccHeader_codec (H := Cond.any) (A := fun _ => False)).inverts.complete bb x.head _ hw hv.head
      (by simpa [List.append_assoc, Hvcc.bits] using hr)
  obtain ⟨b2, h2, r2⟩ := hvccArrays_complete hp b1 r w1 (fun a ha => ⟨hv.arrayHead a ha, hv.numNalus a ha, hv.nalUnitLength a ha⟩) r1
  refine ⟨b2, ?_, r2⟩
  unfold parseConfigurationBox
  have ha : parseHvccHeader.attempt.run bb = .ok (some x.head) b1 := by rw [Prog.run_attempt, h1]
  rw [Prog.bind_of_ok ha]
  simp only
  rw [← hv.numOfArrays, Prog.bind_of_ok h2]
  rfl

theorem hvccUnits_accepts (cs : Bool) : ∀ (nals : List (List UInt8)) (st : ParserState) (bb : BB) (r : List Bool), bb.WF → (∀ x ∈ nals, x.length < 2 ^ 16) →
    bb.rem = (nals.map hvccUnitBits).flatten ++ r →
    (∃ us st' bb', (hvccUnits cs nals.length st).run bb = .ok (some us, st') bb' ∧ bb'.WF ∧ bb'.rem = r) ∨ ∃ k, (hvccUnits cs nals.length st).run bb = .bad k
  | [], st, bb, r, hw, _, hr => .inl ⟨_, _, _, rfl, hw, by simpa using hr⟩
  | nal :: nals, st, bb, r, hw, hl, hr => by
    obtain ⟨b1, h1, w1, _, r1⟩ := (hvccBytes_codec (H := Cond.any) (A := fun _ => False)).inverts.complete bb nal _ hw (hl nal (by simp))
      (by simpa [List.append_assoc] using hr)
    simp only [hvccUnits, List.length_cons]
    have ha : parseHvccBytes.attempt.run bb = .ok (some nal) b1 := by rw [Prog.run_attempt, h1]
    rw [Prog.bind_of_ok ha]
    simp only
    have key : (∃ o st1, (hvccNal cs st nal).run b1 = .ok (o, st1) b1) ∨ ∃ k, (hvccNal cs st nal).run b1 = .bad k := by
      unfold hvccNal
      cases parseNalUnit cs st nal with
      | ok x b => exact .inl ⟨_, _, rfl⟩
      | fail b => exact .inl ⟨_, _, rfl⟩
      | bad k => exact .inr ⟨k, rfl⟩
    rcases key with ⟨o, st1, hn⟩ | ⟨k, hn⟩
    · rw [Prog.bind_of_ok hn]
      simp only
      rcases hvccUnits_accepts cs nals st1 b1 r w1 (fun x hx => hl x (by simp [hx])) r1 with ⟨us, st', b2, h2, w2, r2⟩ | ⟨k, hk⟩
      · rw [Prog.bind_of_ok h2]
        exact .inl ⟨_, _, _, rfl, w2, r2⟩
      · rw [Prog.run_bind, hk]
        exact .inr ⟨k, rfl⟩
    · rw [Prog.run_bind, hn]
      exact .inr ⟨k, rfl⟩

theorem hvccArrays_accepts (cs : Bool) : ∀ (raw : List (HvccArrayHead × List (List UInt8))) (st : ParserState) (bb : BB) (r : List Bool), bb.WF →
    (∀ a ∈ raw, ValidHvccArrayHead a.1 ∧ a.2.length = a.1.numNalus ∧ ∀ x ∈ a.2, x.length < 2 ^ 16) → bb.rem = (raw.map hvccArrayBits).flatten ++ r →
    (∃ as st' bb', (hvccArrays cs raw.length st).run bb = .ok (some as, st') bb') ∨ ∃ k, (hvccArrays cs raw.length st).run bb = .bad k
  | [], st, bb, r, hw, _, hr => .inl ⟨_, _, _, rfl⟩
  | (hd, nals) :: raw, st, bb, r, hw, hl, hr => by
    obtain ⟨v1, v2, v3⟩ := hl (hd, nals) (by simp)
    obtain ⟨b1, h1, w1, _, r1⟩ := (parseHvccArrayHead_codec (H := Cond.any) (A := fun _ => False)).inverts.complete bb hd _ hw v1
      (by simpa [List.append_assoc, hvccArrayBits] using hr)
    simp only [hvccArrays, List.length_cons]
    have ha : parseHvccArrayHead.attempt.run bb = .ok (some hd) b1 := by rw [Prog.run_attempt, h1]
    rw [Prog.bind_of_ok ha]
    simp only
    simp only at v2
    rw [← v2]
    rcases hvccUnits_accepts cs nals st b1 _ w1 v3 r1 with ⟨us, st', b2, h2, w2, r2⟩ | ⟨k, hk⟩
    · rw [Prog.bind_of_ok h2]
      simp only
      rcases hvccArrays_accepts cs raw st' b2 r w2 (fun x hx => hl x (by simp [hx])) r2 with ⟨as, st2, b3, h3⟩ | ⟨k, hk⟩
      · rw [Prog.bind_of_ok h3]
        exact .inl ⟨_, _, _, rfl⟩
      · rw [Prog.run_bind, hk]
        exact .inr ⟨k, rfl⟩
    · rw [Prog.run_bind, hk]
      exact .inr ⟨k, rfl⟩

/-! ### safety and state -/

theorem hvccNal_steps {cs : Bool} {st st' : ParserState} {nal : List UInt8} {o : Option NalUnit} {bb bb' : BB} (h : (hvccNal cs st nal).run bb = .ok (o, st') bb') :
    ∃ ps, Steps st ps st' := by
  unfold hvccNal at h
  split at h
  · rename_i hp; cases h; exact ⟨_, parseNalUnit_steps hp⟩
  · cases h; exact ⟨_, .nil _⟩
  · cases h

theorem hvccUnits_steps (cs : Bool) : ∀ (n : Nat) (st st' : ParserState) (bb bb' : BB) (o : Option (List HvccUnit)),
    (hvccUnits cs n st).run bb = .ok (o, st') bb' → ∃ ps, Steps st ps st'
  | 0, st, st', bb, bb', o, h => by cases h; exact ⟨_, .nil _⟩
  | n + 1, st, st', bb, bb', o, h => by
    simp only [hvccUnits] at h
    obtain ⟨o1, c1, h1, h⟩ := Prog.bind_ok h
    cases o1 with
    | none => cases h; exact ⟨_, .nil _⟩
    | some nal =>
      obtain ⟨⟨o2, st1⟩, c2, h2, h⟩ := Prog.bind_ok h
      obtain ⟨⟨o3, st2⟩, c3, h3, h⟩ := Prog.bind_ok h
      cases h
      obtain ⟨ps, hs⟩ := hvccNal_steps h2
      obtain ⟨qs, ht⟩ := hvccUnits_steps cs n _ _ _ _ _ h3
      exact ⟨_, hs.append ht⟩

theorem hvccArrays_steps (cs : Bool) : ∀ (n : Nat) (st st' : ParserState) (bb bb' : BB) (o : Option (List HvccArray)),
    (hvccArrays cs n st).run bb = .ok (o, st') bb' → ∃ ps, Steps st ps st'
  | 0, st, st', bb, bb', o, h => by cases h; exact ⟨_, .nil _⟩
  | n + 1, st, st', bb, bb', o, h => by
    simp only [hvccArrays] at h
    obtain ⟨o1, c1, h1, h⟩ := Prog.bind_ok h
    cases o1 with
    | none => cases h; exact ⟨_, .nil _⟩
    | some hd =>
      obtain ⟨⟨o2, st1⟩, c2, h2, h⟩ := Prog.bind_ok h
      obtain ⟨ps, hs⟩ := hvccUnits_steps cs _ _ _ _ _ _ h2
      cases o2 with
      | none => cases h; exact ⟨_, hs⟩
      | some units =>
        obtain ⟨⟨o3, st2⟩, c3, h3, h⟩ := Prog.bind_ok h
        cases h
        obtain ⟨qs, ht⟩ := hvccArrays_steps cs n _ _ _ _ _ h3
        exact ⟨_, hs.append ht⟩

/-- C43 / C21: the parser state changes only by payloads that were parsed, whether or not a box is returned. -/
theorem C43_steps {cs : Bool} {st st' : ParserState} {data : List UInt8} {o : Option ConfigurationBox} {bb' : BB}
    (h : parseConfigurationBoxBytes cs st data = .ok (o, st') bb') : ∃ ps, Steps st ps st' := by
  unfold parseConfigurationBoxBytes Prog.runBytes at h
  split at h
  · unfold parseConfigurationBox at h
    obtain ⟨o1, c1, h1, h⟩ := Prog.bind_ok h
    cases o1 with
    | none => cases h; exact ⟨_, .nil _⟩
    | some hd =>
      obtain ⟨⟨o2, st1⟩, c2, h2, h⟩ := Prog.bind_ok h
      cases h
      exact hvccArrays_steps cs _ _ _ _ _ _ h2
  · cases h

theorem hvccUnits_safe_for {A : Bad → Prop} (cs : Bool) : ∀ (n : Nat) (st : ParserState) (bb : BB) (k : Bad), UsableFor A st → bb.WF → (hvccUnits cs n st).run bb = .bad k → A k
  | 0, st, bb, k, hs, hw, h => by cases h
  | n + 1, st, bb, k, hs, hw, h => by
    simp only [hvccUnits] at h
    rcases Prog.bind_bad h with h1 | ⟨o1, c1, h1, h⟩
    · rw [Prog.run_attempt] at h1
      split at h1
      · cases h1
      · cases h1
      · rename_i hx
        cases h1
        exact absurd hx ((hvccBytes_codec (H := Cond.any) (A := fun _ => False)).inverts.safe _ _ hw)
    have w1 := (run_ok_wf hw h1).1
    cases o1 with
    | none => cases h
    | some nal =>
      have hl : nal.length < 2 ^ 32 := by
        rw [Prog.run_attempt] at h1
        split at h1
        · rename_i hx
          cases h1
          have := ((hvccBytes_codec (H := Cond.any) (A := fun _ => False)).inverts.sound _ _ _ hw hx).1
          omega
        · cases h1
        · cases h1
      rcases Prog.bind_bad h with h2 | ⟨⟨o2, st1⟩, c2, h2, h⟩
      · unfold hvccNal at h2
        split at h2
        · cases h2
        · cases h2
        · rename_i hp
          cases h2
          exact nal_unit_safe_for hs hl hp
      obtain ⟨ps, hq⟩ := hvccNal_steps h2
      rcases Prog.bind_bad h with h3 | ⟨⟨o3, st2⟩, c3, h3, h⟩
      · exact hvccUnits_safe_for cs n _ _ _ (hs.step hq) (run_ok_wf w1 h2).1 h3
      · cases h

theorem hvccArrays_safe_for {A : Bad → Prop} (cs : Bool) : ∀ (n : Nat) (st : ParserState) (bb : BB) (k : Bad), UsableFor A st → bb.WF → (hvccArrays cs n st).run bb = .bad k → A k
  | 0, st, bb, k, hs, hw, h => by cases h
  | n + 1, st, bb, k, hs, hw, h => by
    simp only [hvccArrays] at h
    rcases Prog.bind_bad h with h1 | ⟨o1, c1, h1, h⟩
    · rw [Prog.run_attempt] at h1
      split at h1
      · cases h1
      · cases h1
      · rename_i hx
        cases h1
        exact absurd hx ((parseHvccArrayHead_codec (H := Cond.any) (A := fun _ => False)).inverts.safe _ _ hw)
    have w1 := (run_ok_wf hw h1).1
    cases o1 with
    | none => cases h
    | some hd =>
      rcases Prog.bind_bad h with h2 | ⟨⟨o2, st1⟩, c2, h2, h⟩
      · exact hvccUnits_safe_for cs _ _ _ _ hs w1 h2
      obtain ⟨ps, hq⟩ := hvccUnits_steps cs _ _ _ _ _ _ h2
      cases o2 with
      | none => cases h
      | some units =>
        rcases Prog.bind_bad h with h3 | ⟨⟨o3, st2⟩, c3, h3, h⟩
        · exact hvccArrays_safe_for cs n _ _ _ (hs.step hq) (run_ok_wf w1 h2).1 h3
        · cases h

theorem configBox_safe_for {A : Bad → Prop} {cs : Bool} {st : ParserState} {data : List UInt8} {k : Bad} (hs : UsableFor A st) (hlen : data.length < 2 ^ 32)
    (h : parseConfigurationBoxBytes cs st data = .bad k) : A k := by
  unfold parseConfigurationBoxBytes Prog.runBytes at h
  rw [if_pos (by omega)] at h
  have hw := BB.WF.init data
  unfold parseConfigurationBox at h
  rcases Prog.bind_bad h with h1 | ⟨o1, c1, h1, h⟩
  · rw [Prog.run_attempt] at h1
    split at h1
    · cases h1
    · cases h1
    · rename_i hx
      cases h1
      exact absurd hx ((parseHvccHeader_codec (H := Cond.any) (A := fun _ => False)).inverts.safe _ _ hw)
  have w1 := (run_ok_wf hw h1).1
  cases o1 with
  | none => cases h
  | some hd =>
    rcases Prog.bind_bad h with h2 | ⟨⟨o2, st1⟩, c2, h2, h⟩
    · exact hvccArrays_safe_for cs _ _ _ _ hs w1 h2
    · cases h

/-- C43 / C44: no box makes the parser read past it, fail an assertion, dereference null or loop; the only undefined behaviour there can be is a signed overflow in one
of the NAL units. -/
theorem C43_safe {cs : Bool} {st : ParserState} {data : List UInt8} {k : Bad} (hs : Reach st) (hlen : data.length < 2 ^ 32)
    (h : parseConfigurationBoxBytes cs st data = .bad k) : k = .signedOverflow :=
  configBox_safe_for (A := fun k => k = .signedOverflow) hs.usable hlen h

/-- C43: null is returned exactly when the bytes do not start with a configuration record of version 1 with the right reserved bits (unless a NAL unit in it
makes the parser overflow). -/
theorem C43_null_iff {cs : Bool} {st st' : ParserState} {data : List UInt8} {o : Option ConfigurationBox} {bb' : BB} (hlen : data.length < 2 ^ 32)
    (h : parseConfigurationBoxBytes cs st data = .ok (o, st') bb') : o = none ↔ ¬ ∃ (x : Hvcc) (r : List Bool), x.Valid ∧ bitsOf data = x.bits ++ r := by
  unfold parseConfigurationBoxBytes Prog.runBytes at h
  rw [if_pos (by omega)] at h
  have hw := BB.WF.init data
  constructor
  · rintro rfl ⟨x, r, hv, hr⟩
    rw [← BB.rem_init] at hr
    obtain ⟨b1, h1, w1, _, r1⟩ := (parseHvccHeader_codec (H := Cond.any) (A := fun _ => False)).inverts.complete _ x.head _ hw hv.head
      (by simpa [List.append_assoc, Hvcc.bits] using hr)
    have ha : parseHvccHeader.attempt.run (BB.init data) = .ok (some x.head) b1 := by rw [Prog.run_attempt, h1]
    unfold parseConfigurationBox at h
    rw [Prog.bind_of_ok ha] at h
    simp only at h
    rw [← hv.numOfArrays] at h
    rcases hvccArrays_accepts cs x.arrays st b1 r w1 (fun a ha => ⟨hv.arrayHead a ha, hv.numNalus a ha, hv.nalUnitLength a ha⟩) r1 with ⟨as, s, b, h2⟩ | ⟨k, h2⟩
    · rw [Prog.bind_of_ok h2] at h
      cases h
    · rw [Prog.run_bind, h2] at h
      cases h
  · intro hn
    cases o with
    | none => rfl
    | some box =>
      obtain ⟨x, hv, hr, _⟩ := C43_sound hw h
      rw [BB.rem_init] at hr
      exact absurd ⟨x, _, hv, hr⟩ hn

/-- C43: the box returned holds as many arrays and NAL units as announced, and is version 1 with the right reserved bits. -/
theorem C43_counts {cs : Bool} {st st' : ParserState} {bb bb' : BB} {box : ConfigurationBox} (hw : bb.WF)
    (h : (parseConfigurationBox cs st).run bb = .ok (some box, st') bb') :
    box.head.configurationVersion = 1 ∧ box.head.reserved1 = 15 ∧ box.head.reserved2 = 63 ∧ box.head.reserved3 = 63 ∧ box.head.reserved4 = 31 ∧
    box.head.reserved5 = 31 ∧ box.arrays.length = box.head.numOfArrays ∧ ∀ a ∈ box.arrays, a.head.reserved6 = 0 ∧ a.units.length = a.head.numNalus := by
  obtain ⟨x, hv, _, hh, hp⟩ := C43_sound hw h
  have hn : ∀ {st st' nals us}, HvccNals cs st nals us st' → us.length = nals.length := by
    intro st st' nals us h
    induction h with
    | nil => rfl
    | ok _ _ ih => simp [ih]
    | null _ _ ih => simp [ih]
  have key : ∀ {st st' as bs}, HvccParsed cs st as bs st' → bs.length = as.length ∧ ∀ b ∈ bs, ∃ a ∈ as, b.head = a.1 ∧ b.units.length = a.2.length := by
    intro st st' as bs h
    induction h with
    | nil => exact ⟨rfl, by simp⟩
    | cons h1 _ ih =>
      refine ⟨by simp [ih.1], ?_⟩
      intro b hb
      rcases List.mem_cons.mp hb with rfl | hb
      · exact ⟨_, List.mem_cons_self, rfl, hn h1⟩
      · obtain ⟨a, ha, h2⟩ := ih.2 b hb
        exact ⟨a, by simp [ha], h2⟩
  obtain ⟨k1, k2⟩ := key hp
  rw [hh]
  refine ⟨hv.head.version, hv.head.reserved1_ones, hv.head.reserved2_ones, hv.head.reserved3_ones, hv.head.reserved4_ones, hv.head.reserved5_ones,
    k1.trans hv.numOfArrays, ?_⟩
  intro b hb
  obtain ⟨a, ha, h1, h2⟩ := k2 b hb
  rw [h1]
  exact ⟨(hv.arrayHead a ha).reserved6_zero, h2.trans (hv.numNalus a ha)⟩

/-! ### example: the box of h265_configuration_box_parser_unittest.cc:24-80 -/

def boxHead : List UInt8 := [0x01, 0x01, 0x60, 0x00, 0x00, 0x00, 0x80, 0x00, 0x00, 0x00, 0x00, 0x00, 0x78, 0xf0, 0x00, 0xfc, 0xfd, 0xf8, 0xf8, 0x00, 0x00, 0x0f, 0x03]
def boxVps : List UInt8 := [0x40, 0x01, 0x0c, 0x01, 0xff, 0xff, 0x01, 0x60, 0x00, 0x00, 0x03, 0x00, 0x80, 0x00, 0x00, 0x03, 0x00, 0x00, 0x03, 0x00, 0x78, 0x9d, 0xc0, 0x90]
def boxSps : List UInt8 := [0x42, 0x01, 0x01, 0x01, 0x60, 0x00, 0x00, 0x03, 0x00, 0x80, 0x00, 0x00, 0x03, 0x00, 0x00, 0x03, 0x00, 0x78, 0xa0, 0x03, 0xc0, 0x80, 0x32,
  0x16, 0x59, 0xde, 0x49, 0x1b, 0x6b, 0x80, 0x40, 0x00, 0x00, 0xfa, 0x00, 0x00, 0x17, 0x70, 0x02]
def boxPps : List UInt8 := [0x44, 0x01, 0xc1, 0x73, 0xd1, 0x89]
def testBox : List UInt8 := boxHead ++ ([0xa0, 0x00, 0x01] ++ lengthPrefixed 2 [boxVps] ++ ([0xa1, 0x00, 0x01] ++ lengthPrefixed 2 [boxSps] ++
  ([0xa2, 0x00, 0x01] ++ lengthPrefixed 2 [boxPps])))

/-- the box returned and the state left -/
def boxIn (data : List UInt8) : Option (ConfigurationBox × ParserState) :=
  match parseConfigurationBoxBytes false .empty data with
  | .ok (some b, st) _ => some (b, st)
  | _ => none

example : (boxIn testBox).map (fun x => x.1.arrays.map fun a => (a.head.NAL_unit_type, a.units.map fun n => (n.nalUnitLength, n.nalUnit.isSome))) =
    some [(32, [(24, true)]), (33, [(39, true)]), (34, [(6, true)])] := by decide +kernel
example : (boxIn testBox).map (fun x => [x.1.head.general_level_idc, x.1.head.general_constraint_indicator_flags, x.1.head.lengthSizeMinusOne]) =
    some [120, 0x800000000000, 3] := by decide +kernel
example : (boxIn testBox).map (fun x => [(x.2.vps 0).isSome, (x.2.sps 0).isSome, (x.2.pps 0).isSome]) = some [true, true, true] := by decide +kernel

/-- C43, a consequence for users: an entry can be a null pointer, for a NAL unit of fewer than two bytes -/
theorem C43_null_entry : (boxIn (boxHead.set 22 1 ++ [0xa0, 0x00, 0x01, 0x00, 0x01, 0x40])).map
    (fun x => x.1.arrays.map fun a => a.units.map fun n => (n.nalUnitLength, n.nalUnit.isSome)) = some [[(1, false)]] := by decide +kernel

end H265
