/- C48: what is written after the syntax tables of the standard, with values the standard allows, is read back (outside of the
constructs listed as not supported in Spec/StdOk.lean). -/
import Verif.Proof.Std
import Verif.Proof.StdConf
import Verif.Spec.StdReports
import Verif.Props.Stream
import Verif.Props.NalLength

namespace H265.Std
open Spec

set_option autoImplicit false

/-! ### single structures -/

/-- C48: a conforming VPS without HRD parameters is returned as it was sent, whatever follows it. -/
theorem C48_vps (bb : BB) (ptl : StdPtl) (s : VpsBody) (rest : List Bool) (hwf : bb.WF) (hc : ConformsVpsBody ptl s) (hp : SupportedPtl ptl)
    (hh : s.hrds = []) (hb : bb.rem = Std.vps ptl s ++ rest) : ∃ v bb', parseVps.run bb = .ok v bb' ∧ v.body = s := by
  rw [vps_eq hp hh hc.profile_tier_level.2] at hb
  exact C28_vps_inverts.accepts bb s rest hwf (hc.valid hp hh) hb

/-- C48: a conforming SPS is returned as it was sent, whatever follows it. -/
theorem C48_sps (bb : BB) (ptl : StdPtl) (s : SpsBody) (rest : List Bool) (hwf : bb.WF) (hc : ConformsSpsBody ptl s) (hs : SupportedSps ptl s)
    (hb : bb.rem = Std.sps ptl s ++ rest) : ∃ v bb', parseSps.run bb = .ok v bb' ∧ v.body = s := by
  rw [sps_eq (hc.valid hs) hc.profile_tier_level.2 hs] at hb
  exact C27_sps_inverts.accepts bb s rest hwf (hc.valid hs) hb

/-- C48: a conforming PPS is returned as it was sent, whatever follows it. -/
theorem C48_pps (bb : BB) (s : PpsBody) (rest : List Bool) (hwf : bb.WF) (hc : ConformsPpsBody s) (hs : SupportedPps s)
    (hb : bb.rem = Std.pps s ++ rest) : ∃ v bb', parsePps.run bb = .ok v bb' ∧ v.body = s := by
  rw [pps_eq (hc.valid hs) hc hs] at hb
  exact C29_pps_accepts bb s rest hwf (hc.valid hs) hb

/-- C48: a conforming slice segment header is returned as it was sent, and what follows it is left, when the parser state holds the
conforming parameter sets it names. -/
theorem C48_slice {st : ParserState} (hst : Reach st) {t : Nat} (bb : BB) (hd : SliceHead) (s : SliceBody) (x : SliceExtra) (rest : List Bool)
    (V : Pps) (W : Sps) (ptl : StdPtl) (hwf : bb.WF) (hV : st.pps hd.slice_pic_parameter_set_id = some V)
    (hW : st.sps V.body.head.pps_seq_parameter_set_id = some W) (hP : ConformsPpsBody V.body) (hP' : SupportedPps V.body)
    (hS : ConformsSpsBody ptl W.body) (hS' : SupportedSps ptl W.body) (hh : ConformsSliceHead t hd)
    (hc : ConformsSliceBody t V.body W.body hd.first_slice_segment_in_pic_flag s) (hs : SupportedSlice t V.body W.body s)
    (hb : bb.rem = Std.sliceSegmentHeader t V.body W.body hd s x ++ rest) :
    ∃ bb', (parseSliceSegmentLayer t st.pps st.sps).run bb = .ok ⟨t, hd, s⟩ bb' ∧ bb'.rem = rest := by
  have hok := C21_reachable_states hst
  have hvp := hP.valid hP'
  have hvs := hS.valid hS'
  have hv := hc.valid hP hvp hS hvs hs
  rw [slice_eq x hvp hvs (picSize_le hS) hv hs] at hb
  obtain ⟨bb', h1, _, _, h2⟩ := C36_slice_accepts (t := t) (fun i P hp => (hok.pps i P hp).1) (fun i P hp => (hok.sps i P hp).1) bb ⟨t, hd, s⟩ rest V W
    hwf ⟨hV, hW⟩ ⟨rfl, hh.valid, hv⟩ hb
  exact ⟨bb', h1, h2⟩

/-! ### streams -/

/-- the parameter sets received conform and are supported -/
structure GoodParams (d : StdParams) : Prop where
  sps : ∀ i ptl s, d.sps i = some (ptl, s) → ConformsSpsBody ptl s ∧ SupportedSps ptl s
  pps : ∀ i s, d.pps i = some s → ConformsPpsBody s ∧ SupportedPps s

theorem GoodParams.none : GoodParams .none := ⟨fun _ _ _ h => (by cases h), fun _ _ h => (by cases h)⟩
theorem Holds.none (st : ParserState) : Holds .none st := ⟨fun _ _ _ h => (by cases h), fun _ _ _ h => (by cases h), fun _ _ h => (by cases h)⟩

theorem GoodParams.after {d : StdParams} {t : Nat} {tail w : List Bool} {u : StdUnit} (h : GoodParams d) (hs : Sent d t tail u w) : GoodParams (d.after u) := by
  cases hs with
  | sps ptl s h1 h2 h3 =>
    refine ⟨fun i q x hx => ?_, h.pps⟩
    simp only [StdParams.after] at hx
    split at hx
    · cases hx; exact ⟨h2, h3⟩
    · exact h.sps i q x hx
  | pps s h1 h2 h3 =>
    refine ⟨h.sps, fun i x hx => ?_⟩
    simp only [StdParams.after] at hx
    split at hx
    · cases hx; exact ⟨h2, h3⟩
    · exact h.pps i x hx
  | _ => exact ⟨h.sps, h.pps⟩

theorem mapSet_same {α : Type} (m : Nat → Option α) (i : Nat) (x : α) : mapSet m i x i = some x := if_pos rfl
theorem mapSet_other {α : Type} (m : Nat → Option α) {i j : Nat} (x : α) (h : j ≠ i) : mapSet m i x j = m j := if_neg h

/-- the payload parser on the bits of a NAL unit behind its header -/
theorem payload_sent {d : StdParams} {st : ParserState} {l : StdNal} {tail w : List Bool} {b1 : BB} (hg : GoodParams d) (hh : Holds d st) (hr : Reach st)
    (hs : Sent d l.header.nal_unit_type tail l.unit w) (hw : b1.WF) (hrem : b1.rem = w) :
    ∃ p st' b2, (parseNalUnitPayload l.header.nal_unit_type st).run b1 = .ok (p, st') b2 ∧ ReportsPayload l p ∧ Holds (d.after l.unit) st' := by
  obtain ⟨hdr, u, tail0, rbsp⟩ := l
  simp only at hs hrem ⊢
  have hsl : ∀ t, t ∈ [32, 33, 34, 35, 39, 40] → ¬ sliceType t := by
    intro t ht
    simp only [List.mem_cons, List.not_mem_nil, or_false] at ht
    unfold sliceType; omega
  cases hs with
  | vps ptl s h1 h2 h3 h4 =>
    obtain ⟨v, b2, e1, e2⟩ := C48_vps b1 ptl s tail hw h2 h3 h4 hrem
    refine ⟨(vpsOut st (some v)).1, (vpsOut st (some v)).2, b2, ?_, ⟨v, rfl, e2⟩, ⟨?_, hh.sps, hh.pps⟩⟩
    · rw [parseNalUnitPayload_eq, h1, if_neg (hsl 32 (by decide)), if_pos rfl, Prog.run_bind, Prog.run_attempt, e1]; rfl
    · intro i q y hy
      simp only [StdParams.after] at hy
      split at hy
      · next he => cases hy; subst e2; rw [he]; exact ⟨v, mapSet_same _ _ _, rfl⟩
      · next hne => subst e2; obtain ⟨z, z1, z2⟩ := hh.vps i q y hy; exact ⟨z, (mapSet_other _ _ hne).trans z1, z2⟩
  | sps ptl s h1 h2 h3 =>
    obtain ⟨v, b2, e1, e2⟩ := C48_sps b1 ptl s tail hw h2 h3 hrem
    refine ⟨(spsOut st (some v)).1, (spsOut st (some v)).2, b2, ?_, ⟨v, rfl, e2⟩, ⟨hh.vps, ?_, hh.pps⟩⟩
    · rw [parseNalUnitPayload_eq, h1, if_neg (hsl 33 (by decide)), if_neg (by decide), if_pos rfl, Prog.run_bind, Prog.run_attempt, e1]; rfl
    · intro i q y hy
      simp only [StdParams.after] at hy
      split at hy
      · next he => cases hy; subst e2; rw [he]; exact ⟨v, mapSet_same _ _ _, rfl⟩
      · next hne => subst e2; obtain ⟨z, z1, z2⟩ := hh.sps i q y hy; exact ⟨z, (mapSet_other _ _ hne).trans z1, z2⟩
  | pps s h1 h2 h3 =>
    obtain ⟨v, b2, e1, e2⟩ := C48_pps b1 s tail hw h2 h3 hrem
    refine ⟨(ppsOut st (some v)).1, (ppsOut st (some v)).2, b2, ?_, ⟨v, rfl, e2⟩, ⟨hh.vps, hh.sps, ?_⟩⟩
    · rw [parseNalUnitPayload_eq, h1, if_neg (hsl 34 (by decide)), if_neg (by decide), if_neg (by decide), if_pos rfl, Prog.run_bind, Prog.run_attempt, e1]; rfl
    · intro i y hy
      simp only [StdParams.after] at hy
      split at hy
      · next he => cases hy; subst e2; rw [he]; exact ⟨v, mapSet_same _ _ _, rfl⟩
      · next hne => subst e2; obtain ⟨z, z1, z2⟩ := hh.pps i y hy; exact ⟨z, (mapSet_other _ _ hne).trans z1, z2⟩
  | slice hd s x P ptl S h1 h2 h3 h4 h5 h6 =>
    obtain ⟨V, v1, rfl⟩ := hh.pps _ _ h2
    obtain ⟨W, w1, rfl⟩ := hh.sps _ _ _ h3
    obtain ⟨g1, g2⟩ := hg.pps _ _ h2
    obtain ⟨g3, g4⟩ := hg.sps _ _ _ h3
    obtain ⟨b2, e1, _⟩ := C48_slice hr b1 hd s x tail V W ptl hw v1 w1 g1 g2 g3 g4 h4 h5 h6 hrem
    refine ⟨_, st, b2, ?_, rfl, hh⟩
    rw [parseNalUnitPayload_eq, if_pos (show sliceType hdr.nal_unit_type from h1), Prog.run_bind, Prog.run_attempt, e1]; rfl
  | aud a h1 h2 =>
    rcases C19_aud hw with ⟨b2, e1, _⟩ | ⟨b2, e1, e2⟩
    · refine ⟨{ aud := some a }, st, b2, ?_, rfl, hh⟩
      rw [parseNalUnitPayload_eq, h1, if_neg (hsl 35 (by decide)), if_neg (by decide), if_neg (by decide), if_neg (by decide), if_pos rfl,
        Prog.run_bind, Prog.run_attempt, e1]
      have hv : val (b1.rem.take 3) = a.pic_type := by
        rw [hrem]
        unfold Spec.aud
        simp only [seq_cons, seq_nil, List.append_nil]
        rw [List.take_append_of_le_length (by rw [u_length]; omega), List.take_of_length_le (by rw [u_length]; omega)]
        exact val_u_of_lt (by omega)
      rw [hv]; rfl
    · exfalso
      rw [hrem] at e2
      unfold Spec.aud at e2
      simp only [seq_cons, seq_nil, List.append_nil, List.length_append, u_length] at e2
      omega
  | sei t size p h1 h2 h3 h4 =>
    obtain ⟨b2, e1, _⟩ := C40_sei_accepts hw h2 h3 h4 hrem
    refine ⟨{ sei := some ⟨t, size, some p⟩ }, st, b2, ?_, rfl, hh⟩
    have h32 : hdr.nal_unit_type ≠ 32 ∧ hdr.nal_unit_type ≠ 33 ∧ hdr.nal_unit_type ≠ 34 ∧ hdr.nal_unit_type ≠ 35 ∧ ¬ sliceType hdr.nal_unit_type := by
      unfold sliceType; omega
    rw [parseNalUnitPayload_eq, if_neg h32.2.2.2.2, if_neg h32.1, if_neg h32.2.1, if_neg h32.2.2.1, if_neg h32.2.2.2.1, if_pos h1,
      Prog.run_bind, Prog.run_attempt, e1]; rfl
  | other h1 h2 h3 h4 h5 =>
    refine ⟨{}, st, b1, ?_, rfl, hh⟩
    rw [parseNalUnitPayload_eq, if_neg (by unfold sliceType; omega), if_neg (by omega), if_neg (by omega), if_neg (by omega), if_neg (by omega), if_neg (by omega)]; rfl

/-- one NAL unit -/
theorem C48_nal_unit {cs : Bool} {d : StdParams} {st : ParserState} {l : StdNal} (hg : GoodParams d) (hh : Holds d st) (hr : Reach st) (hl : SentNal d l)
    (hlen : l.rbsp.length < 2 ^ 32) :
    ∃ n st' b, parseNalUnit cs st (escape l.rbsp) = .ok (n, st') b ∧ Reports l n ∧ Holds (d.after l.unit) st' ∧ Reach st' := by
  obtain ⟨w, hs, hb⟩ := hl.contents
  obtain ⟨b1, hw, hrem, hn⟩ := nal_of_bits (cs := cs) (st := st) hl.header hb hlen
  obtain ⟨p, st', b2, h1, h2, h3⟩ := payload_sent hg hh hr hs hw hrem
  obtain ⟨n, b, e1, e2, e3⟩ := hn p st' b2 h1
  exact ⟨n, st', b, e1, ⟨e2, e3 ▸ h2⟩, h3, hr.step (parseNalUnit_steps e1)⟩

/-- several NAL units, wherever they lie -/
theorem C48_all {cs : Bool} : ∀ {l : List StdNal} {d d' : StdParams} {st : ParserState} (places : List (Nat × Nat × List UInt8)),
    GoodParams d → Holds d st → Reach st → SentAll d l d' → (∀ x ∈ l, x.rbsp.length < 2 ^ 32) → places.map (·.2.2) = l.map (fun x => escape x.rbsp) →
    ∃ ns st', parseAll cs places st = .ok (ns, st') ∧ ns.map (fun n => (n.offset, n.length)) = places.map (fun x => (x.1, x.2.1)) ∧
      (∀ x ∈ l.zip ns, Reports x.1 x.2) ∧ Holds d' st' ∧ Reach st'
  | [], d, d', st, places, hg, hh, hr, hs, hl, hp => by
    cases hs
    have : places = [] := by simpa using hp
    subst this
    exact ⟨[], st, rfl, rfl, fun x hx => (by simp at hx), hh, hr⟩
  | x :: l, d, d', st, places, hg, hh, hr, hs, hl, hp => by
    cases hs with
    | cons h1 h2 =>
      cases places with
      | nil => simp at hp
      | cons p places =>
        obtain ⟨off, len, nal⟩ := p
        simp only [List.map_cons, List.cons.injEq] at hp
        obtain ⟨rfl, hp⟩ := hp
        obtain ⟨n, st1, b, e1, e2, e3, e4⟩ := C48_nal_unit (cs := cs) hg hh hr h1 (hl x (by simp))
        obtain ⟨w, hw, _⟩ := h1.contents
        obtain ⟨ns, st', f1, f2, f3, f4, f5⟩ := C48_all (cs := cs) places (hg.after hw) e3 e4 h2 (fun y hy => hl y (by simp [hy])) hp
        refine ⟨{ n with offset := off, length := len } :: ns, st', ?_, ?_, ?_, f4, f5⟩
        · simp only [parseAll, e1, f1]
        · simp only [List.map_cons, f2]
        · intro y hy
          simp only [List.zip_cons_cons, List.mem_cons] at hy
          rcases hy with rfl | hy
          · exact e2
          · exact f3 y hy

theorem SentNal.nal_bytes {d : StdParams} {n : StdNal} (h : SentNal d n) : NalBytes (escape n.rbsp) where
  nonempty := by
    intro he
    have hu := C10_unescape_escape n.rbsp
    rw [he] at hu
    have h0 : unescapeRbsp [] = .ok [] := by rfl
    rw [h0] at hu
    have : n.rbsp = [] := by injection hu with hu; exact hu.symm
    obtain ⟨w, _, hb⟩ := h.contents
    rw [this] at hb
    have := congrArg List.length hb
    unfold Spec.nalUnitHeader at this
    simp only [seq_cons, seq_nil, List.length_append, u_length] at this
    simp [bitsOf] at this
    omega
  no_start_code := fun hi => absurd (C10_escape_safe _ _ hi) (by decide)
  last_nonzero := h.last

theorem SentAll.nal_bytes {d d' : StdParams} {l : List StdNal} (h : SentAll d l d') : ∀ x ∈ l, NalBytes (escape x.rbsp) := by
  induction h with
  | nil => intro x hx; simp at hx
  | cons h1 _ ih =>
    intro x hx
    simp only [List.mem_cons] at hx
    rcases hx with rfl | hx
    · exact h1.nal_bytes
    · exact ih x hx

theorem nalPlaces_nal : ∀ (u : List (Bool × List UInt8)) (off : Nat), (nalPlaces off u).map (·.2.2) = u.map (·.2)
  | [], _ => rfl
  | (b, n) :: u, off => by simp only [nalPlaces, List.map_cons, nalPlaces_nal u]

theorem lengthPlaces_nal (n : Nat) : ∀ (u : List (List UInt8)) (off : Nat), (lengthPlaces n off u).map (·.2.2) = u
  | [], _ => rfl
  | x :: u, off => by simp only [lengthPlaces, List.map_cons, lengthPlaces_nal n u]

theorem length_le_annexB : ∀ (u : List (Bool × List UInt8)), ∀ x ∈ u, x.2.length ≤ (annexB u).length
  | y :: u, x, hx => by
    have hb : annexB (y :: u) = annexBUnit y.1 y.2 ++ annexB u := rfl
    rw [hb, List.length_append]
    simp only [List.mem_cons] at hx
    rcases hx with rfl | hx
    · unfold annexBUnit; simp only [List.length_append]; omega
    · have := length_le_annexB u x hx; omega

theorem length_le_escape (l : List UInt8) : l.length ≤ (escape l).length := by
  obtain ⟨out, h1, _, h2, _⟩ := C11_unescape_bounds (escape l)
  rw [C10_unescape_escape] at h1
  cases h1; exact h2

/-- C48: an Annex B byte stream of NAL units written after the standard (`start` says for each whether its start code has the extra
zero byte) is read back completely: one NAL unit each, in order, with the header and contents that were sent, at its place in the
stream; afterwards the parser state holds the parameter sets received. -/
theorem C48_annexB (cs : Bool) (st : ParserState) (start : List Bool) (l : List StdNal) (d' : StdParams) (hr : Reach st)
    (hs : SentAll .none l d') (hn : start.length = l.length) (hlen : (annexB (start.zip (l.map fun x => escape x.rbsp))).length < 2 ^ 32) :
    ∃ ns st', parseBitstream cs st (annexB (start.zip (l.map fun x => escape x.rbsp))) = .ok (ns, st') ∧
      ns.length = l.length ∧ (∀ x ∈ l.zip ns, Reports x.1 x.2) ∧ Holds d' st' ∧
      ns.map (fun n => (n.offset, n.length)) = (nalPlaces 0 (start.zip (l.map fun x => escape x.rbsp))).map (fun x => (x.1, x.2.1)) := by
  have hb := hs.nal_bytes
  have hmem : ∀ x ∈ l, ∃ b, (b, escape x.rbsp) ∈ start.zip (l.map fun x => escape x.rbsp) := by
    intro x hx
    obtain ⟨i, hi, rfl⟩ := List.mem_iff_getElem.mp hx
    refine ⟨start[i]'(by omega), List.mem_iff_getElem.mpr ⟨i, by simp; omega, by simp⟩⟩
  have hp : (nalPlaces 0 (start.zip (l.map fun x => escape x.rbsp))).map (·.2.2) = l.map fun x => escape x.rbsp := by
    rw [nalPlaces_nal]
    exact List.map_snd_zip (by simp [hn])
  have hsm : ∀ x ∈ l, x.rbsp.length < 2 ^ 32 := by
    intro x hx
    obtain ⟨b, hm⟩ := hmem x hx
    have h1 := length_le_annexB _ _ hm
    have h2 := length_le_escape x.rbsp
    simp only at h1; omega
  obtain ⟨ns, st', h1, h2, h3, h4, _⟩ := C48_all (cs := cs) _ GoodParams.none (Holds.none st) hr hs hsm hp
  refine ⟨ns, st', ?_, ?_, h3, h4, h2⟩
  · rw [C25_annexB cs st _ ?_ (by omega), h1]
    intro x hx
    have := (List.of_mem_zip hx).2
    simp only [List.mem_map] at this
    obtain ⟨y, hy, he⟩ := this
    rw [← he]; exact hb y hy
  · have e1 := congrArg List.length h2
    have e2 := congrArg List.length hp
    simp only [List.length_map] at e1 e2
    omega

/-- C48: the same for NAL units behind length fields of 1 to 7 bytes. -/
theorem C48_length_prefixed (cs : Bool) (k : Nat) (st : ParserState) (l : List StdNal) (d' : StdParams) (hr : Reach st) (hk0 : 0 < k) (hk : k ≤ 7)
    (hs : SentAll .none l d') (hl : ∀ x ∈ l, (escape x.rbsp).length < 256 ^ k ∧ (escape x.rbsp).length < 2 ^ 32)
    (hlen : (lengthPrefixed k (l.map fun x => escape x.rbsp)).length < 2 ^ 63) :
    ∃ ns st', parseBitstreamNaluLength cs k st (lengthPrefixed k (l.map fun x => escape x.rbsp)) = .ok (ns, st') ∧
      ns.length = l.length ∧ (∀ x ∈ l.zip ns, Reports x.1 x.2) ∧ Holds d' st' := by
  have hb := hs.nal_bytes
  have hp := lengthPlaces_nal k (l.map fun x => escape x.rbsp) 0
  have hsm : ∀ x ∈ l, x.rbsp.length < 2 ^ 32 := fun x hx => by
    have h2 := length_le_escape x.rbsp
    have := (hl x hx).2
    omega
  obtain ⟨ns, st', h1, h2, h3, h4, _⟩ := C48_all (cs := cs) _ GoodParams.none (Holds.none st) hr hs hsm hp
  refine ⟨ns, st', ?_, ?_, h3, h4⟩
  · have := C15_units cs k st (l.map fun x => escape x.rbsp) [] hk0 hk ?_ (.stop ?_) (by simpa using hlen)
    · rw [List.append_nil] at this
      rw [this, h1]
    · intro x hx
      simp only [List.mem_map] at hx
      obtain ⟨y, hy, rfl⟩ := hx
      exact ⟨(hb y hy).nonempty, (hl y hy).1⟩
    · simp; omega
  · have e1 := congrArg List.length h2
    have e2 := congrArg List.length hp
    simp only [List.length_map] at e1 e2
    omega

end H265.Std
