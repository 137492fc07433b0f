/- C23, C24, C35, C36: slice segment headers and weighted prediction tables. -/
import Verif.Proof.Slice
import Verif.Proof.Run
import Verif.Props.Sps
import Verif.Props.Rps
import Verif.Props.Pps

namespace H265
open Spec

/-! ### weighted prediction tables -/

/-- C35: parsing inverts the syntax of pred_weight_table() (list 0) for all inputs and parameters. -/
theorem C35_pred_weight_table_inverts (cat n : Nat) :
    InvertsSigned (parsePredWeightTable cat n) (Spec.predWeightTable cat) (ValidPredWeightTable cat n) := Codec.invertsSigned parsePredWeightTable_codec

/-- C35: an accepted table has one luma flag and (with chroma) one chroma flag per reference picture, and a weight for a picture
exactly if its flag is set. -/
theorem C35_pred_weight_table_counts {cat n : Nat} {bb bb' : BB} {t : PredWeightTable} (h : bb.WF)
    (hr : (parsePredWeightTable cat n).run bb = .ok t bb') :
    t.luma_weight_l0_flag.length = n + 1 ∧ t.chroma_weight_l0_flag.length = (if cat = 0 then 0 else n + 1) ∧ t.weights.length = n + 1 ∧
    ∀ (i : Nat) (w : PredWeight), t.weights[i]? = some w →
      (w.luma.isSome ↔ t.luma_weight_l0_flag[i]? = some 1) ∧ (w.chroma.isSome ↔ t.chroma_weight_l0_flag[i]? = some 1) := by
  have hv := ((C35_pred_weight_table_inverts cat n).sound bb bb' t h hr).1
  have hl := hv.luma_weight_l0_flag
  have hcl : t.chroma_weight_l0_flag.length = (if cat = 0 then 0 else n + 1) := by
    by_cases hc : cat = 0
    · rw [if_pos hc, hv.chroma_weight_l0_flag.absent (by simpa using hc)]; rfl
    · rw [if_neg hc]; exact (hv.chroma_weight_l0_flag.present hc).length
  refine ⟨hl.length, hcl, hv.weights.length, fun i w hi => ?_⟩
  have hin : i < n + 1 := by rw [← hv.weights.length]; exact (List.getElem?_eq_some_iff.mp hi).1
  have hw := hv.weights.valid i w hi
  refine ⟨hw.luma.present.trans ?_, hw.chroma.present.trans ?_⟩
  · have hx : i < t.luma_weight_l0_flag.length := by rw [hl.length]; exact hin
    rw [List.getD_eq_getElem?_getD, List.getElem?_eq_getElem hx]
    have := hl.valid _ (List.getElem_mem hx)
    simp only [Option.getD_some, Option.some.injEq]
    omega
  · by_cases hc : cat = 0
    · rw [hv.chroma_weight_l0_flag.absent (by simpa using hc)]; simp
    · have hf := hv.chroma_weight_l0_flag.present hc
      have hx : i < t.chroma_weight_l0_flag.length := by rw [hf.length]; exact hin
      rw [List.getD_eq_getElem?_getD, List.getElem?_eq_getElem hx]
      have := hf.valid _ (List.getElem_mem hx)
      simp only [Option.getD_some, Option.some.injEq]
      omega

/-! ### slice segment headers -/

/-- `a` has been returned by the parse function `p` (on some input). -/
def Parsed {α : Type} (p : Prog α) (a : α) : Prop := ∃ bb bb', bb.WF ∧ p.run bb = .ok a bb'

theorem Parsed.spsValid {s : Sps} (h : Parsed parseSps s) : ValidSpsBody s.body := by
  obtain ⟨bb, bb', hwf, hr⟩ := h
  exact (C27_sps_inverts.sound bb bb' s hwf hr).1

theorem Parsed.ppsScc {p : Pps} (h : Parsed parsePps p) : p.body.head.pps_scc_extension_flag ≠ 0 → p.body.pps_scc_extension.isSome := by
  obtain ⟨bb, bb', hwf, hr⟩ := h
  obtain ⟨r, hd, _⟩ := parsePps_run hwf hr
  have hs := parsePpsBody_sound (H := Cond.canon) (A := fun k => k = .signedOverflow) bb.rem
  rw [hd] at hs
  obtain ⟨w, _, _, _, _, hscc, _⟩ := hs
  exact hscc.present.mpr

/-- What slice header parsing relies on in an SPS, whoever made it: the ranges of four elements, the announced number of consistent reference picture
sets, and a coding tree block size that can be shifted to. -/
structure Spec.SpsUsable (s : SpsBody) : Prop where
  log2_max_pic_order_cnt_lsb_minus4 : s.log2_max_pic_order_cnt_lsb_minus4 ≤ 12
  num_short_term_ref_pic_sets : s.num_short_term_ref_pic_sets ≤ 64
  num_long_term_ref_pics_sps : s.num_long_term_ref_pics_sps ≤ 32
  ctbLog2Size : s.log2_min_luma_coding_block_size_minus3 + 3 + s.log2_diff_max_min_luma_coding_block_size ≤ 30
  st_ref_pic_set : s.num_short_term_ref_pic_sets ≤ s.st_ref_pic_set.length
  num_negative_pics : ∀ r ∈ s.st_ref_pic_set, r.num_negative_pics = r.s0.length
  num_positive_pics : ∀ r ∈ s.st_ref_pic_set, r.num_positive_pics = r.s1.length
  delta_poc_minus1 : ∀ r ∈ s.st_ref_pic_set, ∀ e ∈ r.s0 ++ r.s1, e.delta_poc_minus1 < 2 ^ 32

/-- What slice header parsing relies on in a PPS: the SCC extension is there if its flag is set. -/
def Spec.PpsUsable (p : PpsBody) : Prop := p.head.pps_scc_extension_flag ≠ 0 → p.pps_scc_extension.isSome

theorem Parsed.spsUsable {s : Sps} (h : Parsed parseSps s) : Spec.SpsUsable s.body := by
  have hv := h.spsValid
  have hw : ∀ r ∈ s.body.st_ref_pic_set, RpsWF r := by
    intro r hr
    obtain ⟨i, hi⟩ := List.mem_iff_getElem?.mp hr
    exact ValidStRefPicSet.wf (hv.st_ref_pic_set.valid i r hi)
  refine ⟨hv.log2_max_pic_order_cnt_lsb_minus4.2, hv.num_short_term_ref_pic_sets.2, ?_, ?_, ?_, fun r hr => (hw r hr).1, fun r hr => (hw r hr).2, fun r hr => (hw r hr).3⟩
  · by_cases hc : s.body.long_term_ref_pics_present_flag ≠ 0
    · exact (hv.num_long_term_ref_pics_sps.present hc).2
    · rw [hv.num_long_term_ref_pics_sps.absent hc]; decide
  · obtain ⟨bb, bb', hwf, hr⟩ := h
    obtain ⟨_, _, _, _, _, _, _, _, _, _, _, _, _, _, _, _, _, _, _, hm, hd, _⟩ := C26_sps_limits hwf hr
    omega
  · rw [hv.st_ref_pic_set.length]; exact Nat.le_refl _

theorem Parsed.spsPicSize {s : Sps} (h : Parsed parseSps s) : 0 < s.body.getPicSizeInCtbsY := by
  obtain ⟨bb, bb', hwf, hr⟩ := h
  exact (C42_pic_size_in_ctbs hwf hr).2.2.2.2.2.2.1

/-- the slice header after the PPS id for usable parameter sets -/
theorem sliceBody_codec_for {H : Cond} {A : Bad → Prop} [CondOk H] [SeOk H] [OvfOk A] {t first : Nat} {p : PpsBody} {s : SpsBody}
    (hp : Spec.PpsUsable p) (hs : Spec.SpsUsable s) (hpic : first = 0 → 0 < s.getPicSizeInCtbsY) :
    Codec H A (parseSliceBody t p s first) (Spec.sliceBody t p s first) (ValidSliceBody t p s first) :=
  parseSliceBody_codec hs.1 hs.2 hs.3 hs.5 (fun r hr => ⟨hs.6 r hr, hs.7 r hr, hs.8 r hr⟩) hp hpic

/-- the slice header after the PPS id for parameter sets that have been parsed -/
theorem sliceBody_codec {H : Cond} {A : Bad → Prop} [CondOk H] [SeOk H] [OvfOk A] {t first : Nat} {p : Pps} {s : Sps}
    (hp : Parsed parsePps p) (hs : Parsed parseSps s) :
    Codec H A (parseSliceBody t p.body s.body first) (Spec.sliceBody t p.body s.body first) (ValidSliceBody t p.body s.body first) :=
  sliceBody_codec_for hp.ppsScc hs.spsUsable fun _ => hs.spsPicSize

/-- A slice header that is well formed with respect to the PPS `P` and SPS `S`. -/
structure Spec.ValidSliceSegmentHeader (t : Nat) (P : Pps) (S : Sps) (h : SliceSegmentHeader) : Prop where
  nal_unit_type : h.nal_unit_type = t
  head : ValidSliceHead t h.head
  body : ValidSliceBody t P.body S.body h.head.first_slice_segment_in_pic_flag h.body

/-- slice_segment_header(), clause 7.3.6.1 -/
def Spec.sliceSegmentHeader (t : Nat) (P : Pps) (S : Sps) (h : SliceSegmentHeader) : List Bool :=
  Spec.sliceHead t h.head ++ Spec.sliceBody t P.body S.body h.head.first_slice_segment_in_pic_flag h.body

/-- the parameter sets named by a slice header with this PPS id -/
def Spec.Names (pps : Nat → Option Pps) (sps : Nat → Option Sps) (id : Nat) (P : Pps) (S : Sps) : Prop :=
  pps id = some P ∧ sps P.body.head.pps_seq_parameter_set_id = some S

variable {t : Nat} {pps : Nat → Option Pps} {sps : Nat → Option Sps}

theorem slice_run {bb bb1 : BB} {head : SliceHead} (hr : (parseSliceHead t).run bb = .ok head bb1) {P : Pps} {S : Sps}
    (hn : Spec.Names pps sps head.slice_pic_parameter_set_id P S) :
    (parseSliceSegmentHeader t pps sps).run bb =
      ((parseSliceBody t P.body S.body head.first_slice_segment_in_pic_flag).run bb1).andThen fun body bb' => .ok ⟨t, head, body⟩ bb' := by
  unfold parseSliceSegmentHeader
  rw [Prog.run_seq, hr]
  simp only [Res.andThen]
  rw [hn.1]
  simp only
  rw [hn.2]
  simp only
  rw [Prog.run_seq]
  rfl

theorem slice_run_none {bb bb1 : BB} {head : SliceHead} (hr : (parseSliceHead t).run bb = .ok head bb1)
    (hn : ¬ ∃ P S, Spec.Names pps sps head.slice_pic_parameter_set_id P S) : (parseSliceSegmentHeader t pps sps).run bb = .fail bb1 := by
  unfold parseSliceSegmentHeader
  rw [Prog.run_seq, hr]
  simp only [Res.andThen]
  cases hp : pps head.slice_pic_parameter_set_id with
  | none => rfl
  | some P =>
    simp only
    cases hs : sps P.body.head.pps_seq_parameter_set_id with
    | none => rfl
    | some S => exact absurd ⟨P, S, hp, hs⟩ hn

theorem slice_ok {bb bb' : BB} {h : SliceSegmentHeader} (hr : (parseSliceSegmentHeader t pps sps).run bb = .ok h bb') :
    ∃ P S bb1, Spec.Names pps sps h.head.slice_pic_parameter_set_id P S ∧ h.nal_unit_type = t ∧ (parseSliceHead t).run bb = .ok h.head bb1 ∧
      (parseSliceBody t P.body S.body h.head.first_slice_segment_in_pic_flag).run bb1 = .ok h.body bb' := by
  cases hh : (parseSliceHead t).run bb with
  | fail b => unfold parseSliceSegmentHeader at hr; rw [Prog.run_seq, hh] at hr; cases hr
  | bad k => unfold parseSliceSegmentHeader at hr; rw [Prog.run_seq, hh] at hr; cases hr
  | ok head bb1 =>
    by_cases hn : ∃ P S, Spec.Names pps sps head.slice_pic_parameter_set_id P S
    · obtain ⟨P, S, hn⟩ := hn
      rw [slice_run hh hn] at hr
      cases hb : (parseSliceBody t P.body S.body head.first_slice_segment_in_pic_flag).run bb1 with
      | fail b => rw [hb] at hr; cases hr
      | bad k => rw [hb] at hr; cases hr
      | ok body b2 =>
        rw [hb] at hr
        cases hr
        exact ⟨P, S, bb1, hn, rfl, rfl, hb⟩
    · rw [slice_run_none hh hn] at hr; cases hr

/-- C23: a slice header is returned only if the PPS it names and the SPS this PPS names are known. -/
theorem C23_slice_needs_parameter_sets {bb bb' : BB} {h : SliceSegmentHeader} (hr : (parseSliceSegmentHeader t pps sps).run bb = .ok h bb') :
    ∃ P S, pps h.head.slice_pic_parameter_set_id = some P ∧ sps P.body.head.pps_seq_parameter_set_id = some S := by
  obtain ⟨P, S, _, hn, _⟩ := slice_ok hr
  exact ⟨P, S, hn.1, hn.2⟩

/-- C23: if the input starts with a slice header whose PPS, or the SPS named by it, is not known, nothing is returned. -/
theorem C23_slice_rejected {bb : BB} {head : SliceHead} {rest : List Bool} (h : bb.WF) (hv : ValidSliceHead t head)
    (hb : bb.rem = Spec.sliceHead t head ++ rest)
    (hn : ¬ ∃ P S, pps head.slice_pic_parameter_set_id = some P ∧ sps P.body.head.pps_seq_parameter_set_id = some S) :
    ∃ bb', (parseSliceSegmentHeader t pps sps).run bb = .fail bb' := by
  obtain ⟨bb1, h1, _⟩ := (parseSliceHead_codec (H := Cond.any) (A := fun _ => False)).inverts.complete bb head rest h hv hb
  exact ⟨bb1, slice_run_none h1 hn⟩

/-- C24: the result depends on the parser state only through the PPS named by the slice and the SPS named by that PPS. -/
theorem C24_slice_depends_on_own_parameter_sets {pps' : Nat → Option Pps} {sps' : Nat → Option Sps} (bb : BB) (h : bb.WF)
    (hp : ∀ head rest, ValidSliceHead t head → bb.rem = Spec.sliceHead t head ++ rest →
      pps head.slice_pic_parameter_set_id = pps' head.slice_pic_parameter_set_id ∧
      ∀ P, pps head.slice_pic_parameter_set_id = some P →
        sps P.body.head.pps_seq_parameter_set_id = sps' P.body.head.pps_seq_parameter_set_id) :
    (parseSliceSegmentHeader t pps sps).run bb = (parseSliceSegmentHeader t pps' sps').run bb := by
  cases hh : (parseSliceHead t).run bb with
  | fail b => unfold parseSliceSegmentHeader; rw [Prog.run_seq, Prog.run_seq, hh]; rfl
  | bad k => unfold parseSliceSegmentHeader; rw [Prog.run_seq, Prog.run_seq, hh]; rfl
  | ok head bb1 =>
    obtain ⟨hv, _, _, hb⟩ := (parseSliceHead_codec (H := Cond.any) (A := fun _ => False)).inverts.sound bb bb1 head h hh
    obtain ⟨h1, h2⟩ := hp head _ hv hb
    by_cases hn : ∃ P S, Spec.Names pps sps head.slice_pic_parameter_set_id P S
    · obtain ⟨P, S, hn⟩ := hn
      rw [slice_run hh hn, slice_run hh (P := P) (S := S) ⟨by rw [← h1]; exact hn.1, by rw [← h2 P hn.1]; exact hn.2⟩]
    · rw [slice_run_none hh hn, slice_run_none hh]
      rintro ⟨P, S, ha, hb⟩
      exact hn ⟨P, S, by rw [h1]; exact ha, by rw [h2 P (by rw [h1]; exact ha)]; exact hb⟩

/-- C36 (soundness): with parameter sets that have been parsed, a returned slice header is well formed with respect to its own PPS and SPS, and
the bits read are its serialisation. -/
theorem C36_slice_sound (hpps : ∀ i P, pps i = some P → Parsed parsePps P) (hsps : ∀ i S, sps i = some S → Parsed parseSps S)
    {bb bb' : BB} {h : SliceSegmentHeader} (hwf : bb.WF) (hr : (parseSliceSegmentHeader t pps sps).run bb = .ok h bb') :
    ∃ P S, Spec.Names pps sps h.head.slice_pic_parameter_set_id P S ∧ ValidSliceSegmentHeader t P S h ∧ bb'.WF ∧ bb'.bytes = bb.bytes ∧
      ((parseSliceSegmentHeader t pps sps).NoAlias bb.rem → bb.rem = Spec.sliceSegmentHeader t P S h ++ bb'.rem) := by
  obtain ⟨P, S, bb1, hn, hty, h1, h2⟩ := slice_ok hr
  obtain ⟨v1, w1, b1, e1⟩ := (parseSliceHead_codec (H := Cond.any) (A := fun _ => False)).inverts.sound bb bb1 h.head hwf h1
  obtain ⟨v2, w2, b2, e2⟩ := (Codec.invertsSigned (sliceBody_codec (hpps _ _ hn.1) (hsps _ _ hn.2))).sound bb1 bb' h.body w1 h2
  refine ⟨P, S, hn, ⟨hty, v1, v2⟩, w2, b2.trans b1, fun hna => ?_⟩
  have hd := denote_of_run_ok hwf h1
  have hna1 := (Prog.NoAlias.of_bind hna).2 _ _ hd
  rw [hn.1] at hna1
  simp only at hna1
  rw [hn.2] at hna1
  simp only at hna1
  rw [Spec.sliceSegmentHeader, List.append_assoc, ← e2 (Prog.NoAlias.of_bind hna1).1, ← e1]

/-- C36 (completeness): every serialised well-formed slice header is parsed back. -/
theorem C36_slice_accepts (hpps : ∀ i P, pps i = some P → Parsed parsePps P) (hsps : ∀ i S, sps i = some S → Parsed parseSps S)
    (bb : BB) (h : SliceSegmentHeader) (rest : List Bool) (P : Pps) (S : Sps) (hwf : bb.WF)
    (hn : Spec.Names pps sps h.head.slice_pic_parameter_set_id P S) (hv : ValidSliceSegmentHeader t P S h)
    (hb : bb.rem = Spec.sliceSegmentHeader t P S h ++ rest) :
    ∃ bb', (parseSliceSegmentHeader t pps sps).run bb = .ok h bb' ∧ bb'.WF ∧ bb'.bytes = bb.bytes ∧ bb'.rem = rest := by
  obtain ⟨ty, head, body⟩ := h
  obtain ⟨hty, hh, hbd⟩ := hv
  simp only at hty hh hbd hn
  subst hty
  unfold Spec.sliceSegmentHeader at hb
  rw [List.append_assoc] at hb
  obtain ⟨bb1, h1, h2, h3, h4⟩ := (parseSliceHead_codec (H := Cond.any) (A := fun _ => False)).inverts.complete bb head _ hwf hh hb
  obtain ⟨bb2, g1, g2, g3, g4⟩ := (Codec.invertsSigned (sliceBody_codec (hpps _ _ hn.1) (hsps _ _ hn.2))).complete bb1 body rest h2 hbd h4
  refine ⟨bb2, ?_, g2, g3.trans h3, g4⟩
  rw [slice_run h1 hn, g1]; rfl

/-- without a picture size, a slice segment that is not the first in its picture has no address length -/
theorem sliceBody_noPicSize {t : Nat} {p : PpsBody} {s : SpsBody} (h0 : s.getPicSizeInCtbsY = 0) {bb : BB} (hwf : bb.WF) :
    (parseSliceBody t p s 0).run bb = .bad .floatCast ∨ ∃ b, (parseSliceBody t p s 0).run bb = .fail b := by
  unfold parseSliceBody
  rw [Prog.run_seq]
  have hu : Inverts (Prog.u 1) (Spec.u 1) (fun v => v < 2 ^ 1) := (u_codec (by decide) (by decide)).inverts
  cases h1 : (Prog.opt ((0 : Nat) = 0 ∧ p.head.dependent_slice_segments_enabled_flag ≠ 0) (Prog.u 1) 0).run bb with
  | fail b => exact .inr ⟨b, rfl⟩
  | bad k =>
    exfalso
    unfold Prog.opt at h1
    split at h1
    · exact hu.safe _ _ hwf h1
    · cases h1
  | ok d b =>
    left
    simp only [Res.andThen]
    rw [Prog.run_seq]
    unfold Prog.opt uAddress
    rw [if_pos trivial, if_pos h0]
    rfl

/-- C36: with usable parameter sets, the undefined behaviour of the slice header parser is signed overflow and, if the SPS has no picture size, the
computation of the length of the slice address. -/
theorem slice_safe_for {A : Bad → Prop} (ho : A .signedOverflow) (hpps : ∀ i P, pps i = some P → Spec.PpsUsable P.body)
    (hsps : ∀ i S, sps i = some S → Spec.SpsUsable S.body ∧ (0 < S.body.getPicSizeInCtbsY ∨ A .floatCast))
    {bb : BB} {k : Bad} (hwf : bb.WF) (hr : (parseSliceSegmentHeader t pps sps).run bb = .bad k) : A k := by
  cases hh : (parseSliceHead t).run bb with
  | fail b => unfold parseSliceSegmentHeader at hr; rw [Prog.run_seq, hh] at hr; cases hr
  | bad k => exact absurd hh ((parseSliceHead_codec (H := Cond.any) (A := fun _ => False)).inverts.safe bb k hwf)
  | ok head bb1 =>
    have hw1 := ((parseSliceHead_codec (H := Cond.any) (A := fun _ => False)).inverts.sound bb bb1 head hwf hh).2.1
    by_cases hn : ∃ P S, Spec.Names pps sps head.slice_pic_parameter_set_id P S
    · obtain ⟨P, S, hn⟩ := hn
      rw [slice_run hh hn] at hr
      cases hb : (parseSliceBody t P.body S.body head.first_slice_segment_in_pic_flag).run bb1 with
      | fail b => rw [hb] at hr; cases hr
      | ok body b2 => rw [hb] at hr; cases hr
      | bad k' =>
        rw [hb] at hr
        cases hr
        obtain ⟨hu, hz⟩ := hsps _ _ hn.2
        by_cases hpic : head.first_slice_segment_in_pic_flag = 0 → 0 < S.body.getPicSizeInCtbsY
        · rw [(Codec.invertsSigned (sliceBody_codec_for (hpps _ _ hn.1) hu hpic)).safe bb1 k hw1 hb]
          exact ho
        · have hf : head.first_slice_segment_in_pic_flag = 0 := Classical.not_not.mp fun hx => hpic fun h => absurd h hx
          have h0 : S.body.getPicSizeInCtbsY = 0 := Nat.eq_zero_of_not_pos fun hx => hpic fun _ => hx
          rw [hf] at hb
          rcases sliceBody_noPicSize (t := t) (p := P.body) h0 hw1 with h1 | ⟨b, h1⟩ <;> rw [h1] at hb <;> cases hb
          rcases hz with hz | hz
          · omega
          · exact hz
    · rw [slice_run_none hh hn] at hr; cases hr

/-- C36: the only undefined behaviour of the slice header parser is signed overflow (in the se(v) reader and the reference picture set
arithmetic), whatever the input. -/
theorem C36_slice_safe (hpps : ∀ i P, pps i = some P → Parsed parsePps P) (hsps : ∀ i S, sps i = some S → Parsed parseSps S)
    {bb : BB} {k : Bad} (hwf : bb.WF) (hr : (parseSliceSegmentHeader t pps sps).run bb = .bad k) : k = .signedOverflow :=
  slice_safe_for (A := fun k => k = .signedOverflow) rfl (fun i P h => (hpps i P h).ppsScc)
    (fun i S h => ⟨(hsps i S h).spsUsable, .inl (hsps i S h).spsPicSize⟩) hwf hr

theorem optCases {c v d : Prop} (h : Opt c v d) : (c ∧ v) ∨ (¬ c ∧ d) := by
  by_cases hc : c
  · exact .inl ⟨hc, h.present hc⟩
  · exact .inr ⟨hc, h.absent hc⟩

theorem picHeightInCtbs_bounds {s : SpsBody} (hv : ValidSpsBody s) : 0 < s.getPicHeightInCtbsY ∧ s.getPicHeightInCtbsY ≤ 16888 := by
  have hh := hv.pic_height_in_luma_samples
  obtain ⟨h1, h2⟩ := ceilDiv_spec s.pic_height_in_luma_samples s.getCtbSizeY (Nat.two_pow_pos _)
  have hb : 0 < s.getCtbSizeY := Nat.two_pow_pos _
  unfold SpsBody.getPicHeightInCtbsY
  constructor
  · rcases Nat.eq_zero_or_pos (ceilDiv s.pic_height_in_luma_samples s.getCtbSizeY) with h0 | h0
    · rw [h0] at h1; omega
    · exact h0
  · unfold ceilDiv
    have hd := Nat.div_add_mod s.pic_height_in_luma_samples s.getCtbSizeY
    have hle : 1 * (s.pic_height_in_luma_samples / s.getCtbSizeY) ≤ s.getCtbSizeY * (s.pic_height_in_luma_samples / s.getCtbSizeY) := Nat.mul_le_mul_right _ hb
    split <;> omega

/-- C36: what every returned slice header satisfies, whatever the input. -/
theorem C36_slice_limits (hpps : ∀ i P, pps i = some P → Parsed parsePps P) (hsps : ∀ i S, sps i = some S → Parsed parseSps S)
    {bb bb' : BB} {h : SliceSegmentHeader} (hwf : bb.WF) (hr : (parseSliceSegmentHeader t pps sps).run bb = .ok h bb') :
    ∃ P S, Spec.Names pps sps h.head.slice_pic_parameter_set_id P S ∧
      -- the address fits in the bits needed for the picture size (for pictures of at most 2^20 CTBs)
      (∀ k, S.body.getPicSizeInCtbsY ≤ 2 ^ k → k ≤ 20 → h.body.slice_segment_address < 2 ^ k) ∧
      (h.head.first_slice_segment_in_pic_flag = 1 → h.body.slice_segment_address = 0 ∧ h.body.dependent_slice_segment_flag = 0) ∧
      h.body.slice_pic_order_cnt_lsb < 2 ^ (S.body.log2_max_pic_order_cnt_lsb_minus4 + 4) ∧
      (∀ k, S.body.num_short_term_ref_pic_sets ≤ 2 ^ k → k ≤ 6 → h.body.short_term_ref_pic_set_idx < 2 ^ k) ∧
      h.body.lt_ref_pics.length = h.body.num_long_term_sps + h.body.num_long_term_pics ∧
      h.body.offset_len_minus1 ≤ 31 ∧
      h.body.entry_point_offset_minus1.length = h.body.num_entry_point_offsets ∧
      (∀ x ∈ h.body.entry_point_offset_minus1, x < 2 ^ (h.body.offset_len_minus1 + 1)) ∧
      h.body.slice_segment_header_extension_data_byte.length = h.body.slice_segment_header_extension_length ∧
      (h.body.dependent_slice_segment_flag = 0 → h.body.slice_reserved_flag.length = P.body.head.num_extra_slice_header_bits) ∧
      (∀ w, h.body.pred_weight_table = some w → w.luma_weight_l0_flag.length = h.body.num_ref_idx_l0_active_minus1 + 1) ∧
      -- entry points: at most one per CTB row, tile, or CTB row of a tile column
      (P.body.head.tiles_enabled_flag = 0 → P.body.head.entropy_coding_sync_enabled_flag = 1 →
        h.body.num_entry_point_offsets ≤ S.body.getPicHeightInCtbsY - 1) ∧
      (P.body.head.tiles_enabled_flag = 1 → P.body.head.entropy_coding_sync_enabled_flag = 0 →
        (P.body.head.num_tile_columns_minus1 + 1) * (P.body.head.num_tile_rows_minus1 + 1) < 2 ^ 32 →
        h.body.num_entry_point_offsets ≤ (P.body.head.num_tile_columns_minus1 + 1) * (P.body.head.num_tile_rows_minus1 + 1) - 1) ∧
      (P.body.head.tiles_enabled_flag = 1 → P.body.head.entropy_coding_sync_enabled_flag = 1 →
        h.body.num_entry_point_offsets ≤ (P.body.head.num_tile_columns_minus1 + 1) * (S.body.getPicHeightInCtbsY - 1)) ∧
      (P.body.head.tiles_enabled_flag = 0 → P.body.head.entropy_coding_sync_enabled_flag = 0 → h.body.num_entry_point_offsets = 0) ∧
      -- the reader only moves forward
      bb'.rem.length ≤ bb.rem.length := by
  obtain ⟨P, S, hn, ⟨_, hv1, hv⟩, hw', hb', _⟩ := C36_slice_sound hpps hsps hwf hr
  have hS := (hsps _ _ hn.2).spsValid
  refine ⟨P, S, hn, ?_, ?_, ?_, ?_, ?_, ?_, ?_, ?_, ?_, ?_, ?_, ?_, ?_, ?_, ?_, ?_⟩
  · intro k hk hk20
    by_cases hc : h.head.first_slice_segment_in_pic_flag = 0
    · have h1 := (hv.slice_segment_address.present hc).lt
      refine Nat.lt_of_lt_of_le h1 (Nat.pow_le_pow_right (by decide) ?_)
      have : 2 ^ k ≤ 2 ^ 20 := Nat.pow_le_pow_right (by decide) hk20
      unfold ceilLog2f
      rw [if_pos (Nat.le_trans hk this)]
      exact clog2From_le hk _ _ (Nat.zero_le _)
    · rw [hv.slice_segment_address.absent hc]; exact Nat.two_pow_pos k
  · intro h1
    refine ⟨hv.slice_segment_address.absent (by omega), hv.dependent_slice_segment_flag.absent (by omega)⟩
  · rcases optCases hv.slice_pic_order_cnt_lsb with ⟨hc, hx1⟩ | ⟨hc, hx1⟩
    · exact hx1
    · rw [hx1]; exact Nat.two_pow_pos _
  · intro k hk hk6
    rcases optCases hv.short_term_ref_pic_set_idx with ⟨hc, hx1⟩ | ⟨hc, hx1⟩
    · refine Nat.lt_of_lt_of_le (hx1) (Nat.pow_le_pow_right (by decide) ?_)
      have : 2 ^ k ≤ 2 ^ 6 := Nat.pow_le_pow_right (by decide) hk6
      unfold ceilLog2f
      rw [if_pos (by omega)]
      exact clog2From_le hk _ _ (Nat.zero_le _)
    · rw [hx1]; exact Nat.two_pow_pos k
  · rcases optCases hv.lt_ref_pics with ⟨hc, hx1⟩ | ⟨hc, hx1⟩
    · exact (hx1).each.length
    · rw [hx1, hv.num_long_term_pics.absent hc, hv.num_long_term_sps.absent (fun hx => hc ⟨hx.1, hx.2.1, hx.2.2.1, hx.2.2.2.1⟩)]; rfl
  · have := optLe31 hv.offset_len_minus1; omega
  · rcases optCases hv.entry_point_offset_minus1 with ⟨hc, hx1⟩ | ⟨hc, hx1⟩
    · exact (hx1).length
    · rw [hx1]
      by_cases hc2 : (P.body.head.tiles_enabled_flag ≠ 0 ∨ P.body.head.entropy_coding_sync_enabled_flag ≠ 0)
      · simp only [List.length_nil]
        have : ¬ h.body.num_entry_point_offsets > 0 := fun hx => hc ⟨hc2, hx⟩
        omega
      · rw [hv.num_entry_point_offsets.absent hc2]; rfl
  · intro x hx
    rcases optCases hv.entry_point_offset_minus1 with ⟨hc, hx1⟩ | ⟨hc, hx1⟩
    · exact (hx1).valid x hx
    · rw [hx1] at hx; cases hx
  · rcases optCases hv.slice_segment_header_extension_data_byte with ⟨hc, hx1⟩ | ⟨hc, hx1⟩
    · exact (hx1).length
    · rw [hx1, hv.slice_segment_header_extension_length.absent hc]; rfl
  · intro hc; exact (hv.slice_reserved_flag.present hc).length
  · intro w hw; exact (hv.pred_weight_table.valid w hw).luma_weight_l0_flag.length
  all_goals have hne := hv.num_entry_point_offsets_valid
  all_goals unfold isValidNumEntryPointOffsets at hne
  · intro h1 h2
    rw [if_pos ⟨h1, h2⟩] at hne
    have hpos := picHeightInCtbs_bounds hS
    unfold w32 at hne
    omega
  · intro h1 h2 hlt
    rw [if_neg (by omega), if_pos ⟨h1, h2⟩] at hne
    have hpos : 0 < (P.body.head.num_tile_columns_minus1 + 1) * (P.body.head.num_tile_rows_minus1 + 1) := Nat.mul_pos (by omega) (by omega)
    revert hne hlt hpos
    generalize (P.body.head.num_tile_columns_minus1 + 1) * (P.body.head.num_tile_rows_minus1 + 1) = m
    intro hne hlt hpos
    unfold w32 at hne
    omega
  · intro h1 h2
    rw [if_neg (by omega), if_neg (by omega), if_pos ⟨h1, h2⟩] at hne
    have hpos := picHeightInCtbs_bounds hS
    have he : w32 (S.body.getPicHeightInCtbsY + 2 ^ 32 - 1) = S.body.getPicHeightInCtbsY - 1 := by unfold w32; omega
    rw [he] at hne
    exact Nat.le_trans hne (Nat.mod_le _ _)
  · intro h1 h2
    rw [if_neg (by omega), if_neg (by omega), if_neg (by omega)] at hne
    exact hne
  · exact Prog.run_forward hwf hr

/-- C36: the slice of the unit test stream, with the SPS and PPS of that stream (h265_bitstream_parser_unittest.cc:24-52). -/
def testSlice : List UInt8 := [0xaf, 0x09, 0x40, 0xf3, 0xb8, 0xd5, 0x39, 0xba, 0x1f, 0xe4, 0xa6, 0x08, 0x5c]

/-- C33, the set of a slice header: the same sizes, and an inter-predicted set names a set of the SPS. -/
theorem C33_slice_set (hpps : ∀ i P, pps i = some P → Parsed parsePps P) (hsps : ∀ i S, sps i = some S → Parsed parseSps S)
    {bb bb' : BB} {h : SliceSegmentHeader} (hwf : bb.WF) (hr : (parseSliceSegmentHeader t pps sps).run bb = .ok h bb')
    {s : StRefPicSet} (hs : h.body.st_ref_pic_set = some s) :
    s.num_negative_pics = s.s0.length ∧ s.num_positive_pics = s.s1.length ∧ s.s0.length + s.s1.length ≤ 16 ∧ s.flags.length ≤ 16 ∧
      (s.inter_ref_pic_set_prediction_flag = 1 → ∃ (P : Pps) (S : Sps) (j : Nat) (ref : StRefPicSet), Spec.Names pps sps h.head.slice_pic_parameter_set_id P S ∧
        S.body.st_ref_pic_set[j]? = some ref ∧
        deltaPocs (-1) 0 s.s0 = (derivedS0 ref s).map (·.1) ∧ deltaPocs 1 0 s.s1 = (derivedS1 ref s).map (·.1)) := by
  obtain ⟨P, S, hn, ⟨_, hv1, hv⟩, hw', hb', _⟩ := C36_slice_sound hpps hsps hwf hr
  have hS := (hsps _ _ hn.2).spsValid
  have hset := hv.st_ref_pic_set.valid s hs
  obtain ⟨h1, h2, h3, h4⟩ := H265.ValidStRefPicSet.sizes hset
  refine ⟨h1, h2, by omega, h4, fun hp => ?_⟩
  obtain ⟨_, hx | ⟨h0, hx⟩⟩ := hset
  · have := hx.inter_ref_pic_set_prediction_flag; omega
  · have hr := hx.delta_idx_range
    have hl : S.body.st_ref_pic_set.length = S.body.num_short_term_ref_pic_sets := hS.st_ref_pic_set.length
    have hd := hx.derived
    have hj : S.body.num_short_term_ref_pic_sets - (s.delta_idx_minus1 + 1) < S.body.st_ref_pic_set.length := by omega
    have he := List.getElem?_eq_getElem hj
    rw [List.getD_eq_getElem?_getD, he] at hd
    obtain ⟨hp0, hp1⟩ := derived_pocs hd hx.delta_rps_sign hx.abs_delta_rps_minus1
    exact ⟨P, S, _, _, hn, he, hp0, hp1⟩

/-- hypotheses met: the parameter sets are parsed, and the header has the values expected by the unit test -/
example : (match parseSps.parseEscaped testSps, parsePps.parseEscaped testPps with
    | .ok s _, .ok p _ =>
      ((parseSliceSegmentLayer 19 (fun i => if i = 0 then some p else none) (fun i => if i = 0 then some s else none)).parseEscaped testSlice).val?.map
        fun h => (h.head.first_slice_segment_in_pic_flag, h.head.slice_pic_parameter_set_id, h.body.slice_type, h.body.slice_sao_luma_flag,
          h.body.slice_sao_chroma_flag, h.body.slice_qp_delta)
    | _, _ => none) = some (1, 0, 2, 1, 1, 9) := by decide +kernel

/-- C35, hypotheses met: the table of h265_pred_weight_table_parser_unittest.cc:24 -/
example : ((parsePredWeightTable 1 1).runBytes [0x10, 0xc0, 0x60]).val?.isSome = true := by decide +kernel

end H265
