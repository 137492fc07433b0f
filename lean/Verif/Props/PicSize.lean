/-
C85: the picture sizes reported for a sequence are those that were sent.
-/
import Verif.Props.Front
import Verif.Spec.PicSize

set_option autoImplicit false

namespace H265.Std
open Spec

theorem sizes_of_same {bb bb' : BB} {ptl : StdPtl} {s : SpsBody} {v : Sps} (hwf : bb.WF) (hr : parseSps.run bb = .ok v bb') (hc : FrontSps ptl s)
    (h : SameSps v.body s) : HasSizes v.body s := by
  have e := h.1
  have r1 := C42_resolution hwf hr
  have r2 := C42_pic_size_in_ctbs hwf hr
  have r3 := C42_pic_size_in_min_cbs hwf hr
  have c := hc.conforms
  have q1 : (noVui v.body).getResolution = .ok
      ((noVui v.body).pic_width_in_luma_samples - Spec.subWidthC (noVui v.body).chroma_format_idc * ((noVui v.body).conf_win_left_offset + (noVui v.body).conf_win_right_offset),
       (noVui v.body).pic_height_in_luma_samples - Spec.subHeightC (noVui v.body).chroma_format_idc * ((noVui v.body).conf_win_top_offset + (noVui v.body).conf_win_bottom_offset)) := r1
  have w1 : Std.subWidthC s * (s.conf_win_left_offset + s.conf_win_right_offset) < s.pic_width_in_luma_samples := by
    have := c.pic_width_in_luma_samples
    have h1 := c.conf_win_left_offset
    have h2 := c.conf_win_right_offset
    by_cases hf : (noVui s).conformance_window_flag ≠ 0
    · exact h1.present hf
    · have a : s.conf_win_left_offset = 0 := h1.absent hf
      have b : s.conf_win_right_offset = 0 := h2.absent hf
      rw [a, b]; exact this.1
  have w2 : Std.subHeightC s * (s.conf_win_top_offset + s.conf_win_bottom_offset) < s.pic_height_in_luma_samples := by
    have := c.pic_height_in_luma_samples
    have h1 := c.conf_win_top_offset
    have h2 := c.conf_win_bottom_offset
    by_cases hf : (noVui s).conformance_window_flag ≠ 0
    · exact h1.present hf
    · have a : s.conf_win_top_offset = 0 := h1.absent hf
      have b : s.conf_win_bottom_offset = 0 := h2.absent hf
      rw [a, b]; exact this.1
  have f1 : v.body.pic_width_in_luma_samples = s.pic_width_in_luma_samples := (congrArg SpsBody.pic_width_in_luma_samples e :)
  have f2 : v.body.pic_height_in_luma_samples = s.pic_height_in_luma_samples := (congrArg SpsBody.pic_height_in_luma_samples e :)
  have f3 : v.body.log2_min_luma_coding_block_size_minus3 = s.log2_min_luma_coding_block_size_minus3 := (congrArg SpsBody.log2_min_luma_coding_block_size_minus3 e :)
  have f4 : v.body.log2_diff_max_min_luma_coding_block_size = s.log2_diff_max_min_luma_coding_block_size := (congrArg SpsBody.log2_diff_max_min_luma_coding_block_size e :)
  have fc : v.body.getCtbSizeY = ctbSizeY s := by rw [r2.1, f3, f4]; rfl
  have hpos : 0 < ctbSizeY s := Nat.pow_pos (by omega)
  have fw : v.body.getPicWidthInCtbsY = picWidthInCtbsY s := by
    unfold SpsBody.getPicWidthInCtbsY picWidthInCtbsY
    rw [fc, f1, ceilDiv_eq _ hpos]
  have fh : v.body.getPicHeightInCtbsY = picHeightInCtbsY s := by
    unfold SpsBody.getPicHeightInCtbsY picHeightInCtbsY
    rw [fc, f2, ceilDiv_eq _ hpos]
  refine ⟨⟨?_, Nat.sub_pos_of_lt w1, Nat.sub_pos_of_lt w2⟩, ⟨fc, fw, fh, ?_⟩, ⟨?_, ?_, r3.2.2.2⟩, ?_⟩
  · show (noVui v.body).getResolution = _
    rw [q1, e]
    have k1 : Spec.subWidthC (noVui s).chroma_format_idc = (Std.subWidthC s : Int) := by
      unfold Spec.subWidthC Std.subWidthC
      show (if s.chroma_format_idc = 1 ∨ s.chroma_format_idc = 2 then (2 : Int) else 1) = _
      split <;> rfl
    have k2 : Spec.subHeightC (noVui s).chroma_format_idc = (Std.subHeightC s : Int) := by
      unfold Spec.subHeightC Std.subHeightC
      show (if s.chroma_format_idc = 1 then (2 : Int) else 1) = _
      split <;> rfl
    rw [k1, k2]
    unfold croppedWidth croppedHeight
    rw [Int.ofNat_sub (Nat.le_of_lt w1), Int.ofNat_sub (Nat.le_of_lt w2)]
    simp only [Int.natCast_mul, Int.natCast_add]
    rfl
  · rw [r2.2.2.2.2.2.1, fw, fh]; rfl
  · rw [r3.2.1, f1, f3]
    exact Nat.div_mul_cancel (Nat.dvd_of_mod_eq_zero c.pic_width_multiple)
  · rw [r3.2.2.1, f2, f3]
    exact Nat.div_mul_cancel (Nat.dvd_of_mod_eq_zero c.pic_height_multiple)
  · rw [r2.2.2.2.2.2.2.2.2, f1, f2]

/-- C85: an SPS of which the values in front of the VUI parameters conform to the standard, with anything behind them: if an SPS is returned, its accessors give the
picture sizes that were sent, and the resolution is positive. -/
theorem C85_sps (bb bb' : BB) (ptl : StdPtl) (s : SpsBody) (rest : List Bool) (v : Sps) (hwf : bb.WF) (h : FrontSps ptl s) (hb : bb.rem = Std.spsFront ptl s ++ rest)
    (hr : parseSps.run bb = .ok v bb') : HasSizes v.body s := by
  have := C84_sps bb ptl s rest hwf h hb
  rw [hr] at this
  exact sizes_of_same hwf hr h this

/-- C85: the same for a NAL unit, in any parser state that can be reached: it is reported, without contents or with an SPS of these sizes. -/
theorem C85_nal_unit (cs : Bool) (st : ParserState) (nal : List UInt8) (ptl : StdPtl) (s : SpsBody) (hr : Reach st) (h : SpsNal nal ptl s)
    (hlen : nal.length < 2 ^ 32) :
    match parseNalUnit cs st nal with
    | .ok (n, _) _ => n.nal_unit_payload = {} ∨ ∃ v, n.nal_unit_payload = { sps := some v } ∧ HasSizes v.body s
    | .fail _ => False
    | .bad k => k = .signedOverflow := by
  obtain ⟨hf, hd, tail, rbsp, hv, ht, rfl, hb⟩ := h
  have hu := C10_unescape_escape rbsp
  have hl : rbsp.length < 2 ^ 32 := Nat.lt_of_le_of_lt (length_le_escape rbsp) hlen
  obtain ⟨b1, h1, h2, h3, h4⟩ := C19_header_inverts.complete (BB.init rbsp) hd _ (BB.WF.init _) hv (by rw [BB.rem_init]; exact hb)
  have hs := C84_sps b1 ptl s tail h2 hf h4
  cases hn : parseNalUnit cs st (escape rbsp) with
  | fail c =>
    have h5 := (C22_dropped_iff (cs := cs) (st := st) hu).1 ⟨c, hn⟩
    have h6 := congrArg List.length hb
    rw [bitsOf_length, List.length_append, nalUnitHeader_length] at h6
    omega
  | bad k => exact C44_nal_unit_safe hr hlen hn
  | ok x c =>
    rw [parseNalUnit_eq cs st (escape rbsp) rbsp hu hl] at hn
    unfold parseNalUnitParts at hn
    rw [Prog.run_seq, h1] at hn
    simp only [Res.andThen] at hn
    rw [Prog.run_seq] at hn
    cases hp : (parseNalUnitPayload hd.nal_unit_type st).run b1 with
    | bad k => rw [hp] at hn; cases hn
    | fail b2 => rw [hp] at hn; cases hn
    | ok x b2 =>
      obtain ⟨p, st2⟩ := x
      rw [hp] at hn
      cases hn
      have hpc := payload_cases hp
      clear hp
      dsimp only
      cases hpc with
      | sps o _ ho =>
        cases o with
        | none => exact .inl rfl
        | some v =>
          simp only [Returned] at ho
          rw [ho] at hs
          exact .inr ⟨v, rfl, sizes_of_same h2 ho hf hs⟩
      | slice o hx _ => exact absurd hx (by rw [ht]; decide)
      | vps o hx _ => exact absurd hx (by rw [ht]; decide)
      | pps o hx _ => exact absurd hx (by rw [ht]; decide)
      | aud o hx _ => exact absurd hx (by rw [ht]; decide)
      | sei o hx _ => exact absurd hx (by rw [ht]; decide)
      | other _ hx _ => exact absurd hx (by rw [ht]; decide)

theorem sizes_all {cs : Bool} : ∀ (places : List (Nat × Nat × List UInt8)) {st st' : ParserState} {ns : List NalUnit}, Reach st →
    (∀ x ∈ places, x.2.2.length < 2 ^ 32) → parseAll cs places st = .ok (ns, st') →
    (∀ n ∈ ns, ∃ nal, (n.offset, n.length, nal) ∈ places ∧ ∀ ptl s, SpsNal nal ptl s →
      n.nal_unit_payload = {} ∨ ∃ v, n.nal_unit_payload = { sps := some v } ∧ HasSizes v.body s) ∧
    (∀ off len nal ptl s, (off, len, nal) ∈ places → SpsNal nal ptl s → ∃ n ∈ ns, n.offset = off ∧ n.length = len)
  | [], st, st', ns, hr, hl, h => by
    cases h
    exact ⟨fun n hn => by simp at hn, fun _ _ _ _ _ hm => by simp at hm⟩
  | (off, len, nal) :: places, st, st', ns, hr, hl, h => by
    have hnal : nal.length < 2 ^ 32 := hl (off, len, nal) (by simp)
    cases hn : parseNalUnit cs st nal with
    | bad k => simp only [parseAll, hn] at h; cases h
    | fail c =>
      simp only [parseAll, hn] at h
      obtain ⟨a, b⟩ := sizes_all places hr (fun x hx => hl x (by simp [hx])) h
      refine ⟨fun n hm => ?_, fun o ln nl ptl s hm hs => ?_⟩
      · obtain ⟨w, q1, q2⟩ := a n hm
        exact ⟨w, by simp [q1], q2⟩
      · simp only [List.mem_cons] at hm
        rcases hm with hm | hm
        · cases hm
          have := C85_nal_unit cs st nal ptl s hr hs hnal
          rw [hn] at this
          exact this.elim
        · exact b o ln nl ptl s hm hs
    | ok y c =>
      obtain ⟨n0, st1⟩ := y
      simp only [parseAll, hn] at h
      cases hrest : parseAll cs places st1 with
      | error k => rw [hrest] at h; cases h
      | ok y =>
        obtain ⟨ns1, st2⟩ := y
        rw [hrest] at h
        cases h
        obtain ⟨a, b⟩ := sizes_all places (hr.step (parseNalUnit_steps hn)) (fun x hx => hl x (by simp [hx])) hrest
        refine ⟨fun n hm => ?_, fun o ln nl ptl s hm hs => ?_⟩
        · simp only [List.mem_cons] at hm
          rcases hm with rfl | hm
          · refine ⟨nal, by simp, fun ptl s hs => ?_⟩
            have := C85_nal_unit cs st nal ptl s hr hs hnal
            rw [hn] at this
            exact this
          · obtain ⟨w, q1, q2⟩ := a n hm
            exact ⟨w, by simp [q1], q2⟩
        · simp only [List.mem_cons] at hm
          rcases hm with hm | hm
          · cases hm
            exact ⟨{ n0 with offset := off, length := len }, List.mem_cons_self, rfl, rfl⟩
          · obtain ⟨n, q1, q2⟩ := b o ln nl ptl s hm hs
            exact ⟨n, by simp [q1], q2⟩

/-- C85: in an Annex B byte stream of any NAL units: each NAL unit reported is one of the stream, and if that one carries an SPS with a conforming first part, it is reported without
contents or with an SPS of the sizes sent; and there is a report for each such NAL unit. -/
theorem C85_annexB (cs : Bool) (st st' : ParserState) (units : List (Bool × List UInt8)) (ns : List NalUnit) (hr : Reach st) (hu : ∀ x ∈ units, NalBytes x.2)
    (hlen : (annexB units).length < 2 ^ 32) (h : parseBitstream cs st (annexB units) = .ok (ns, st')) :
    (∀ n ∈ ns, ∃ nal, (n.offset, n.length, nal) ∈ nalPlaces 0 units ∧ ∀ ptl s, SpsNal nal ptl s →
      n.nal_unit_payload = {} ∨ ∃ v, n.nal_unit_payload = { sps := some v } ∧ HasSizes v.body s) ∧
    (∀ off len nal ptl s, (off, len, nal) ∈ nalPlaces 0 units → SpsNal nal ptl s → ∃ n ∈ ns, n.offset = off ∧ n.length = len) := by
  rw [C25_annexB cs st _ hu (by omega)] at h
  refine sizes_all _ hr (fun x hx => ?_) h
  have hm : x.2.2 ∈ (nalPlaces 0 units).map (·.2.2) := List.mem_map_of_mem hx
  rw [nalPlaces_nal] at hm
  obtain ⟨y, hy, he⟩ := List.mem_map.1 hm
  have := length_le_annexB _ _ hy
  rw [he] at this
  omega

/-! ### hypotheses met -/

/-- the SPS of the standard with VUI and HRD parameters of `exFront`; its sizes -/
example : ∃ nal, SpsNal nal exPtl exSpsHrd ∧ (croppedWidth exSpsHrd, croppedHeight exSpsHrd, picSizeInCtbsY exSpsHrd) = (1280, 720, 920) :=
  ⟨_, ⟨exSpsHrd_front, ⟨0, 33, 0, 1⟩, (exFront[1]'(by decide)).tail, (exFront[1]'(by decide)).rbsp, by constructor <;> decide, rfl, rfl, by decide +kernel⟩, by decide +kernel⟩

/-- a picture of which rows are cropped -/
example : (croppedWidth { exSps with pic_width_in_luma_samples := 1920, pic_height_in_luma_samples := 1088, conformance_window_flag := 1, conf_win_bottom_offset := 4 },
    croppedHeight { exSps with pic_width_in_luma_samples := 1920, pic_height_in_luma_samples := 1088, conformance_window_flag := 1, conf_win_bottom_offset := 4 }) = (1920, 1080) := by
  decide

end H265.Std
