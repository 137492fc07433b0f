/- C26, C27, C42: sequence parameter sets. -/
import Verif.Proof.Sps
import Verif.Proof.RbspTail
import Verif.Model.SpsDerived

namespace H265
open Spec

/-! ### C27 -/

/-- C27: the SPS parser inverts the syntax of the SPS (all elements, including VUI, HRD, scaling lists, reference picture sets
and extensions); the only undefined behaviour is signed overflow (in an se(v) code word, a scaling list coefficient or the
derivation of a reference picture set). -/
theorem C27_sps_inverts : InvertsRbsp Cond.canon (fun k => k = .signedOverflow) parseSps Spec.spsBody ValidSpsBody
    (·.sps_extension_4bits) (·.body) (·.sps_extension_data_flag) :=
  parseSpsBody_codec.invertsRbsp (f := fun b x => ⟨b, x⟩) rfl (fun _ _ => rfl) (fun _ _ => rfl)

/-- C27: from the SPS to its NAL unit payload bytes and back. -/
theorem C27_sps_roundtrip_bytes (b : SpsBody) (k : Nat) (rbsp : List UInt8) (hv : ValidSpsBody b) (hk : k ≤ 7)
    (he : b.sps_extension_4bits = 0) (hlen : rbsp.length < 2 ^ 32)
    (hr : bitsOf rbsp = Spec.spsBody b ++ true :: List.replicate k false) :
    ∃ bb', parseSps.parseEscaped (escape rbsp) = .ok ⟨b, 0⟩ bb' ∧ bb'.rem = [] := by
  obtain ⟨a, bb', h1, rfl, h3, h4⟩ := C27_sps_inverts.escaped b [] k rbsp hv hk (fun _ => rfl) hlen (by simpa using hr)
  exact ⟨bb', by rw [h1]; simp only [List.getLast?_nil, Option.map_none, Option.getD_none] at h3; rw [← h3], h4⟩

/-- C27: no two valid SPSs share an encoding, even as prefixes of longer inputs. -/
theorem C27_sps_prefix_free {a b : SpsBody} {r t : List Bool} (ha : ValidSpsBody a) (hb : ValidSpsBody b)
    (he : Spec.spsBody a ++ r = Spec.spsBody b ++ t) : a = b ∧ r = t :=
  (parseSpsBody_codec (H := Cond.canon) (A := fun k => k = .signedOverflow)).prefix_free ha hb he

/-! ### C26 -/

/-- C26: limits and list lengths of every SPS the parser returns. -/
theorem C26_sps_limits {bb bb' : BB} {s : Sps} (h : bb.WF) (hr : parseSps.run bb = .ok s bb') :
    s.body.sps_video_parameter_set_id ≤ 15 ∧ s.body.sps_max_sub_layers_minus1 ≤ 7 ∧
    s.body.sps_seq_parameter_set_id ≤ 15 ∧ s.body.chroma_format_idc ≤ 3 ∧
    1 ≤ s.body.pic_width_in_luma_samples ∧ s.body.pic_width_in_luma_samples ≤ 16888 ∧ 8 ∣ s.body.pic_width_in_luma_samples ∧
    1 ≤ s.body.pic_height_in_luma_samples ∧ s.body.pic_height_in_luma_samples ≤ 16888 ∧ 8 ∣ s.body.pic_height_in_luma_samples ∧
    s.body.conf_win_left_offset ≤ s.body.pic_width_in_luma_samples ∧ s.body.conf_win_right_offset ≤ s.body.pic_width_in_luma_samples ∧
    s.body.conf_win_top_offset ≤ s.body.pic_height_in_luma_samples ∧ s.body.conf_win_bottom_offset ≤ s.body.pic_height_in_luma_samples ∧
    s.body.bit_depth_luma_minus8 + 8 ≤ 16 ∧ s.body.bit_depth_chroma_minus8 + 8 ≤ 16 ∧
    s.body.log2_max_pic_order_cnt_lsb_minus4 + 4 ≤ 16 ∧
    s.body.sub_layer_ordering.length = (if s.body.sps_sub_layer_ordering_info_present_flag = 1 then s.body.sps_max_sub_layers_minus1 + 1 else 1) ∧
    (∀ o ∈ s.body.sub_layer_ordering, o.sps_max_dec_pic_buffering_minus1 < 16) ∧
    s.body.log2_min_luma_coding_block_size_minus3 ≤ 3 ∧ s.body.log2_diff_max_min_luma_coding_block_size ≤ 3 ∧
    s.body.num_short_term_ref_pic_sets ≤ 64 ∧ s.body.st_ref_pic_set.length = s.body.num_short_term_ref_pic_sets ∧
    s.body.num_long_term_ref_pics_sps ≤ 32 ∧ s.body.lt_ref_pics.length = s.body.num_long_term_ref_pics_sps ∧
    (∀ p ∈ s.body.lt_ref_pics, p.lt_ref_pic_poc_lsb_sps < 2 ^ (s.body.log2_max_pic_order_cnt_lsb_minus4 + 4)) ∧
    (s.body.scaling_list_data.isSome ↔ s.body.sps_scaling_list_data_present_flag = 1) ∧
    (s.body.vui_parameters.isSome ↔ s.body.vui_parameters_present_flag = 1) ∧
    (s.body.sps_range_extension.isSome ↔ s.body.sps_range_extension_flag = 1) ∧
    (s.body.sps_multilayer_extension.isSome ↔ s.body.sps_multilayer_extension_flag = 1) ∧
    (s.body.sps_3d_extension.isSome ↔ s.body.sps_3d_extension_flag = 1) ∧
    (s.body.sps_scc_extension.isSome ↔ s.body.sps_scc_extension_flag = 1) := by
  obtain ⟨hv, _⟩ := C27_sps_inverts.sound bb bb' s h hr
  have optle : ∀ {c : Prop} {v b : Nat}, Opt c (0 ≤ v ∧ v ≤ b) (v = 0) → v ≤ b := by
    intro c v b ho
    by_cases hc : c
    · exact (ho.present hc).2
    · have := ho.absent hc; omega
  have optflag : ∀ {c : Prop} {v : Nat}, Opt c (v < 2 ^ 1) (v = 0) → v < 2 := by
    intro c v ho
    by_cases hc : c
    · exact ho.present hc
    · have := ho.absent hc; omega
  have h1 := hv.sps_video_parameter_set_id
  have h2 := hv.sps_max_sub_layers_minus1
  have h3 := hv.bit_depth_luma_minus8
  have h4 := hv.bit_depth_chroma_minus8
  have h5 := hv.log2_max_pic_order_cnt_lsb_minus4
  refine ⟨by omega, by omega, hv.sps_seq_parameter_set_id.2, hv.chroma_format_idc.2, hv.pic_width_in_luma_samples.1,
    hv.pic_width_in_luma_samples.2, ⟨_, hv.pic_width_multiple.symm⟩, hv.pic_height_in_luma_samples.1, hv.pic_height_in_luma_samples.2,
    ⟨_, hv.pic_height_multiple.symm⟩, optle hv.conf_win_left_offset, optle hv.conf_win_right_offset, optle hv.conf_win_top_offset,
    optle hv.conf_win_bottom_offset, by omega, by omega, by omega, ?_, fun o ho => by have := (hv.sub_layer_ordering.valid o ho).sps_max_dec_pic_buffering_minus1; omega,
    hv.log2_min_luma_coding_block_size_minus3.2, hv.log2_diff_max_min_luma_coding_block_size.2, hv.num_short_term_ref_pic_sets.2,
    hv.st_ref_pic_set.length, optle hv.num_long_term_ref_pics_sps, hv.lt_ref_pics.length,
    fun p hp => (hv.lt_ref_pics.valid p hp).lt_ref_pic_poc_lsb_sps, ?_, ?_, ?_, ?_, ?_, ?_⟩
  · rw [hv.sub_layer_ordering.length]
    have := hv.sps_sub_layer_ordering_info_present_flag
    by_cases ho : s.body.sps_sub_layer_ordering_info_present_flag = 0
    · rw [if_neg (by omega), if_neg (by omega)]
    · rw [if_pos (by omega), if_pos (by omega)]
  · rw [hv.scaling_list_data.present]; have := optflag hv.sps_scaling_list_data_present_flag; omega
  · rw [hv.vui_parameters.present]; have := hv.vui_parameters_present_flag; omega
  · rw [hv.sps_range_extension.present]; have := optflag hv.sps_range_extension_flag; omega
  · rw [hv.sps_multilayer_extension.present]; have := optflag hv.sps_multilayer_extension_flag; omega
  · rw [hv.sps_3d_extension.present]; have := optflag hv.sps_3d_extension_flag; omega
  · rw [hv.sps_scc_extension.present]; have := optflag hv.sps_scc_extension_flag; omega

/-- The SPS of the unit test, test/h265_sps_parser_unittest.cc:21-31 (1280x736 camera capture) -/
def testSps : List UInt8 := [0x01, 0x01, 0x60, 0x00, 0x00, 0x03, 0x00, 0xb0, 0x00, 0x00, 0x03, 0x00, 0x00, 0x03, 0x00, 0x5d,
  0xa0, 0x02, 0x80, 0x80, 0x2e, 0x1f, 0x13, 0x96, 0xbb, 0x93, 0x24, 0xbb, 0x95, 0x82, 0x83, 0x03, 0x01, 0x76, 0x85, 0x09, 0x40]

/-- hypotheses met: the values expected by the unit test -/
example : ((parseSps.parseEscaped testSps).val?.map fun s =>
    [s.body.pic_width_in_luma_samples, s.body.pic_height_in_luma_samples, s.body.conf_win_bottom_offset, s.body.log2_max_pic_order_cnt_lsb_minus4,
      s.body.log2_diff_max_min_luma_coding_block_size, s.body.sample_adaptive_offset_enabled_flag, s.body.num_short_term_ref_pic_sets,
      s.body.sps_temporal_mvp_enabled_flag, s.body.strong_intra_smoothing_enabled_flag, s.body.vui_parameters_present_flag]) =
    some [1280, 736, 8, 4, 2, 1, 1, 1, 1, 1] := by decide +kernel

/-! ### C42 -/

theorem subC_eq {s : SpsBody} (hv : ValidSpsBody s) :
    s.getSubWidthC = Spec.subWidthC s.chroma_format_idc ∧ s.getSubHeightC = Spec.subHeightC s.chroma_format_idc := by
  have hc := hv.chroma_format_idc.2
  have hs : s.separate_colour_plane_flag = 0 ∨ (s.chroma_format_idc = 3 ∧ s.separate_colour_plane_flag = 1) := by
    by_cases h3 : s.chroma_format_idc = 3
    · have := hv.separate_colour_plane_flag.present h3; omega
    · exact Or.inl (hv.separate_colour_plane_flag.absent h3)
  unfold SpsBody.getSubWidthC SpsBody.getSubHeightC Spec.subWidthC Spec.subHeightC
  rcases hs with h | ⟨h, h'⟩
  · rcases (by omega : s.chroma_format_idc = 0 ∨ s.chroma_format_idc = 1 ∨ s.chroma_format_idc = 2 ∨ s.chroma_format_idc = 3) with hc | hc | hc | hc <;>
      simp [h, hc]
  · simp [h, h']

/-- C42: `getResolution` of an accepted SPS is the coded size minus the conformance window in luma samples (eqs. in 7.4.3.2.1); no
overflow occurs. -/
theorem C42_resolution {bb bb' : BB} {s : Sps} (h : bb.WF) (hr : parseSps.run bb = .ok s bb') :
    s.body.getResolution = .ok
      (s.body.pic_width_in_luma_samples - Spec.subWidthC s.body.chroma_format_idc * (s.body.conf_win_left_offset + s.body.conf_win_right_offset),
       s.body.pic_height_in_luma_samples - Spec.subHeightC s.body.chroma_format_idc * (s.body.conf_win_top_offset + s.body.conf_win_bottom_offset)) := by
  obtain ⟨hv, _⟩ := C27_sps_inverts.sound bb bb' s h hr
  obtain ⟨_, _, _, _, _, hw, _, _, hh, _, hl, hri, ht, hb, _⟩ := C26_sps_limits h hr
  obtain ⟨e1, e2⟩ := subC_eq hv
  have hsw : Spec.subWidthC s.body.chroma_format_idc = 1 ∨ Spec.subWidthC s.body.chroma_format_idc = 2 := by
    unfold Spec.subWidthC; split <;> simp
  have hsh : Spec.subHeightC s.body.chroma_format_idc = 1 ∨ Spec.subHeightC s.body.chroma_format_idc = 2 := by
    unfold Spec.subHeightC; split <;> simp
  unfold SpsBody.getResolution
  rw [e1, e2]
  have aux : ∀ (f W a b : Int), (f = 1 ∨ f = 2) → 0 ≤ W → W ≤ 16888 → 0 ≤ a → a ≤ 16888 → 0 ≤ b → b ≤ 16888 →
      mulInt f a = .ok (f * a) ∧ mulInt f b = .ok (f * b) ∧ addInt (f * a) (f * b) = .ok (f * a + f * b) ∧
      addInt W (-(f * a + f * b)) = .ok (W - f * (a + b)) := by
    intro f W a b hf h1 h2 h3 h4 h5 h6
    unfold mulInt addInt
    rcases hf with rfl | rfl
    · refine ⟨if_pos ⟨by omega, by omega⟩, if_pos ⟨by omega, by omega⟩, if_pos ⟨by omega, by omega⟩, ?_⟩
      rw [if_pos ⟨by omega, by omega⟩]; congr 1; omega
    · refine ⟨if_pos ⟨by omega, by omega⟩, if_pos ⟨by omega, by omega⟩, if_pos ⟨by omega, by omega⟩, ?_⟩
      rw [if_pos ⟨by omega, by omega⟩]; congr 1; omega
  obtain ⟨a1, a2, a3, a4⟩ := aux _ s.body.pic_width_in_luma_samples s.body.conf_win_left_offset s.body.conf_win_right_offset hsw
    (by omega) (by omega) (by omega) (by omega) (by omega) (by omega)
  obtain ⟨b1, b2, b3, b4⟩ := aux _ s.body.pic_height_in_luma_samples s.body.conf_win_top_offset s.body.conf_win_bottom_offset hsh
    (by omega) (by omega) (by omega) (by omega) (by omega) (by omega)
  simp only [bind, Except.bind, a1, a2, a3, a4, b1, b2, b3, b4, pure, Except.pure]

theorem ceilDiv_spec (a b : Nat) (hb : 0 < b) : a ≤ ceilDiv a b * b ∧ ceilDiv a b * b < a + b := by
  unfold ceilDiv
  have h1 := Nat.div_add_mod a b
  have h2 := Nat.mod_lt a hb
  by_cases h0 : a % b = 0
  · rw [if_pos h0, Nat.add_zero, Nat.mul_comm]; omega
  · rw [if_neg h0, Nat.add_mul, Nat.one_mul, Nat.mul_comm (a / b) b]; omega

/-- C42: the picture size in coding tree blocks of an accepted SPS.  The CTB size is 2^k with 3 ≤ k ≤ 9; the width and height in CTBs
are the smallest numbers of CTBs covering the picture; the product does not wrap and is positive. -/
theorem C42_pic_size_in_ctbs {bb bb' : BB} {s : Sps} (h : bb.WF) (hr : parseSps.run bb = .ok s bb') :
    s.body.getCtbSizeY = 2 ^ (s.body.log2_min_luma_coding_block_size_minus3 + 3 + s.body.log2_diff_max_min_luma_coding_block_size) ∧
    s.body.pic_width_in_luma_samples ≤ s.body.getPicWidthInCtbsY * s.body.getCtbSizeY ∧
    s.body.getPicWidthInCtbsY * s.body.getCtbSizeY < s.body.pic_width_in_luma_samples + s.body.getCtbSizeY ∧
    s.body.pic_height_in_luma_samples ≤ s.body.getPicHeightInCtbsY * s.body.getCtbSizeY ∧
    s.body.getPicHeightInCtbsY * s.body.getCtbSizeY < s.body.pic_height_in_luma_samples + s.body.getCtbSizeY ∧
    s.body.getPicSizeInCtbsY = s.body.getPicWidthInCtbsY * s.body.getPicHeightInCtbsY ∧
    1 ≤ s.body.getPicSizeInCtbsY ∧ s.body.getPicSizeInCtbsY ≤ 2111 * 2111 ∧
    s.body.getPicSizeInSamplesY = s.body.pic_width_in_luma_samples * s.body.pic_height_in_luma_samples := by
  obtain ⟨_, _, _, _, hw1, hw, _, hh1, hh, _, _, _, _, _, _, _, _, _, _, hm, hd, _⟩ := C26_sps_limits h hr
  have hctb : s.body.getCtbSizeY = 2 ^ (s.body.log2_min_luma_coding_block_size_minus3 + 3 + s.body.log2_diff_max_min_luma_coding_block_size) := by
    unfold SpsBody.getCtbSizeY SpsBody.getCtbLog2SizeY SpsBody.getMinCbLog2SizeY w32
    congr 1; omega
  have h8 : 8 ≤ s.body.getCtbSizeY := by
    rw [hctb, show (8 : Nat) = 2 ^ 3 from rfl]
    exact Nat.pow_le_pow_right (by omega) (by omega)
  obtain ⟨w1, w2⟩ := ceilDiv_spec s.body.pic_width_in_luma_samples s.body.getCtbSizeY (by omega)
  obtain ⟨h1, h2⟩ := ceilDiv_spec s.body.pic_height_in_luma_samples s.body.getCtbSizeY (by omega)
  have hle : ∀ a, 1 ≤ a → a ≤ 16888 → 1 ≤ ceilDiv a s.body.getCtbSizeY ∧ ceilDiv a s.body.getCtbSizeY ≤ 2111 := by
    intro a ha1 ha2
    obtain ⟨x1, x2⟩ := ceilDiv_spec a s.body.getCtbSizeY (by omega)
    constructor
    · rcases Nat.eq_zero_or_pos (ceilDiv a s.body.getCtbSizeY) with h0 | h0
      · rw [h0] at x1; omega
      · exact h0
    · unfold ceilDiv
      have : a / s.body.getCtbSizeY ≤ a / 8 := Nat.div_le_div_left h8 (by omega)
      by_cases h0 : a % s.body.getCtbSizeY = 0
      · rw [if_pos h0]; omega
      · rw [if_neg h0]
        by_cases h9 : a / s.body.getCtbSizeY ≤ 2110
        · omega
        · exfalso
          have hq : a / s.body.getCtbSizeY = 2111 := by omega
          have hdm := Nat.div_add_mod a s.body.getCtbSizeY
          rw [hq] at hdm
          omega
  have hW := hle _ hw1 hw
  have hH := hle _ hh1 hh
  have hmul : s.body.getPicWidthInCtbsY * s.body.getPicHeightInCtbsY ≤ 2111 * 2111 := Nat.mul_le_mul hW.2 hH.2
  have hmul1 : 1 * 1 ≤ s.body.getPicWidthInCtbsY * s.body.getPicHeightInCtbsY := Nat.mul_le_mul hW.1 hH.1
  have hps : s.body.getPicSizeInCtbsY = s.body.getPicWidthInCtbsY * s.body.getPicHeightInCtbsY := by
    unfold SpsBody.getPicSizeInCtbsY w32
    exact Nat.mod_eq_of_lt (by omega)
  have hsm : s.body.pic_width_in_luma_samples * s.body.pic_height_in_luma_samples ≤ 16888 * 16888 := Nat.mul_le_mul hw hh
  refine ⟨hctb, w1, w2, h1, h2, hps, by omega, by omega, ?_⟩
  unfold SpsBody.getPicSizeInSamplesY w32
  exact Nat.mod_eq_of_lt (by omega)

/-- C42: the picture size in minimum coding blocks of an accepted SPS: the block size is 2^k with 3 ≤ k ≤ 9, width and height are divided
by it (rounding down), and the product does not wrap. -/
theorem C42_pic_size_in_min_cbs {bb bb' : BB} {s : Sps} (h : bb.WF) (hr : parseSps.run bb = .ok s bb') :
    s.body.getMinCbSizeY = 2 ^ (s.body.log2_min_luma_coding_block_size_minus3 + 3) ∧
    s.body.getPicWidthInMinCbsY = s.body.pic_width_in_luma_samples / 2 ^ (s.body.log2_min_luma_coding_block_size_minus3 + 3) ∧
    s.body.getPicHeightInMinCbsY = s.body.pic_height_in_luma_samples / 2 ^ (s.body.log2_min_luma_coding_block_size_minus3 + 3) ∧
    s.body.getPicSizeInMinCbsY = s.body.getPicWidthInMinCbsY * s.body.getPicHeightInMinCbsY := by
  obtain ⟨_, _, _, _, hw1, hw, _, hh1, hh, _, _, _, _, _, _, _, _, _, _, hm, hd, _⟩ := C26_sps_limits h hr
  have hcb : s.body.getMinCbSizeY = 2 ^ (s.body.log2_min_luma_coding_block_size_minus3 + 3) := by
    unfold SpsBody.getMinCbSizeY SpsBody.getMinCbLog2SizeY w32
    congr 1; omega
  have h1 : s.body.getPicWidthInMinCbsY ≤ 16888 := Nat.le_trans (Nat.div_le_self _ _) hw
  have h2 : s.body.getPicHeightInMinCbsY ≤ 16888 := Nat.le_trans (Nat.div_le_self _ _) hh
  have hmul := Nat.mul_le_mul h1 h2
  refine ⟨hcb, ?_, ?_, ?_⟩
  · unfold SpsBody.getPicWidthInMinCbsY; rw [hcb]
  · unfold SpsBody.getPicHeightInMinCbsY; rw [hcb]
  · unfold SpsBody.getPicSizeInMinCbsY w32
    exact Nat.mod_eq_of_lt (by omega)

/-- C42, limit: the conformance window is only compared with the picture size, so that the reported resolution of an accepted SPS
need not be positive (here 8x8 minus a window of 2 * 8 and 2 * 16 samples). -/
theorem C42_nonpositive_resolution :
    ((parseSps.runBytes [0, 0, 0, 0, 0, 0, 0, 0, 0, 0, 0, 0, 0, 0xa1, 0x22, 0x62, 0x62, 0x44, 0xf7, 0xfc, 0x20, 0x80]).val?.map
      fun s => s.body.getResolution.toOption) = some (some (-8, -24)) := by decide +kernel

/-- hypotheses met: 1280x720, 40 * 23 CTBs of 32 samples -/
example : ((parseSps.parseEscaped testSps).val?.map fun s => (s.body.getResolution.toOption, s.body.getCtbSizeY, s.body.getPicSizeInCtbsY)) =
    some (some (1280, 720), 32, 40 * 23) := by decide +kernel

end H265
