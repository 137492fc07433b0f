/- C28, C30, C31: VPS, VUI and HRD parameters. -/
import Verif.Proof.Vps
import Verif.Proof.Vui
import Verif.Proof.RbspTail

namespace H265
open Spec

/-! ### C31 -/

/-- C31: hrd_parameters() is parsed losslessly, for every value of the two arguments; the list lengths are the announced
ones (`ValidHrdParameters.sub_layers`, `ValidHrdSubLayer.nal_hrd`). -/
theorem C31_hrd_inverts (common max_sub : Nat) :
    Inverts (parseHrdParameters common max_sub) (Spec.hrdParameters common) (ValidHrdParameters common max_sub) :=
  parseHrdParameters_codec.inverts

/-- C31: the same for sub_layer_hrd_parameters(), which has `cpb_cnt_minus1 + 1` entries. -/
theorem C31_sub_layer_hrd_inverts (n sub_pic : Nat) :
    Inverts (Prog.rep n (parseSubLayerHrdEntry sub_pic)) (list (Spec.subLayerHrdEntry sub_pic)) (Each n (ValidSubLayerHrdEntry sub_pic)) :=
  (rep_codec parseSubLayerHrdEntry_codec).inverts

/-- C31: list lengths match the sub-layer and CPB counts. -/
theorem C31_hrd_lengths {common max_sub : Nat} {bb bb' : BB} {s : HrdParameters} (h : bb.WF)
    (hr : (parseHrdParameters common max_sub).run bb = .ok s bb') :
    s.sub_layers.length = max_sub + 1 ∧
    ∀ x ∈ s.sub_layers, (∀ l, x.nal_hrd = some l → l.length = x.cpb_cnt_minus1 + 1) ∧
      (∀ l, x.vcl_hrd = some l → l.length = x.cpb_cnt_minus1 + 1) ∧
      (x.nal_hrd.isSome ↔ s.nal_hrd_parameters_present_flag = 1) ∧ (x.vcl_hrd.isSome ↔ s.vcl_hrd_parameters_present_flag = 1) := by
  obtain ⟨hv, _⟩ := (C31_hrd_inverts common max_sub).sound bb bb' s h hr
  have key : ∀ v : Nat, Opt (common ≠ 0) (v < 2 ^ 1) (v = 0) → v < 2 := by
    intro v hv
    by_cases hc : common ≠ 0
    · simpa using hv.present hc
    · have := hv.absent hc; omega
  have h1 := key _ hv.nal_hrd_parameters_present_flag
  have h2 := key _ hv.vcl_hrd_parameters_present_flag
  refine ⟨hv.sub_layers.length, fun x hx => ?_⟩
  have hx := hv.sub_layers.valid x hx
  refine ⟨fun l hl => (hx.nal_hrd.valid l hl).length, fun l hl => (hx.vcl_hrd.valid l hl).length, ?_, ?_⟩
  · rw [hx.nal_hrd.present]; omega
  · rw [hx.vcl_hrd.present]; omega

/-- One sub-layer as the standard (E.2.2, E.3.2) has it: when fixed_pic_rate_general_flag is 1,
fixed_pic_rate_within_cvs_flag is inferred to be 1. -/
structure StdHrdSubLayer (nal vcl sub_pic : Nat) (s : HrdSubLayer) : Prop where
  fixed_pic_rate_general_flag : s.fixed_pic_rate_general_flag < 2
  fixed_pic_rate_within_cvs_flag : Opt (s.fixed_pic_rate_general_flag = 0) (s.fixed_pic_rate_within_cvs_flag < 2) (s.fixed_pic_rate_within_cvs_flag = 1)
  elemental_duration_in_tc_minus1 : Opt (s.fixed_pic_rate_within_cvs_flag ≠ 0) (s.elemental_duration_in_tc_minus1 < 2 ^ 32 - 1) (s.elemental_duration_in_tc_minus1 = 0)
  low_delay_hrd_flag : Opt (s.fixed_pic_rate_within_cvs_flag = 0) (s.low_delay_hrd_flag < 2) (s.low_delay_hrd_flag = 0)
  cpb_cnt_minus1 : Opt (s.low_delay_hrd_flag = 0) (s.cpb_cnt_minus1 < 2 ^ 32 - 1) (s.cpb_cnt_minus1 = 0)
  nal_hrd : Maybe (nal ≠ 0) (Each (s.cpb_cnt_minus1 + 1) (ValidSubLayerHrdEntry sub_pic)) s.nal_hrd
  vcl_hrd : Maybe (vcl ≠ 0) (Each (s.cpb_cnt_minus1 + 1) (ValidSubLayerHrdEntry sub_pic)) s.vcl_hrd

/-- C31: a sub-layer as in the standard is parsed back, its bits consumed exactly, if and only if fixed_pic_rate_general_flag is 0: with the flag
equal to 1 the library never infers fixed_pic_rate_within_cvs_flag. -/
theorem C31_standard_sub_layer (nal vcl sub_pic : Nat) (s : HrdSubLayer) (hs : StdHrdSubLayer nal vcl sub_pic s)
    (bb : BB) (rest : List Bool) (hwf : bb.WF) (hr : bb.rem = Spec.hrdSubLayer sub_pic s ++ rest) :
    (∃ bb', (parseHrdSubLayer nal vcl sub_pic).run bb = .ok s bb' ∧ bb'.rem = rest) ↔ s.fixed_pic_rate_general_flag = 0 := by
  constructor
  · rintro ⟨bb', h, _⟩
    have hv := (parseHrdSubLayer_codec.inverts.sound bb bb' s hwf h).1
    have h1 := hs.fixed_pic_rate_within_cvs_flag.absent
    have h2 := hv.fixed_pic_rate_within_cvs_flag.absent
    omega
  intro h0
  have hv : ValidHrdSubLayer nal vcl sub_pic s :=
    { fixed_pic_rate_general_flag := hs.fixed_pic_rate_general_flag
      fixed_pic_rate_within_cvs_flag := ⟨hs.fixed_pic_rate_within_cvs_flag.present, fun h => absurd h0 h⟩
      elemental_duration_in_tc_minus1 := hs.elemental_duration_in_tc_minus1
      low_delay_hrd_flag := ⟨fun h => hs.low_delay_hrd_flag.present (by omega), fun h => hs.low_delay_hrd_flag.absent (by omega)⟩
      cpb_cnt_minus1 := hs.cpb_cnt_minus1
      nal_hrd := hs.nal_hrd
      vcl_hrd := hs.vcl_hrd }
  obtain ⟨bb', h1, _, _, h4⟩ := parseHrdSubLayer_codec.inverts.complete bb s rest hwf hv hr
  exact ⟨bb', h1, h4⟩

/-- C31: with fixed_pic_rate_general_flag = 1 the library mis-parses what the standard prescribes: the sub-layer
`1, elemental_duration 0, cpb_cnt 0` is read as `low_delay_hrd_flag = 1`, and one bit is left over. -/
theorem C31_fixed_pic_rate_counterexample :
    StdHrdSubLayer 0 0 0 ⟨1, 1, 0, 0, 0, none, none⟩ ∧
    (parseHrdSubLayer 0 0 0).denote (Spec.hrdSubLayer 0 ⟨1, 1, 0, 0, 0, none, none⟩) = .ok ⟨1, 0, 0, 1, 0, none, none⟩ [true] := by
  refine ⟨⟨by decide, ⟨by decide, by decide⟩, ⟨by decide, by decide⟩, ⟨by decide, by decide⟩, ⟨by decide, by decide⟩,
    ⟨by decide, by rintro x ⟨⟩⟩, ⟨by decide, by rintro x ⟨⟩⟩⟩, by decide +kernel⟩

/-- hypotheses met: the HRD of the unit test -/
example : ((parseHrdParameters 1 0).parseEscaped [0x80, 0x17, 0x79, 0x44, 0x00, 0x05, 0xb8, 0xd8, 0x00, 0x07, 0xa1, 0x20, 0x40, 0x00]).val?
    = some ⟨1, 0, 0, 0, 0, 0, 0, 0, 0, 0, 23, 15, 5, [⟨0, 0, 0, 0, 0, some [⟨46874, 124999, 0, 0, 0⟩], none⟩]⟩ := by decide +kernel

/-! ### C30 -/

/-- C30: vui_parameters() is parsed losslessly. -/
theorem C30_vui_inverts (max_sub : Nat) :
    Inverts (parseVuiParameters max_sub) Spec.vuiParameters (ValidVuiParameters max_sub) :=
  parseVuiParameters_codec.inverts

/-- hypotheses met: test/h265_vui_parameters_parser_unittest.cc:22-34 -/
example : ((parseVuiParameters 0).parseEscaped [0x2b, 0x05, 0x06, 0x06, 0x02, 0xed, 0x0a, 0x12]).val? = some
    { (default : VuiParameters) with
      video_signal_type_present_flag := 1, video_format := 2, video_full_range_flag := 1, colour_description_present_flag := 1,
      colour_primaries := 5, transfer_characteristics := 6, matrix_coeffs := 6, bitstream_restriction_flag := 1,
      motion_vectors_over_pic_boundaries_flag := 1, restricted_ref_pic_lists_flag := 1, max_bytes_per_pic_denom := 2,
      max_bits_per_min_cu_denom := 1, log2_max_mv_length_horizontal := 9, log2_max_mv_length_vertical := 8 } := by decide +kernel

/-! ### C28 -/

/-- C28: the VPS parser inverts the syntax of the VPS; it never reaches undefined behaviour. -/
theorem C28_vps_inverts : InvertsRbsp Cond.any (fun _ => False) parseVps Spec.vpsBody ValidVpsBody
    (·.vps_extension_flag) (·.body) (·.vps_extension_data_flag) :=
  parseVpsBody_codec.invertsRbsp (f := fun b x => ⟨b, x⟩) rfl (fun _ _ => rfl) (fun _ _ => rfl)

/-- C28: from the VPS to its NAL unit payload bytes and back. -/
theorem C28_vps_roundtrip_bytes (b : VpsBody) (k : Nat) (rbsp : List UInt8) (hv : ValidVpsBody b) (hk : k ≤ 7)
    (he : b.vps_extension_flag = 0) (hlen : rbsp.length < 2 ^ 32)
    (hr : bitsOf rbsp = Spec.vpsBody b ++ true :: List.replicate k false) :
    ∃ bb', parseVps.parseEscaped (escape rbsp) = .ok ⟨b, 0⟩ bb' ∧ bb'.rem = [] := by
  obtain ⟨a, bb', h1, rfl, h3, h4⟩ := C28_vps_inverts.escaped b [] k rbsp hv hk (fun _ => rfl) hlen (by simpa using hr)
  exact ⟨bb', by rw [h1]; simp only [List.getLast?_nil, Option.map_none, Option.getD_none] at h3; rw [← h3], h4⟩

/-- C28: limits and list lengths of an accepted VPS. -/
theorem C28_vps_limits {bb bb' : BB} {s : Vps} (h : bb.WF) (hr : parseVps.run bb = .ok s bb') :
    s.body.vps_video_parameter_set_id ≤ 15 ∧ s.body.vps_max_sub_layers_minus1 ≤ 7 ∧
    s.body.vps_max_layer_id ≤ 62 ∧ s.body.vps_num_layer_sets_minus1 + 1 ≤ 1024 ∧
    s.body.vps_num_hrd_parameters ≤ s.body.vps_num_layer_sets_minus1 + 1 ∧
    s.body.hrds.length = s.body.vps_num_hrd_parameters ∧
    s.body.sub_layer_ordering.length = (if s.body.vps_sub_layer_ordering_info_present_flag = 1 then s.body.vps_max_sub_layers_minus1 + 1 else 1) ∧
    s.body.layer_id_included_flag.length = s.body.vps_num_layer_sets_minus1 ∧
    (∀ l ∈ s.body.layer_id_included_flag, l.length = s.body.vps_max_layer_id + 1 ∧ ∀ f ∈ l, f ≤ 1) := by
  obtain ⟨hv, _⟩ := C28_vps_inverts.sound bb bb' s h hr
  have h1 := hv.vps_video_parameter_set_id
  have h2 := hv.vps_max_sub_layers_minus1
  have h3 := hv.vps_num_layer_sets_minus1
  refine ⟨by omega, by omega, hv.vps_max_layer_id_le, by omega, ?_, hv.hrds.length, ?_, hv.layer_id_included_flag.length, ?_⟩
  · by_cases ht : s.body.vps_timing_info_present_flag ≠ 0
    · exact (hv.vps_num_hrd_parameters.present ht).2
    · have := hv.vps_num_hrd_parameters.absent ht; omega
  · rw [hv.sub_layer_ordering.length]
    have := hv.vps_sub_layer_ordering_info_present_flag
    by_cases ho : s.body.vps_sub_layer_ordering_info_present_flag = 0
    · rw [if_neg (by omega), if_neg (by omega)]
    · rw [if_pos (by omega), if_pos (by omega)]
  · intro l hl
    have := hv.layer_id_included_flag.valid l hl
    refine ⟨this.length, fun f hf => ?_⟩
    have := this.valid f hf
    omega

/-- C28, deviation: the standard infers cprms_present_flag[0] = 1, so that the first hrd_parameters() of a VPS starts with the
common information; the library reads it without.  Here a first entry with nal_hrd = vcl_hrd = 0 and one sub-layer
`0 1 elemental_duration 0, cpb_cnt 0` (standard encoding `ue 0, 0 0, 0 1 1 1`) is read as something else. -/
theorem C28_cprms_counterexample :
    (parseVpsHrd 0 0).denote (ue 0 ++ Spec.hrdParameters 1 ⟨0, 0, 0, 0, 0, 0, 0, 0, 0, 0, 0, 0, 0, [⟨0, 1, 0, 0, 0, none, none⟩]⟩)
      = .ok ⟨0, 0, ⟨0, 0, 0, 0, 0, 0, 0, 0, 0, 0, 0, 0, 0, [⟨0, 0, 0, 0, 0, none, none⟩]⟩⟩ [true, true] := by decide +kernel

/-- C28, deviation: cprms_present_flag is read as ue(v).  An entry with the standard's one-bit flag 0 followed by
hrd_parameters() without common information is not read back. -/
theorem C28_cprms_ue_counterexample :
    (parseVpsHrd 1 0).denote (ue 0 ++ (u 1 0 ++ Spec.hrdParameters 0 ⟨0, 0, 0, 0, 0, 0, 0, 0, 0, 0, 0, 0, 0, [⟨0, 1, 0, 0, 0, none, none⟩]⟩))
      = .fail [] := by decide +kernel

/-- C28, deviation: the object keeps the hrd_parameters() of the last entry only; two different VPSs can give objects that
show the same. -/
theorem C28_only_last_hrd_kept (a b c : VpsHrd) (s : VpsBody) (hi : a.hrd_layer_set_idx = b.hrd_layer_set_idx)
    (hc : a.cprms_present_flag = b.cprms_present_flag) :
    ({ s with hrds := [a, c] } : VpsBody).hrd_parameters = ({ s with hrds := [b, c] } : VpsBody).hrd_parameters ∧
    ({ s with hrds := [a, c] } : VpsBody).hrds.map (fun h => (h.hrd_layer_set_idx, h.cprms_present_flag))
      = ({ s with hrds := [b, c] } : VpsBody).hrds.map (fun h => (h.hrd_layer_set_idx, h.cprms_present_flag)) := by
  simp [VpsBody.hrd_parameters, hi, hc]

/-- hypotheses met: the VPS of the unit test (test/h265_vps_parser_unittest.cc:22-98) -/
example : (parseVps.parseEscaped [0x0c, 0x01, 0xff, 0xff, 0x01, 0x60, 0x00, 0x00, 0x03, 0x00, 0xb0, 0x00, 0x00, 0x03, 0x00, 0x00,
    0x03, 0x00, 0x5d, 0xac, 0x59, 0x00]).val? = some ⟨⟨0, 1, 1, 0, 0, 1, 0xffff,
      ⟨some ⟨0, 0, 1, [0, 1, 1] ++ List.replicate 29 0, 1, 0, 1, 1, ⟨0, 0, 0, 0, 0, 0, 0, 0, 0, 0, 0, 0, 0, 0, 0⟩, .MAIN, 0, 0⟩, 93, [], [], []⟩,
      1, [⟨1, 0, 0⟩], 5, 0, [], 0, 0, 0, 0, 0, 0, [], 0⟩, 0⟩ := by decide +kernel

end H265
