/-
C56: what the project's own fuzz targets can run into, for every input below 4 GiB.
-/
import Verif.Model.Fuzz
import Verif.Props.EntryPoints

set_option autoImplicit false

namespace H265
open Spec

theorem Res.fault_some {α : Type} {r : Res α} {k : Bad} (h : r.fault = some k) : r = .bad k := by
  cases r <;> simp_all [Res.fault]

theorem Except.fault_some {α : Type} {r : Except Bad α} {k : Bad} (h : Except.fault r = some k) : r = .error k := by
  cases r <;> simp_all [Except.fault]

/-- undefined behaviour of a target is limited to `A` -/
def Spec.FaultsWithin (A : Bad → Prop) (target : List UInt8 → Option Bad) : Prop :=
  ∀ data k, data.length < 2 ^ 32 → target data = some k → A k

theorem Spec.FaultsWithin.res {α : Type} {A : Bad → Prop} {entry : List UInt8 → Res α}
    (h : ∀ (data : List UInt8) (k : Bad), data.length < 2 ^ 32 → entry data = .bad k → A k) : FaultsWithin A (fun d => (entry d).fault) :=
  fun data k hl hk => h data k hl (Res.fault_some hk)

theorem Spec.FaultsWithin.or {A : Bad → Prop} {s t : List UInt8 → Option Bad} (h1 : FaultsWithin A s) (h2 : FaultsWithin A t) :
    FaultsWithin A (fun d => (s d).or (t d)) := by
  intro data k hl hk
  simp only at hk
  cases hs : s data with
  | some k' => rw [hs] at hk; cases hk; exact h1 data _ hl hs
  | none => rw [hs] at hk; exact h2 data k hl hk

theorem empty_usable : UsableFor (fun k => k = .signedOverflow) .empty := Reach.empty.usable

theorem mockState_usable : UsableFor (fun k => k = .signedOverflow ∨ k = .floatCast) mockState := by
  refine ⟨.inl rfl, ?_, ?_⟩
  · intro i S hS
    simp only [mockState, mapSet] at hS
    split at hS
    · obtain rfl := Option.some.inj hS
      exact ⟨⟨by decide, by decide, by decide, by decide, by decide, (by intro r hr; cases hr), (by intro r hr; cases hr), (by intro r hr; cases hr)⟩, .inr (.inr rfl)⟩
    · cases hS
  · intro i P hP
    simp only [mockState, mapSet] at hP
    split at hP
    · obtain rfl := Option.some.inj hP
      intro h; exact absurd rfl h
    · cases hP

theorem stRefPicSet0_safe {num maxNum : Nat} (hm : maxNum < 2 ^ 32 - 1) {bb : BB} {k : Bad} (hw : bb.WF) (h : (parseStRefPicSet 0 num [] maxNum).run bb = .bad k) : False := by
  unfold parseStRefPicSet at h
  rw [Prog.run_seq] at h
  by_cases hc : num ≤ 64
  · rw [Prog.check, if_pos hc] at h
    exact (parseExplicitRps_codec (H := Cond.any) (A := fun _ => False) hm).inverts.safe _ _ hw h
  · rw [Prog.check, if_neg hc] at h; cases h

/-- C56: eleven targets never run into undefined behaviour. -/
theorem C56_clean : ∀ target ∈ [fuzzAud, fuzzHrdParameters, fuzzProfileTierLevel, fuzzSps3dExtension, fuzzSpsMultilayerExtension, fuzzSpsRangeExtension,
      fuzzSpsSccExtension, fuzzStRefPicSet, fuzzSubLayerHrdParameters, fuzzVps, fuzzVuiParameters],
    ∀ data : List UInt8, data.length < 2 ^ 32 → target data = none := by
  have key : ∀ target ∈ [fuzzAud, fuzzHrdParameters, fuzzProfileTierLevel, fuzzSps3dExtension, fuzzSpsMultilayerExtension, fuzzSpsRangeExtension,
      fuzzSpsSccExtension, fuzzStRefPicSet, fuzzSubLayerHrdParameters, fuzzVps, fuzzVuiParameters], FaultsWithin (fun _ => False) target := by
    intro target ht
    simp only [List.mem_cons, List.not_mem_nil, or_false] at ht
    rcases ht with rfl | rfl | rfl | rfl | rfl | rfl | rfl | rfl | rfl | rfl | rfl
    · intro data k hl hk
      obtain ⟨rbsp, hu, _⟩ := C11_unescape_bounds data
      have h := C55_aud hu hl
      have hk := Res.fault_some hk
      by_cases hd : data = []
      · obtain ⟨b, hb⟩ := h.2 hd; rw [hb] at hk; cases hk
      · obtain ⟨b, hb⟩ := h.1 hd; rw [hb] at hk; cases hk
    · exact .res (C55_hrd_parameters 1 0).safe
    · exact .or (.res (C55_profile_tier_level true 0).safe) (.res (C55_profile_tier_level true 0).safe)
    · exact .res C55_sps_3d_extension.safe
    · exact .res C55_sps_multilayer_extension.safe
    · exact .res C55_sps_range_extension.safe
    · exact .res (C55_sps_scc_extension 1 0 0 (by decide) (by decide)).safe
    · intro data k hl hk
      obtain ⟨rbsp, hu, _⟩ := C11_unescape_bounds data
      have hk := Res.fault_some hk
      unfold parseStRefPicSetBytes at hk
      rw [C55_entry _ hu hl] at hk
      exact stRefPicSet0_safe (by decide) (BB.WF.init rbsp) hk
    · exact .res (C55_sub_layer_hrd_parameters 1 0).safe
    · exact .res C55_vps.safe
    · exact .or (.res (C55_vui_parameters 0).safe) (.or (.res (C55_vui_parameters 0).safe) (.res (C55_vui_parameters 0).safe))
  intro target ht data hl
  cases hk : target data with
  | none => rfl
  | some k => exact (key target ht data k hl hk).elim

/-- C56: thirteen targets can at most overflow a signed integer. -/
theorem C56_overflow : ∀ target ∈ [fuzzBitstream, fuzzConfigurationBox, fuzzNalUnit, fuzzPpsMultilayerExtension, fuzzPps, fuzzPpsSccExtension,
      fuzzPredWeightTable, fuzzRtpAp, fuzzRtp, fuzzRtpSingle, fuzzScalingListData, fuzzSei, fuzzSps],
    ∀ data : List UInt8, data.length < 2 ^ 32 → target data = none ∨ target data = some .signedOverflow := by
  have key : ∀ target ∈ [fuzzBitstream, fuzzConfigurationBox, fuzzNalUnit, fuzzPpsMultilayerExtension, fuzzPps, fuzzPpsSccExtension,
      fuzzPredWeightTable, fuzzRtpAp, fuzzRtp, fuzzRtpSingle, fuzzScalingListData, fuzzSei, fuzzSps], FaultsWithin (fun k => k = .signedOverflow) target := by
    intro target ht
    simp only [List.mem_cons, List.not_mem_nil, or_false] at ht
    rcases ht with rfl | rfl | rfl | rfl | rfl | rfl | rfl | rfl | rfl | rfl | rfl | rfl | rfl
    · exact fun data k hl hk => bitstream_safe_for (A := fun k => k = .signedOverflow) empty_usable hl (Except.fault_some hk)
    · exact fun data k hl hk => configBox_safe_for (A := fun k => k = .signedOverflow) empty_usable hl (Res.fault_some hk)
    · exact fun data k hl hk => nal_unit_safe_for (A := fun k => k = .signedOverflow) empty_usable hl (Res.fault_some hk)
    · exact .res C55_pps_multilayer_extension.safe
    · exact .res C55_pps.2.2.2
    · exact .res C55_pps_scc_extension.safe
    · exact .or (.res (C55_pred_weight_table 1 0).safe) (.res (C55_pred_weight_table 1 2).safe)
    · exact fun data k hl hk => C55_rtp_ap_safe (A := fun k => k = .signedOverflow) empty_usable hl (Res.fault_some hk)
    · exact fun data k hl hk => rtp_safe_for (A := fun k => k = .signedOverflow) empty_usable hl (Except.fault_some hk)
    · exact fun data k hl hk => C55_rtp_single_safe (A := fun k => k = .signedOverflow) empty_usable hl (Res.fault_some hk)
    · exact .res C55_scaling_list_data.safe
    · exact .res C55_sei.2.2
    · exact .res C55_sps.safe
  intro target ht data hl
  cases hk : target data with
  | none => exact .inl rfl
  | some k => rw [key target ht data k hl hk]; exact .inr rfl

/-- C56: each of these thirteen targets does overflow on some input; the inputs contain the 63-bit codeword of se(v) = 2 ^ 30. -/
theorem C56_overflow_reached :
    fuzzScalingListData [128, 0, 0, 0, 128, 0, 0, 0, 128] = some .signedOverflow ∧
    fuzzPredWeightTable [128, 0, 0, 0, 128, 0, 0, 0, 128] = some .signedOverflow ∧
    fuzzPps [192, 96, 0, 0, 0, 32, 0, 0, 0, 32] = some .signedOverflow ∧
    fuzzPpsSccExtension [64, 0, 0, 0, 32, 0, 0, 0, 32] = some .signedOverflow ∧
    fuzzPpsMultilayerExtension [16, 16, 0, 0, 0, 16, 0, 0, 0, 16] = some .signedOverflow ∧
    fuzzNalUnit [68, 1, 192, 96, 0, 0, 0, 32, 0, 0, 0, 32] = some .signedOverflow ∧
    fuzzRtp [68, 1, 192, 96, 0, 0, 0, 32, 0, 0, 0, 32] = some .signedOverflow ∧
    fuzzRtpSingle [68, 1, 192, 96, 0, 0, 0, 32, 0, 0, 0, 32] = some .signedOverflow ∧
    fuzzBitstream [0, 0, 1, 68, 1, 192, 96, 0, 0, 0, 32, 0, 0, 0, 32] = some .signedOverflow ∧
    fuzzRtpAp [96, 1, 0, 12, 68, 1, 192, 96, 0, 0, 0, 32, 0, 0, 0, 32] = some .signedOverflow ∧
    fuzzSei [142, 15, 128, 128, 128, 0, 0, 8, 0, 0, 0, 0, 128, 0, 0, 0, 128] = some .signedOverflow ∧
    fuzzSps [1, 0, 0, 0, 0, 0, 0, 0, 0, 0, 0, 0, 0, 161, 34, 95, 255, 224, 0, 0, 0, 32, 0, 0, 0, 32] = some .signedOverflow ∧
    fuzzConfigurationBox ([1, 1, 96, 0, 0, 0, 128, 0, 0, 0, 0, 0, 120, 240, 0, 252, 253, 248, 248, 0, 0, 15, 1] ++ [0xa2, 0x00, 0x01, 0, 12, 68, 1, 192, 96, 0, 0, 0, 32, 0, 0, 0, 32]) = some .signedOverflow := by
  decide +kernel

/-- C56: the three targets with a mock state can overflow a signed integer or convert minus infinity to an integer. -/
theorem C56_mock_state : ∀ target ∈ [fuzzRtpFu, fuzzSlice, fuzzUtils],
    ∀ data : List UInt8, data.length < 2 ^ 32 → target data = none ∨ target data = some .signedOverflow ∨ target data = some .floatCast := by
  have key : ∀ target ∈ [fuzzRtpFu, fuzzSlice, fuzzUtils], FaultsWithin (fun k => k = .signedOverflow ∨ k = .floatCast) target := by
    intro target ht
    simp only [List.mem_cons, List.not_mem_nil, or_false] at ht
    rcases ht with rfl | rfl | rfl
    · exact fun data k hl hk => C55_rtp_fu_safe mockState_usable hl (Res.fault_some hk)
    · exact fun data k hl hk => C55_slice_safe mockState_usable hl (Res.fault_some hk)
    · exact fun data k hl hk => sliceQp_safe_for mockState_usable hl (Except.fault_some hk)
  intro target ht data hl
  cases hk : target data with
  | none => exact .inl rfl
  | some k => rcases key target ht data k hl hk with rfl | rfl <;> simp

/-- C56: the slice target converts minus infinity to an integer exactly if the (unescaped) input has first_slice_segment_in_pic_flag 0 and
slice_pic_parameter_set_id 0, i.e. if bit 0 is 0 and bit 2 is 1. -/
theorem C56_slice_float {data rbsp : List UInt8} (hu : unescapeRbsp data = .ok rbsp) (hlen : data.length < 2 ^ 32) :
    fuzzSlice data = some .floatCast ↔ ∃ b rest, bitsOf rbsp = false :: b :: true :: rest := by
  unfold fuzzSlice
  rw [C55_slice_layer]
  unfold parseSliceSegmentHeaderBytes
  rw [C55_entry _ hu hlen]
  have hw := BB.WF.init rbsp
  have hinv := (parseSliceHead_codec (H := Cond.any) (A := fun _ => False) (nal_unit_type := 19)).inverts
  constructor
  · intro h
    have h := Res.fault_some h
    cases hh : (parseSliceHead 19).run (BB.init rbsp) with
    | fail b => unfold parseSliceSegmentHeader at h; rw [Prog.run_seq, hh] at h; cases h
    | bad k => exact absurd hh (hinv.safe _ _ hw)
    | ok head b1 =>
      obtain ⟨hv, hw1, _, hb⟩ := hinv.sound _ _ _ hw hh
      by_cases hn : ∃ P S, Spec.Names mockState.pps mockState.sps head.slice_pic_parameter_set_id P S
      · obtain ⟨P, S, hn⟩ := hn
        have hid : head.slice_pic_parameter_set_id = 0 := by
          have := hn.1
          simp only [mockState, mapSet] at this
          split at this
          · assumption
          · cases this
        rw [slice_run hh hn] at h
        have hf : head.first_slice_segment_in_pic_flag = 0 := by
          refine Classical.not_not.mp fun hx => ?_
          obtain ⟨hsu, _⟩ := mockState_usable.sps _ _ hn.2
          have hpu := mockState_usable.pps _ _ hn.1
          cases hb : (parseSliceBody 19 P.body S.body head.first_slice_segment_in_pic_flag).run b1 with
          | fail b => rw [hb] at h; cases h
          | ok body b2 => rw [hb] at h; cases h
          | bad k' =>
            rw [hb] at h
            cases h
            have := (Codec.invertsSigned (sliceBody_codec_for hpu hsu (fun h0 => absurd h0 hx))).safe b1 _ hw1 hb
            cases this
        rw [BB.rem_init] at hb
        have h1 := hv.no_output_of_prior_pics_flag.present (by decide)
        refine ⟨(head.no_output_of_prior_pics_flag == 1), b1.rem, ?_⟩
        rw [hb]
        obtain ⟨f, n, i⟩ := head
        simp only at hid hf h1
        subst hid hf
        have : n = 0 ∨ n = 1 := by omega
        rcases this with rfl | rfl <;> rfl
      · rw [slice_run_none hh hn] at h; cases h
  · rintro ⟨b, rest, hb⟩
    obtain ⟨b1, h1, _⟩ := hinv.complete (BB.init rbsp) ⟨0, b.toNat, 0⟩ rest hw
      ⟨(by show 0 < 2 ^ 1; decide), ⟨fun _ => by cases b <;> decide, fun h => absurd (by decide) h⟩, (by show 0 < 2 ^ 32 - 1; decide)⟩
      (by rw [BB.rem_init, hb]; cases b <;> rfl)
    rw [slice_run h1 (P := default) (S := mockSps) ⟨rfl, rfl⟩]
    rfl

/-- the shortest such input -/
example : fuzzSlice [0x20] = some .floatCast := by decide +kernel

/-- the other two targets with a mock state reach it too: an FU with a start bit, and a stream with one slice -/
theorem C56_mock_reached : fuzzRtpFu [0x62, 0x01, 0x93, 0x20] = some .floatCast ∧
    fuzzUtils [0x00, 0x00, 0x01, 0x26, 0x01, 0x20, 0x80] = some .floatCast := by
  constructor <;> decide +kernel

end H265
