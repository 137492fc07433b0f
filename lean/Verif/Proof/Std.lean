/-
The standard's syntax tables (`Spec/Std.lean`) agree with the serialisations the library accepts, on the supported part of the standard.
-/
import Verif.Spec.StdConf
import Verif.Proof.Codec
import Verif.Proof.Slice

namespace H265.Std
open Spec

theorem seq_nil : seq [] = [] := rfl
theorem seq_cons (a : List Bool) (l : List (List Bool)) : seq (a :: l) = a ++ seq l := by simp [seq]
theorem ifThen_eq (c : Prop) [Decidable c] (l : List (List Bool)) : ifThen c l = Spec.cond c (seq l) := rfl
theorem cond_append (c : Prop) [Decidable c] (a b : List Bool) : Spec.cond c (a ++ b) = Spec.cond c a ++ Spec.cond c b := by
  unfold Spec.cond; split <;> simp
theorem cond_nil (c : Prop) [Decidable c] : Spec.cond c [] = [] := by unfold Spec.cond; split <;> rfl
theorem cond_cond (c d : Prop) [Decidable c] [Decidable d] (a : List Bool) : Spec.cond c (Spec.cond d a) = Spec.cond (c ∧ d) a := by
  unfold Spec.cond; by_cases hc : c <;> by_cases hd : d <;> simp [hc, hd]
theorem cond_ite (c d : Prop) [Decidable c] [Decidable d] (a b : List Bool) :
    Spec.cond c (if d then a else b) = Spec.cond (c ∧ d) a ++ Spec.cond (c ∧ ¬ d) b := by
  unfold Spec.cond; by_cases hc : c <;> by_cases hd : d <;> simp [hc, hd]
theorem ite_eq (d : Prop) [Decidable d] (a b : List Bool) : (if d then a else b) = Spec.cond d a ++ Spec.cond (¬ d) b := by
  unfold Spec.cond; by_cases hd : d <;> simp [hd]
theorem cond_optional {α : Type} {c : Prop} [Decidable c] {V : α → Prop} {o : Option α} (h : Maybe c V o) (w : α → List Bool) :
    Spec.cond c (optional w o) = optional w o := by
  unfold Spec.cond
  split
  · rfl
  · next hc =>
    cases o with
    | none => rfl
    | some a => exact absurd (h.present.mp rfl) hc
theorem optional_congr {α : Type} {v w : α → List Bool} {o : Option α} (h : ∀ x, o = some x → v x = w x) : optional v o = optional w o := by
  cases o with
  | none => rfl
  | some a => exact h a rfl
theorem list_congr {α : Type} {v w : α → List Bool} {l : List α} (h : ∀ x ∈ l, v x = w x) : list v l = list w l := by
  unfold list; exact congrArg _ (List.map_congr_left h)
theorem listI_congr {α : Type} {v w : Nat → α → List Bool} {l : List α} : ∀ {n : Nat}, (∀ i x, l[i]? = some x → v (n + i) x = w (n + i) x) → listI v n l = listI w n l := by
  induction l with
  | nil => intros; rfl
  | cons a l ih =>
    intro n h
    unfold listI
    rw [ih fun i x hx => by have := h (i + 1) x (by simpa using hx); rw [show n + (i + 1) = n + 1 + i by omega] at this; exact this,
      show v n a = w n a from h 0 a rfl]
theorem cond_congr {c d : Prop} [Decidable c] [Decidable d] (h : c ↔ d) (a : List Bool) : Spec.cond c a = Spec.cond d a := by
  unfold Spec.cond; by_cases hc : c
  · rw [if_pos hc, if_pos (h.mp hc)]
  · rw [if_neg hc, if_neg fun hd => hc (h.mpr hd)]
theorem cond_pos {c : Prop} [Decidable c] (h : c) (a : List Bool) : Spec.cond c a = a := if_pos h
theorem cond_neg {c : Prop} [Decidable c] (h : ¬ c) (a : List Bool) : Spec.cond c a = [] := if_neg h

/-- normal form of a syntax table: a sequence of elements, each with its full condition -/
macro "std_norm" : tactic => `(tactic| simp only [seq_cons, seq_nil, ifThen_eq, cond_append, cond_nil, cond_cond, cond_ite, and_assoc,
  List.append_assoc, List.append_nil, List.nil_append])

/-! ### HRD, VUI -/

theorem subLayerHrd_eq (sub_pic : Nat) (l : List SubLayerHrdEntry) : subLayerHrd sub_pic l = list (subLayerHrdEntry sub_pic) l := by
  unfold subLayerHrd
  refine list_congr fun x _ => ?_
  unfold subLayerHrdEntry
  std_norm

theorem hrdSubLayer_eq {nal vcl sub_pic : Nat} {s : HrdSubLayer} (hv : ValidHrdSubLayer nal vcl sub_pic s) (hs : s.fixed_pic_rate_general_flag = 0) :
    hrdSubLayer nal vcl sub_pic s = Spec.hrdSubLayer sub_pic s := by
  have hf : fixedPicRateWithinCvs s = s.fixed_pic_rate_within_cvs_flag := by unfold fixedPicRateWithinCvs; rw [if_neg (by omega)]
  unfold hrdSubLayer Spec.hrdSubLayer
  rw [hf, ite_eq]
  rw [show subLayerHrd sub_pic = list (subLayerHrdEntry sub_pic) from funext fun l => subLayerHrd_eq _ _]
  have h1 := cond_optional hv.nal_hrd (list (subLayerHrdEntry sub_pic))
  have h2 := cond_optional hv.vcl_hrd (list (subLayerHrdEntry sub_pic))
  std_norm
  rw [h1, h2]

theorem hrdParameters_eq {common maxSub : Nat} {s : HrdParameters} (hv : ValidHrdParameters common maxSub s) (hs : SupportedHrd s) :
    hrdParameters common s = Spec.hrdParameters common s := by
  unfold hrdParameters Spec.hrdParameters
  rw [list_congr fun x hx => hrdSubLayer_eq (hv.sub_layers.valid x hx) (hs x hx)]
  std_norm

theorem vuiParameters_eq {maxSub : Nat} {s : VuiParameters} (hv : ValidVuiParameters maxSub s) (hs : SupportedVui s) :
    vuiParameters s = Spec.vuiParameters s := by
  unfold vuiParameters Spec.vuiParameters
  rw [optional_congr fun h hh => hrdParameters_eq (hv.hrd_parameters.valid h hh) (hs.hrd h hh)]
  have h1 := cond_optional hv.hrd_parameters (Spec.hrdParameters 1)
  std_norm
  rw [h1]

/-! ### profile_tier_level -/

theorem profileTierLevel_eq {maxSub : Nat} {p : StdPtl} (hs : SupportedPtl p) :
    profileTierLevel maxSub p = Spec.profileTierLevel (p.reported maxSub) := by
  unfold profileTierLevel Spec.profileTierLevel StdPtl.reported
  have h1 : list (fun f : Nat × Nat => u 1 f.1 ++ u 1 f.2) (p.sub_layers.map fun x => (x.profile_present_flag, x.level_present_flag)) =
      list (fun x => seq [u 1 x.profile_present_flag, u 1 x.level_present_flag]) p.sub_layers := by
    simp [list, seq, Function.comp_def]
  have h2 : list (optional subLayerProfile) (p.sub_layers.map fun x => if x.profile_present_flag ≠ 0 then some (x.profile, x.level_idc) else none) =
      list (fun x => seq [ifThen (x.profile_present_flag ≠ 0) [profileInfo x.profile], ifThen (x.level_present_flag ≠ 0) [u 8 x.level_idc]]) p.sub_layers := by
    unfold list
    rw [List.map_map]
    refine congrArg _ (List.map_congr_left fun x hx => ?_)
    have := hs x hx
    simp only [Function.comp_apply, ← this]
    by_cases hc : x.profile_present_flag ≠ 0
    · simp [hc, Spec.optional, subLayerProfile, seq, ifThen]
    · simp [hc, Spec.optional, seq, ifThen]
  have h3 : ifThen (maxSub > 0) [list (fun _ => u 2 0) (List.range (8 - maxSub))] =
      list (u 2) (if maxSub > 0 then List.replicate (8 - maxSub) 0 else []) := by
    unfold ifThen
    by_cases hc : maxSub > 0
    · rw [if_pos hc, if_pos hc]
      simp only [list, seq, List.flatten_cons, List.flatten_nil, List.append_nil]
      congr 1
      rw [List.map_replicate, List.map_const', List.length_range]
    · rw [if_neg hc, if_neg hc]; rfl
  rw [h1, h2, h3]
  rfl

/-! ### VPS -/

theorem vps_eq {ptl : StdPtl} {s : VpsBody} (hs : SupportedPtl ptl) (hh : s.hrds = []) (hp : s.profile_tier_level = ptl.reported s.vps_max_sub_layers_minus1) :
    vps ptl s = Spec.vpsBody s := by
  unfold vps Spec.vpsBody
  rw [profileTierLevel_eq hs, ← hp, hh]
  have h1 : list (fun o : SubLayerOrdering => seq [ue o.max_dec_pic_buffering_minus1, ue o.max_num_reorder_pics, ue o.max_latency_increase_plus1])
      s.sub_layer_ordering = list subLayerOrdering s.sub_layer_ordering := rfl
  rw [h1]
  simp only [listI]
  std_norm

/-! ### SPS -/

theorem scalingListData_eq {s : ScalingListData} (hv : ValidScalingListData s) : scalingListData s = Spec.scalingListData s := by
  unfold scalingListData Spec.scalingListData
  refine listI_congr fun i l hl => list_congr fun m hm => ?_
  have hm := (hv.valid i l hl).valid m hm
  unfold scalingMatrix
  rw [Nat.zero_add, ite_eq]
  std_norm
  by_cases hc : m.scaling_list_pred_mode_flag = 0
  · have hn : m.coefs = [] := by
      have := hm.length; rw [if_neg (by omega)] at this; exact List.length_eq_zero_iff.mp this
    rw [hn]; simp [hc, Spec.cond, list]
  · rw [cond_pos hc (list _ _)]

theorem spsSccExtension_eq {c bl bc : Nat} {s : SpsSccExtension} (hv : ValidSpsSccExtension c bl bc s) : spsSccExtension bl bc s = Spec.spsSccExtension bl bc s := by
  unfold spsSccExtension Spec.spsSccExtension
  std_norm
  have h : (s.palette_mode_enabled_flag ≠ 0 ∧ s.sps_palette_predictor_initializers_present_flag ≠ 0) ↔ s.sps_palette_predictor_initializers_present_flag ≠ 0 := by
    refine ⟨And.right, fun h => ⟨fun h0 => h (hv.sps_palette_predictor_initializers_present_flag.absent (by omega)), h⟩⟩
  rw [cond_congr h, cond_congr h, Nat.add_comm bl 8, Nat.add_comm bc 8]

theorem sps_eq {ptl : StdPtl} {s : SpsBody} (hv : ValidSpsBody s) (hp : s.profile_tier_level = ptl.reported s.sps_max_sub_layers_minus1)
    (hs : SupportedSps ptl s) : sps ptl s = Spec.spsBody s := by
  unfold sps Spec.spsBody
  rw [profileTierLevel_eq hs.ptl, ← hp, optional_congr fun x hx => vuiParameters_eq (hv.vui_parameters.valid x hx) (hs.vui x hx),
    optional_congr fun x hx => scalingListData_eq (hv.scaling_list_data.valid x hx),
    optional_congr fun x hx => spsSccExtension_eq (hv.sps_scc_extension.valid x hx)]
  have h1 : list (fun o : SpsSubLayerOrdering => seq [ue o.sps_max_dec_pic_buffering_minus1, ue o.sps_max_num_reorder_pics, ue o.sps_max_latency_increase_plus1])
      s.sub_layer_ordering = list spsSubLayerOrdering s.sub_layer_ordering := rfl
  have h2 : list (fun e : LtRefPicSps => seq [u (s.log2_max_pic_order_cnt_lsb_minus4 + 4) e.lt_ref_pic_poc_lsb_sps, u 1 e.used_by_curr_pic_lt_sps_flag])
      s.lt_ref_pics = list (ltRefPicSps (s.log2_max_pic_order_cnt_lsb_minus4 + 4)) s.lt_ref_pics := rfl
  rw [h1, h2]
  have e1 := cond_optional hv.vui_parameters Spec.vuiParameters
  have e2 := cond_optional hv.scaling_list_data Spec.scalingListData
  have e3 := cond_optional hv.sps_range_extension spsRangeExtension
  have e4 := cond_optional hv.sps_multilayer_extension spsMultilayerExtension
  have e5 := cond_optional hv.sps_3d_extension sps3dExtension
  have e6 := cond_optional hv.sps_scc_extension (Spec.spsSccExtension s.bit_depth_luma_minus8 s.bit_depth_chroma_minus8)
  have h3 : (s.scaling_list_enabled_flag ≠ 0 ∧ s.sps_scaling_list_data_present_flag ≠ 0) ↔ s.sps_scaling_list_data_present_flag ≠ 0 :=
    ⟨And.right, fun h => ⟨fun h0 => h (hv.sps_scaling_list_data_present_flag.absent (by omega)), h⟩⟩
  have h4 : Spec.cond (s.long_term_ref_pics_present_flag ≠ 0) (list (ltRefPicSps (s.log2_max_pic_order_cnt_lsb_minus4 + 4)) s.lt_ref_pics) =
      list (ltRefPicSps (s.log2_max_pic_order_cnt_lsb_minus4 + 4)) s.lt_ref_pics := by
    by_cases hc : s.long_term_ref_pics_present_flag ≠ 0
    · exact cond_pos hc _
    · have := hv.lt_ref_pics.length
      rw [hv.num_long_term_ref_pics_sps.absent hc] at this
      rw [List.length_eq_zero_iff.mp this, cond_neg hc]; rfl
  std_norm
  rw [cond_congr h3, e1, e2, e3, e4, e5, e6, h4]

/-! ### PPS -/

theorem ppsSccExtension_eq {s : PpsSccExtension} (hv : ValidPpsSccExtension s) (hs : s.pps_num_palette_predictor_initializer = 0) :
    ppsSccExtension s = Spec.ppsSccExtension s := by
  unfold ppsSccExtension Spec.ppsSccExtension
  have hm := hv.monochrome_palette_flag.absent (by omega)
  std_norm
  simp [Spec.cond, hs, hm]

/-- the two Exp-Golomb codes agree on 0 and 1 -/
theorem ue_eq_se {v : Int} (h0 : 0 ≤ v) (h1 : v ≤ 1) : ue v.toNat = se v := by
  have : v = 0 ∨ v = 1 := by omega
  rcases this with rfl | rfl <;> decide

theorem refLocOffset_eq {s : RefLocOffset} (hv : ValidRefLocOffset s) (hc : ∀ p, s.resample_phase_set = some p →
    0 ≤ p.phase_hor_luma ∧ 0 ≤ p.phase_ver_luma ∧ 0 ≤ p.phase_hor_chroma_plus8 ∧ 0 ≤ p.phase_ver_chroma_plus8)
    (hs : ∀ p, s.resample_phase_set = some p →
      p.phase_hor_luma ≤ 1 ∧ p.phase_ver_luma ≤ 1 ∧ p.phase_hor_chroma_plus8 ≤ 1 ∧ p.phase_ver_chroma_plus8 ≤ 1) :
    refLocOffset s = Spec.refLocOffset s := by
  unfold refLocOffset Spec.refLocOffset
  have e1 := cond_optional hv.scaled_ref_layer_offset Spec.refLayerOffsets
  have e2 := cond_optional hv.ref_region_offset Spec.refRegionOffsets
  have e3 := cond_optional hv.resample_phase_set Spec.resamplePhase
  have h1 : (fun o : RefLayerOffsets => seq [se o.scaled_ref_layer_left_offset, se o.scaled_ref_layer_top_offset,
        se o.scaled_ref_layer_right_offset, se o.scaled_ref_layer_bottom_offset]) = Spec.refLayerOffsets := rfl
  have h2 : (fun o : RefRegionOffsets => seq [se o.ref_region_left_offset, se o.ref_region_top_offset,
        se o.ref_region_right_offset, se o.ref_region_bottom_offset]) = Spec.refRegionOffsets := rfl
  rw [h1, h2, optional_congr (w := Spec.resamplePhase) (o := s.resample_phase_set) fun p hp => by
    obtain ⟨a1, a2, a3, a4⟩ := hc p hp
    obtain ⟨b1, b2, b3, b4⟩ := hs p hp
    unfold Spec.resamplePhase
    rw [ue_eq_se a1 b1, ue_eq_se a2 b2, ue_eq_se a3 b3, ue_eq_se a4 b4]]
  std_norm
  rw [e1, e2, e3]

theorem ppsMultilayerExtension_eq {s : PpsMultilayerExtension} (hv : ValidPpsMultilayerExtension s) (hc : ConformsPpsMultilayerExtension s)
    (hs : SupportedPpsMultilayer s) : ppsMultilayerExtension s = Spec.ppsMultilayerExtension s := by
  unfold ppsMultilayerExtension Spec.ppsMultilayerExtension
  rw [list_congr fun x hx => refLocOffset_eq (hv.ref_loc_offset.valid x hx)
    (fun p hp => have h := (hc.ref_loc_offset.valid x hx).resample_phase_set.valid p hp
      ⟨h.phase_hor_luma.1, h.phase_ver_luma.1, h.phase_hor_chroma_plus8.1, h.phase_ver_chroma_plus8.1⟩) (hs.phases x hx)]
  std_norm

theorem pps_eq {s : PpsBody} (hv : ValidPpsBody s) (hc : ConformsPpsBody s) (hs : SupportedPps s) : pps s = Spec.ppsBody s := by
  unfold pps Spec.ppsBody
  dsimp only
  rw [optional_congr fun x hx => scalingListData_eq (hv.head.scaling_list_data.valid x hx),
    optional_congr fun x hx => ppsMultilayerExtension_eq (hv.pps_multilayer_extension.valid x hx) (hc.pps_multilayer_extension.valid x hx) (hs.multilayer x hx),
    optional_congr fun x hx => ppsSccExtension_eq (hv.pps_scc_extension.valid x hx) (hs.palette x hx)]
  have e1 := cond_optional hv.head.scaling_list_data Spec.scalingListData
  have e2 := cond_optional hv.pps_scc_extension Spec.ppsSccExtension
  have e3 := cond_optional hv.pps_multilayer_extension Spec.ppsMultilayerExtension
  unfold Spec.ppsHead
  std_norm
  rw [e1, e2, e3]

/-! ### slice segment header -/

theorem clog2From_spec {x : Nat} : ∀ (fuel k m : Nat), x ≤ 2 ^ m → (∀ j, j < m → 2 ^ j < x) → k ≤ m → m ≤ k + fuel → clog2From x fuel k = m := by
  intro fuel
  induction fuel with
  | zero => intro k m _ _ h1 h2; unfold clog2From; omega
  | succ fuel ih =>
    intro k m hm hj h1 h2
    unfold clog2From
    split
    · next hx =>
      rcases Nat.lt_or_ge k m with h | h
      · have := hj k h; omega
      · omega
    · next hx =>
      rcases Nat.lt_or_ge k m with h | h
      · exact ih (k + 1) m hm hj (by omega) (by omega)
      · have : k = m := by omega
        subst this; omega

theorem ceilLog2_le (x : Nat) : x ≤ 2 ^ ceilLog2 x := by
  unfold ceilLog2
  split
  · simpa using ‹x ≤ 1›
  · have := Nat.lt_log2_self (n := x - 1)
    omega

theorem ceilLog2_least {x j : Nat} (h : j < ceilLog2 x) : 2 ^ j < x := by
  unfold ceilLog2 at h
  split at h
  · omega
  · have h1 : 2 ^ (Nat.log2 (x - 1)) ≤ x - 1 := Nat.log2_self_le (by omega)
    have h2 : 2 ^ j ≤ 2 ^ (Nat.log2 (x - 1)) := Nat.pow_le_pow_right (by decide) (by omega)
    omega

theorem ceilLog2f_eq {x : Nat} (h : x ≤ 2 ^ 20) : ceilLog2f x = ceilLog2 x := by
  unfold ceilLog2f
  rw [if_pos h]
  refine clog2From_spec 20 0 _ (ceilLog2_le x) (fun j hj => ceilLog2_least hj) (Nat.zero_le _) ?_
  rcases Nat.lt_or_ge 20 (ceilLog2 x) with hc | hc
  · have := ceilLog2_least hc; omega
  · omega

theorem ceilDiv_eq (a : Nat) {b : Nat} (hb : 0 < b) : ceilDiv a b = ceilDivide a b := by
  unfold ceilDiv ceilDivide
  have h := Nat.div_add_mod a b
  have hm := Nat.mod_lt a hb
  generalize hq : a / b = q at *
  generalize hr : a % b = r at *
  subst h
  split
  · next h0 => subst h0; rw [show b * q + 0 + b - 1 = b * q + (b - 1) by omega, Nat.mul_add_div hb, Nat.div_eq_of_lt (by omega : b - 1 < b)]
  · next h0 =>
    rw [show b * q + r + b - 1 = b * q + (b + (r - 1)) by omega, Nat.mul_add_div hb, Nat.add_div_left _ hb, Nat.div_eq_of_lt (by omega : r - 1 < b)]

theorem ctbSizeY_eq {S : SpsBody} (hS : ValidSpsBody S) : S.getCtbSizeY = ctbSizeY S := by
  have h1 := hS.log2_min_luma_coding_block_size_minus3
  have h2 := hS.log2_diff_max_min_luma_coding_block_size
  unfold SpsBody.getCtbSizeY SpsBody.getCtbLog2SizeY SpsBody.getMinCbLog2SizeY w32 ctbSizeY
  congr 1; omega

theorem picWidthInCtbsY_eq {S : SpsBody} (hS : ValidSpsBody S) : S.getPicWidthInCtbsY = picWidthInCtbsY S := by
  unfold SpsBody.getPicWidthInCtbsY picWidthInCtbsY
  rw [ctbSizeY_eq hS]; exact ceilDiv_eq _ (Nat.two_pow_pos _)

theorem picHeightInCtbsY_eq {S : SpsBody} (hS : ValidSpsBody S) : S.getPicHeightInCtbsY = picHeightInCtbsY S := by
  unfold SpsBody.getPicHeightInCtbsY picHeightInCtbsY
  rw [ctbSizeY_eq hS]; exact ceilDiv_eq _ (Nat.two_pow_pos _)

theorem picSizeInCtbsY_eq {S : SpsBody} (hS : ValidSpsBody S) (h : picSizeInCtbsY S ≤ 2 ^ 20) : S.getPicSizeInCtbsY = picSizeInCtbsY S := by
  unfold SpsBody.getPicSizeInCtbsY picSizeInCtbsY w32
  rw [picWidthInCtbsY_eq hS, picHeightInCtbsY_eq hS]
  exact Nat.mod_eq_of_lt (Nat.lt_of_le_of_lt h (by decide))

theorem mvResolution_eq {S : SpsBody} (hS : ValidSpsBody S) : sliceMvResolution S = mvResolution S := by
  unfold sliceMvResolution mvResolution
  have := hS.sps_scc_extension.present
  cases h : S.sps_scc_extension with
  | none => simp
  | some e => rw [h] at this; simp [this.mp rfl]

theorem chromaArrayType_eq {S : SpsBody} (hS : ValidSpsBody S) (h : S.sample_adaptive_offset_enabled_flag ≠ 0) : sliceChromaArrayType S = chromaArrayType S := by
  unfold sliceChromaArrayType chromaArrayType
  rw [if_pos h]
  rcases Nat.lt_or_ge S.separate_colour_plane_flag 1 with h0 | h0
  · rw [if_pos (by omega), if_neg (by omega)]
  · have : S.separate_colour_plane_flag = 1 := by
      by_cases hc : S.chroma_format_idc = 3
      · have := hS.separate_colour_plane_flag.present hc; omega
      · have := hS.separate_colour_plane_flag.absent hc; omega
    rw [if_neg (by omega), if_pos this]

theorem slicePpsActFlag_eq {P : PpsBody} (hP : ValidPpsBody P) : slicePpsActFlag P = actOffsetsPresent P := by
  unfold slicePpsActFlag actOffsetsPresent
  split
  · rfl
  · next hc =>
    cases h : P.pps_scc_extension with
    | none => rfl
    | some x => exact absurd (hP.pps_scc_extension.present.mp (by rw [h]; rfl)) hc

theorem collocated_iff {nal : Nat} {P : PpsBody} {S : SpsBody} {s : SliceBody}
    (h0 : ¬ (s.dependent_slice_segment_flag = 0 ∧ (s.slice_type = 1 ∨ s.slice_type = 0) ∧ s.num_ref_idx_active_override_flag ≠ 0) → s.num_ref_idx_l0_active_minus1 = 0)
    (h1 : ¬ (s.dependent_slice_segment_flag = 0 ∧ s.slice_type = 0 ∧ s.num_ref_idx_active_override_flag ≠ 0) → s.num_ref_idx_l1_active_minus1 = 0)
    (hf : ¬ (s.dependent_slice_segment_flag = 0 ∧ s.slice_type = 0 ∧ s.slice_temporal_mvp_enabled_flag ≠ 0) → s.collocated_from_l0_flag = 1)
    (hs : SupportedSlice nal P S s) :
    (s.dependent_slice_segment_flag = 0 ∧ (s.slice_type = 1 ∨ s.slice_type = 0) ∧ s.slice_temporal_mvp_enabled_flag ≠ 0 ∧
        (collocatedFromL0 s ≠ 0 ∧ numRefIdxL0 P s > 0 ∨ collocatedFromL0 s = 0 ∧ numRefIdxL1 P s > 0)) ↔
      (s.dependent_slice_segment_flag = 0 ∧ (s.slice_type = 1 ∨ s.slice_type = 0) ∧ s.slice_temporal_mvp_enabled_flag ≠ 0 ∧
        (s.collocated_from_l0_flag ≠ 0 ∧ s.num_ref_idx_l0_active_minus1 > 0 ∨ s.collocated_from_l0_flag = 0 ∧ s.num_ref_idx_l1_active_minus1 > 0)) := by
  by_cases hc : s.dependent_slice_segment_flag = 0 ∧ (s.slice_type = 1 ∨ s.slice_type = 0) ∧ s.slice_temporal_mvp_enabled_flag ≠ 0
  · obtain ⟨k1, k2, k3⟩ := hc
    have hn := hs.num_ref_idx k1 (by omega) (.inl k3)
    have hl0 : s.num_ref_idx_active_override_flag = 0 → s.num_ref_idx_l0_active_minus1 = 0 := fun h => h0 (by omega)
    have hl1 : s.num_ref_idx_active_override_flag = 0 → s.num_ref_idx_l1_active_minus1 = 0 := fun h => h1 (by omega)
    have hl2 : s.slice_type = 1 → s.num_ref_idx_l1_active_minus1 = 0 := fun h => h1 (by omega)
    have hf : s.slice_type = 1 → s.collocated_from_l0_flag = 1 := fun h => hf (by omega)
    unfold collocatedFromL0 numRefIdxL0 numRefIdxL1
    rcases k2 with k2 | k2
    · have := hf k2
      have := hl2 k2
      rw [if_neg (by omega)]
      by_cases ho : s.num_ref_idx_active_override_flag ≠ 0
      · rw [if_pos ho, if_pos ho]; omega
      · have := hl0 (by omega)
        rw [if_neg ho, if_neg ho]; omega
    · rw [if_pos k2]
      by_cases ho : s.num_ref_idx_active_override_flag ≠ 0
      · rw [if_pos ho, if_pos ho]
      · have := hl0 (by omega)
        have := hl1 (by omega)
        rw [if_neg ho, if_neg ho]; omega
  · exact ⟨fun h => absurd ⟨h.1, h.2.1, h.2.2.1⟩ hc, fun h => absurd ⟨h.1, h.2.1, h.2.2.1⟩ hc⟩

theorem loopFilter_iff {nal : Nat} {P : PpsBody} {S : SpsBody} {s : SliceBody}
    (hd : ¬ (s.dependent_slice_segment_flag = 0 ∧ s.deblocking_filter_override_flag ≠ 0) → s.slice_deblocking_filter_disabled_flag = 0)
    (hs : SupportedSlice nal P S s) :
    (s.dependent_slice_segment_flag = 0 ∧ P.head.pps_loop_filter_across_slices_enabled_flag ≠ 0 ∧
        (s.slice_sao_luma_flag ≠ 0 ∨ s.slice_sao_chroma_flag ≠ 0 ∨ deblockingDisabled P s = 0)) ↔
      (s.dependent_slice_segment_flag = 0 ∧ P.head.pps_loop_filter_across_slices_enabled_flag ≠ 0 ∧
        (s.slice_sao_luma_flag ≠ 0 ∨ s.slice_sao_chroma_flag ≠ 0 ∨ s.slice_deblocking_filter_disabled_flag = 0)) := by
  by_cases hc : s.dependent_slice_segment_flag = 0 ∧ P.head.pps_loop_filter_across_slices_enabled_flag ≠ 0
  · have hb := hs.deblocking hc.1 hc.2
    unfold deblockingDisabled
    by_cases ho : s.deblocking_filter_override_flag ≠ 0
    · rw [if_pos ho]
    · have := hd (by omega)
      rw [if_neg ho]; omega
  · exact ⟨fun h => absurd ⟨h.1, h.2.1⟩ hc, fun h => absurd ⟨h.1, h.2.1⟩ hc⟩

theorem slice_eq {nal : Nat} {P : PpsBody} {S : SpsBody} {hd : SliceHead} {s : SliceBody} (x : SliceExtra) (hP : ValidPpsBody P) (hS : ValidSpsBody S)
    (hsize : picSizeInCtbsY S ≤ 2 ^ 20) (hv : ValidSliceBody nal P S hd.first_slice_segment_in_pic_flag s) (hs : SupportedSlice nal P S s) :
    sliceSegmentHeader nal P S hd s x = Spec.sliceHead nal hd ++ Spec.sliceBody nal P S hd.first_slice_segment_in_pic_flag s := by
  have hns := hS.num_short_term_ref_pic_sets
  have hnl : S.num_long_term_ref_pics_sps ≤ 32 := by
    by_cases hc : S.long_term_ref_pics_present_flag ≠ 0
    · exact (hS.num_long_term_ref_pics_sps.present hc).2
    · rw [hS.num_long_term_ref_pics_sps.absent hc]; decide
  unfold sliceSegmentHeader Spec.sliceHead Spec.sliceBody
  rw [picSizeInCtbsY_eq hS hsize, ceilLog2f_eq hsize, ceilLog2f_eq (x := S.num_short_term_ref_pic_sets) (by omega), mvResolution_eq hS]
  -- the long-term pictures
  have hlt : listI (fun i (l : LtRefPic) => seq [
            if i < s.num_long_term_sps then
              ifThen (S.num_long_term_ref_pics_sps > 1) [
                u (ceilLog2 S.num_long_term_ref_pics_sps) l.head.lt_idx_sps]
            else seq [
              u (S.log2_max_pic_order_cnt_lsb_minus4 + 4) l.head.poc_lsb_lt,
              u 1 l.head.used_by_curr_pic_lt_flag],
            u 1 l.head.delta_poc_msb_present_flag,
            ifThen (l.head.delta_poc_msb_present_flag ≠ 0) [
              ue l.delta_poc_msb_cycle_lt]]) 0 s.lt_ref_pics =
      listI (Spec.ltRefPic s.num_long_term_sps S.num_long_term_ref_pics_sps (S.log2_max_pic_order_cnt_lsb_minus4 + 4)) 0 s.lt_ref_pics := by
    refine listI_congr fun i l _ => ?_
    unfold Spec.ltRefPic Spec.ltRefPicHead
    rw [ceilLog2f_eq (x := S.num_long_term_ref_pics_sps) (by omega)]
    by_cases hc : 0 + i < s.num_long_term_sps
    · rw [if_pos hc]
      std_norm
      rw [cond_neg (by omega) (u (S.log2_max_pic_order_cnt_lsb_minus4 + 4) _), cond_neg (by omega) (u 1 l.head.used_by_curr_pic_lt_flag),
        cond_congr (c := S.num_long_term_ref_pics_sps > 1) (d := 0 + i < s.num_long_term_sps ∧ S.num_long_term_ref_pics_sps > 1) ⟨fun h => ⟨hc, h⟩, And.right⟩]
      rfl
    · rw [if_neg hc]
      std_norm
      rw [cond_pos (by omega) (u (S.log2_max_pic_order_cnt_lsb_minus4 + 4) _), cond_pos (by omega) (u 1 l.head.used_by_curr_pic_lt_flag),
        cond_neg (fun h => hc h.1) (u (ceilLog2 _) _)]
      rfl
  rw [hlt]
  -- weights
  have hw : Spec.optional (fun t => predWeightTable (chromaArrayType S) s.slice_type t x) s.pred_weight_table =
      Spec.optional (Spec.predWeightTable (sliceChromaArrayType S)) s.pred_weight_table := by
    refine optional_congr fun t ht => ?_
    obtain ⟨h1, h2⟩ := hs.weights (by rw [ht]; simp)
    have : chromaArrayType S = sliceChromaArrayType S := by
      by_cases hc : S.sample_adaptive_offset_enabled_flag ≠ 0
      · exact (chromaArrayType_eq hS hc).symm
      · rw [(h2.resolve_left hc)]; unfold sliceChromaArrayType; rw [if_neg hc]
    unfold predWeightTable Spec.predWeightTable
    rw [this, h1]
    std_norm
    simp only [cond_neg (by decide : ¬ (1 = 0)), cond_neg (show ¬ (1 = 0 ∧ sliceChromaArrayType S ≠ 0) from fun h => absurd h.1 (by decide)), List.append_nil]
    rfl
  rw [hw]
  have e1 := cond_optional hv.st_ref_pic_set (stRefPicSet S.num_short_term_ref_pic_sets S.num_short_term_ref_pic_sets)
  have e2 := cond_optional hv.pred_weight_table (Spec.predWeightTable (sliceChromaArrayType S))
  std_norm
  have c1 : (s.dependent_slice_segment_flag = 0 ∧ (s.slice_type = 1 ∨ s.slice_type = 0) ∧ s.num_ref_idx_active_override_flag ≠ 0 ∧ s.slice_type = 0) ↔
      (s.dependent_slice_segment_flag = 0 ∧ s.slice_type = 0 ∧ s.num_ref_idx_active_override_flag ≠ 0) := by omega
  have c2 : ¬ (s.dependent_slice_segment_flag = 0 ∧ (s.slice_type = 1 ∨ s.slice_type = 0) ∧ P.head.lists_modification_present_flag ≠ 0 ∧
      numPicTotalCurr nal P S s > 1) := by
    rintro ⟨h1, h2, h3, h4⟩
    have := hs.lists h1 (by omega)
    omega
  have c3 : (s.dependent_slice_segment_flag = 0 ∧ (s.slice_type = 1 ∨ s.slice_type = 0) ∧ s.slice_type = 0) ↔
      (s.dependent_slice_segment_flag = 0 ∧ s.slice_type = 0) := by omega
  have c4 : (s.dependent_slice_segment_flag = 0 ∧ (s.slice_type = 1 ∨ s.slice_type = 0) ∧ s.slice_temporal_mvp_enabled_flag ≠ 0 ∧ s.slice_type = 0) ↔
      (s.dependent_slice_segment_flag = 0 ∧ s.slice_type = 0 ∧ s.slice_temporal_mvp_enabled_flag ≠ 0) := by omega
  have c5 := collocated_iff (P := P) hv.num_ref_idx_l0_active_minus1.absent hv.num_ref_idx_l1_active_minus1.absent hv.collocated_from_l0_flag.absent hs
  have c6 : (s.dependent_slice_segment_flag = 0 ∧ (s.slice_type = 1 ∨ s.slice_type = 0) ∧
        (P.head.weighted_pred_flag ≠ 0 ∧ s.slice_type = 1 ∨ P.head.weighted_bipred_flag ≠ 0 ∧ s.slice_type = 0)) ↔
      (s.dependent_slice_segment_flag = 0 ∧
        (P.head.weighted_pred_flag ≠ 0 ∧ s.slice_type = 1 ∨ P.head.weighted_bipred_flag ≠ 0 ∧ s.slice_type = 0)) := by omega
  have c7 : (s.dependent_slice_segment_flag = 0 ∧ actOffsetsPresent P ≠ 0) ↔ (s.dependent_slice_segment_flag = 0 ∧ s.act_qp_offsets_present ≠ 0) := by
    by_cases hc : s.dependent_slice_segment_flag = 0
    · rw [hv.act_qp_offsets_present.present hc, slicePpsActFlag_eq hP]
    · exact ⟨fun h => absurd h.1 hc, fun h => absurd h.1 hc⟩
  have c8 : (s.dependent_slice_segment_flag = 0 ∧ S.sample_adaptive_offset_enabled_flag ≠ 0 ∧ chromaArrayType S ≠ 0) ↔
      (s.dependent_slice_segment_flag = 0 ∧ S.sample_adaptive_offset_enabled_flag ≠ 0 ∧ sliceChromaArrayType S ≠ 0) := by
    by_cases hc : S.sample_adaptive_offset_enabled_flag ≠ 0
    · rw [chromaArrayType_eq hS hc]
    · exact ⟨fun h => absurd h.2.1 hc, fun h => absurd h.2.1 hc⟩
  have c9 := loopFilter_iff (P := P) hv.slice_deblocking_filter_disabled_flag.absent hs
  rw [e1, cond_congr c1, cond_neg c2, cond_congr c3, cond_congr c4, cond_congr c5, cond_congr c6, e2, cond_congr c7, cond_congr c7, cond_congr c7,
    cond_congr c8, cond_congr c9]
  have hnb : Spec.cond (s.dependent_slice_segment_flag = 0) (noBits s.act_qp_offsets_present) = [] := cond_nil _
  rw [hnb]
  simp only [List.nil_append]

end H265.Std
