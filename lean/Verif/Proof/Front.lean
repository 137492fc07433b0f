/- The first syntax elements of parameter sets, whatever follows them (C84). -/
import Verif.Proof.SliceStart
import Verif.Proof.Vps
import Verif.Proof.Pps
import Verif.Spec.Front

set_option autoImplicit false

namespace H265
open Spec
codec_opaque
attribute [local irreducible] uAddress

theorem PostOn.check_bind {β : Type} {c : Prop} [Decidable c] {f : Unit → Prog β} {Q : β → Prop} {w : List Bool} (h : c → PostOn (f ()) w Q) :
    PostOn (Prog.check c >>= f) w Q := by
  intro r b r' hr
  rw [Prog.denote_bind] at hr
  by_cases hc : c
  · have : (Prog.check c).denote (w ++ r) = .ok () (w ++ r) := by simp [Prog.check, hc, Prog.denote]
    rw [this] at hr
    exact h hc r b r' hr
  · have : (Prog.check c).denote (w ++ r) = .fail (w ++ r) := by simp [Prog.check, hc, Prog.denote]
    rw [this] at hr
    cases hr

/-- the bits of an SPS up to vui_parameters_present_flag -/
def spsFront (s : SpsBody) : List Bool :=
  seq [u 4 s.sps_video_parameter_set_id,
    u 3 s.sps_max_sub_layers_minus1,
    u 1 s.sps_temporal_id_nesting_flag,
    profileTierLevel s.profile_tier_level,
    ue s.sps_seq_parameter_set_id,
    ue s.chroma_format_idc,
    Spec.cond (s.chroma_format_idc = 3) (u 1 s.separate_colour_plane_flag),
    ue s.pic_width_in_luma_samples,
    ue s.pic_height_in_luma_samples,
    u 1 s.conformance_window_flag,
    Spec.cond (s.conformance_window_flag ≠ 0) (ue s.conf_win_left_offset),
    Spec.cond (s.conformance_window_flag ≠ 0) (ue s.conf_win_right_offset),
    Spec.cond (s.conformance_window_flag ≠ 0) (ue s.conf_win_top_offset),
    Spec.cond (s.conformance_window_flag ≠ 0) (ue s.conf_win_bottom_offset),
    ue s.bit_depth_luma_minus8,
    ue s.bit_depth_chroma_minus8,
    ue s.log2_max_pic_order_cnt_lsb_minus4,
    u 1 s.sps_sub_layer_ordering_info_present_flag,
    list spsSubLayerOrdering s.sub_layer_ordering,
    ue s.log2_min_luma_coding_block_size_minus3,
    ue s.log2_diff_max_min_luma_coding_block_size,
    ue s.log2_min_luma_transform_block_size_minus2,
    ue s.log2_diff_max_min_luma_transform_block_size,
    ue s.max_transform_hierarchy_depth_inter,
    ue s.max_transform_hierarchy_depth_intra,
    u 1 s.scaling_list_enabled_flag,
    Spec.cond (s.scaling_list_enabled_flag ≠ 0) (u 1 s.sps_scaling_list_data_present_flag),
    optional scalingListData s.scaling_list_data,
    u 1 s.amp_enabled_flag,
    u 1 s.sample_adaptive_offset_enabled_flag,
    u 1 s.pcm_enabled_flag,
    Spec.cond (s.pcm_enabled_flag ≠ 0) (u 4 s.pcm_sample_bit_depth_luma_minus1),
    Spec.cond (s.pcm_enabled_flag ≠ 0) (u 4 s.pcm_sample_bit_depth_chroma_minus1),
    Spec.cond (s.pcm_enabled_flag ≠ 0) (ue s.log2_min_pcm_luma_coding_block_size_minus3),
    Spec.cond (s.pcm_enabled_flag ≠ 0) (ue s.log2_diff_max_min_pcm_luma_coding_block_size),
    Spec.cond (s.pcm_enabled_flag ≠ 0) (u 1 s.pcm_loop_filter_disabled_flag),
    ue s.num_short_term_ref_pic_sets,
    stRefPicSets s.num_short_term_ref_pic_sets s.st_ref_pic_set,
    u 1 s.long_term_ref_pics_present_flag,
    Spec.cond (s.long_term_ref_pics_present_flag ≠ 0) (ue s.num_long_term_ref_pics_sps),
    list (ltRefPicSps (s.log2_max_pic_order_cnt_lsb_minus4 + 4)) s.lt_ref_pics,
    u 1 s.sps_temporal_mvp_enabled_flag,
    u 1 s.strong_intra_smoothing_enabled_flag,
    u 1 s.vui_parameters_present_flag]

/-- the bits of a VPS up to vps_num_hrd_parameters -/
def vpsFront (s : VpsBody) : List Bool :=
  seq [u 4 s.vps_video_parameter_set_id,
    u 1 s.vps_base_layer_internal_flag,
    u 1 s.vps_base_layer_available_flag,
    u 6 s.vps_max_layers_minus1,
    u 3 s.vps_max_sub_layers_minus1,
    u 1 s.vps_temporal_id_nesting_flag,
    u 16 s.vps_reserved_0xffff_16bits,
    profileTierLevel s.profile_tier_level,
    u 1 s.vps_sub_layer_ordering_info_present_flag,
    list subLayerOrdering s.sub_layer_ordering,
    u 6 s.vps_max_layer_id,
    ue s.vps_num_layer_sets_minus1,
    list (list (u 1)) s.layer_id_included_flag,
    u 1 s.vps_timing_info_present_flag,
    Spec.cond (s.vps_timing_info_present_flag ≠ 0) (u 32 s.vps_num_units_in_tick),
    Spec.cond (s.vps_timing_info_present_flag ≠ 0) (u 32 s.vps_time_scale),
    Spec.cond (s.vps_timing_info_present_flag ≠ 0) (u 1 s.vps_poc_proportional_to_timing_flag),
    Spec.cond (s.vps_timing_info_present_flag ≠ 0 ∧ s.vps_poc_proportional_to_timing_flag ≠ 0) (ue s.vps_num_ticks_poc_diff_one_minus1),
    Spec.cond (s.vps_timing_info_present_flag ≠ 0) (ue s.vps_num_hrd_parameters)]

set_option maxHeartbeats 2000000 in
theorem spsBody_front {s : SpsBody} (hv : ValidSpsBody (Std.noVui s)) (hvui : s.vui_parameters_present_flag < 2 ^ 1) :
    PostOn parseSpsBody (spsFront s) (fun b => Std.SameSps b s) := by
  obtain ⟨⟩ := s
  obtain ⟨⟩ := hv
  simp only [Std.noVui] at *
  unfold parseSpsBody
  simp only [spsFront, Spec.seq, List.flatten_cons, List.flatten_nil]
  iterate 46 (first | (refine PostOn.check_bind fun _ => ?_) | (refine Codec.post_bind (by codec) (by with_reducible rfl) ?_ ?_; assumption) | fail)
  refine PostOn.of ?_
  repeat refine Post.bind fun _ => ?_
  exact Post.pure ⟨rfl, rfl⟩

set_option maxHeartbeats 2000000 in
theorem vpsBody_front {s : VpsBody} (hv : ValidVpsBody (Std.noHrd s))
    (hn : Opt (s.vps_timing_info_present_flag ≠ 0) (0 ≤ s.vps_num_hrd_parameters ∧ s.vps_num_hrd_parameters ≤ s.vps_num_layer_sets_minus1 + 1) (s.vps_num_hrd_parameters = 0)) :
    PostOn parseVpsBody (vpsFront s) (fun b => Std.SameVps b s) := by
  obtain ⟨⟩ := s
  obtain ⟨⟩ := hv
  simp only [Std.noHrd] at *
  unfold parseVpsBody
  simp only [vpsFront, Spec.seq, List.flatten_cons, List.flatten_nil]
  iterate 20 (first | (refine PostOn.check_bind fun _ => ?_) | (refine Codec.post_bind (by codec) (by with_reducible rfl) ?_ ?_; assumption) | fail)
  refine PostOn.of ?_
  repeat refine Post.bind fun _ => ?_
  exact Post.pure ⟨rfl, rfl⟩

/-- the conditions of `ValidPpsHead` for a PPS that may have a range extension -/
theorem ppsHead_front {s : PpsHead} (hv : ValidPpsHead { s with pps_range_extension_flag := 0 })
    (hr : Opt (s.pps_extension_present_flag ≠ 0) (s.pps_range_extension_flag < 2 ^ 1) (s.pps_range_extension_flag = 0)) :
    PostOn parsePpsHead (Spec.ppsHead s) (fun b => b = s) := by
  obtain ⟨⟩ := s
  obtain ⟨⟩ := hv
  simp only at *
  unfold parsePpsHead
  simp only [Spec.ppsHead, Spec.seq, List.flatten_cons, List.flatten_nil]
  iterate 46 (first | (refine PostOn.check_bind fun _ => ?_) | (refine Codec.post_bind (by codec) (by with_reducible rfl) ?_ ?_; assumption) | fail)
  exact PostOn.of (Post.pure rfl)

theorem ppsBody_front {s : PpsHead} (hv : ValidPpsHead { s with pps_range_extension_flag := 0 })
    (hr : Opt (s.pps_extension_present_flag ≠ 0) (s.pps_range_extension_flag < 2 ^ 1) (s.pps_range_extension_flag = 0)) :
    PostOn parsePpsBody (Spec.ppsHead s) (fun b => b.head = s) := by
  intro r b r' h
  unfold parsePpsBody at h
  rw [Prog.denote_bind] at h
  have hp := ppsHead_front hv hr r
  revert h hp
  cases parsePpsHead.denote (Spec.ppsHead s ++ r) with
  | ok a r1 =>
    intro h hp
    have := hp a r1 rfl
    subst this
    revert h
    refine Post.bind (Q := fun b : PpsBody => b.head = a) (fun _ => ?_) r1 b r'
    repeat refine Post.bind fun _ => ?_
    exact Post.pure rfl
  | fail r1 => intro h; cases h
  | bad k => intro h; cases h

end H265

namespace H265.Std
open Spec

theorem FrontSps.valid {ptl : StdPtl} {s : SpsBody} (h : FrontSps ptl s) : ValidSpsBody (noVui s) :=
  h.conforms.valid ⟨h.ptl, fun x hx => by cases hx⟩

theorem FrontVps.valid {ptl : StdPtl} {s : VpsBody} (h : FrontVps ptl s) : ValidVpsBody (noHrd s) := h.conforms.valid h.ptl rfl

theorem spsFront_eq {ptl : StdPtl} {s : SpsBody} (h : FrontSps ptl s) : spsFront ptl s = H265.spsFront s := by
  have hv := h.valid
  have hp := h.conforms.profile_tier_level.2
  unfold spsFront H265.spsFront
  rw [profileTierLevel_eq h.ptl, show s.profile_tier_level = ptl.reported s.sps_max_sub_layers_minus1 from hp,
    optional_congr (o := s.scaling_list_data) fun x hx => scalingListData_eq (hv.scaling_list_data.valid x hx)]
  have h1 : list (fun o : SpsSubLayerOrdering => seq [ue o.sps_max_dec_pic_buffering_minus1, ue o.sps_max_num_reorder_pics, ue o.sps_max_latency_increase_plus1])
      s.sub_layer_ordering = list spsSubLayerOrdering s.sub_layer_ordering := rfl
  have h2 : list (fun e : LtRefPicSps => seq [u (s.log2_max_pic_order_cnt_lsb_minus4 + 4) e.lt_ref_pic_poc_lsb_sps, u 1 e.used_by_curr_pic_lt_sps_flag])
      s.lt_ref_pics = list (ltRefPicSps (s.log2_max_pic_order_cnt_lsb_minus4 + 4)) s.lt_ref_pics := rfl
  rw [h1, h2]
  have e2 : Spec.cond (s.sps_scaling_list_data_present_flag ≠ 0) (optional Spec.scalingListData s.scaling_list_data) = optional Spec.scalingListData s.scaling_list_data :=
    cond_optional hv.scaling_list_data Spec.scalingListData
  have h3 : (s.scaling_list_enabled_flag ≠ 0 ∧ s.sps_scaling_list_data_present_flag ≠ 0) ↔ s.sps_scaling_list_data_present_flag ≠ 0 :=
    ⟨And.right, fun h => ⟨fun h0 => h (hv.sps_scaling_list_data_present_flag.absent (fun hc => hc h0)), h⟩⟩
  have h4 : Spec.cond (s.long_term_ref_pics_present_flag ≠ 0) (list (ltRefPicSps (s.log2_max_pic_order_cnt_lsb_minus4 + 4)) s.lt_ref_pics) =
      list (ltRefPicSps (s.log2_max_pic_order_cnt_lsb_minus4 + 4)) s.lt_ref_pics := by
    by_cases hc : s.long_term_ref_pics_present_flag ≠ 0
    · exact cond_pos hc _
    · have hl : s.lt_ref_pics.length = s.num_long_term_ref_pics_sps := hv.lt_ref_pics.length
      rw [show s.num_long_term_ref_pics_sps = 0 from hv.num_long_term_ref_pics_sps.absent hc] at hl
      rw [List.length_eq_zero_iff.mp hl, cond_neg hc]; rfl
  std_norm
  rw [cond_congr h3, e2, h4]

theorem vpsFront_eq {ptl : StdPtl} {s : VpsBody} (h : FrontVps ptl s) : vpsFront ptl s = H265.vpsFront s := by
  have hp := h.conforms.profile_tier_level.2
  unfold vpsFront H265.vpsFront
  rw [profileTierLevel_eq h.ptl, show s.profile_tier_level = ptl.reported s.vps_max_sub_layers_minus1 from hp]
  have h1 : list (fun o : SubLayerOrdering => seq [ue o.max_dec_pic_buffering_minus1, ue o.max_num_reorder_pics, ue o.max_latency_increase_plus1])
      s.sub_layer_ordering = list subLayerOrdering s.sub_layer_ordering := rfl
  rw [h1]
  std_norm

theorem ppsFront_eq {s : PpsHead} (hv : ValidPpsHead { s with pps_range_extension_flag := 0 }) : ppsFront s = Spec.ppsHead s := by
  unfold ppsFront Spec.ppsHead
  rw [optional_congr (o := s.scaling_list_data) fun x hx => scalingListData_eq (hv.scaling_list_data.valid x hx)]
  have e1 : Spec.cond (s.pps_scaling_list_data_present_flag ≠ 0) (optional Spec.scalingListData s.scaling_list_data) = optional Spec.scalingListData s.scaling_list_data :=
    cond_optional hv.scaling_list_data Spec.scalingListData
  std_norm
  rw [e1]

/-! ### the first part of the whole -/

theorem sps_front (ptl : StdPtl) (s : SpsBody) : ∃ w, Std.sps ptl s = spsFront ptl s ++ w := by
  unfold Std.sps spsFront
  simp only [seq_cons, seq_nil, List.append_assoc, List.append_nil]
  exact ⟨_, rfl⟩

theorem pps_front (s : PpsBody) : ∃ w, Std.pps s = ppsFront s.head ++ w := by
  unfold Std.pps ppsFront
  simp only [seq_cons, seq_nil, List.append_assoc, List.append_nil]
  exact ⟨_, rfl⟩

theorem vps_front {ptl : StdPtl} {s : VpsBody} : ∃ w, Std.vps ptl s = vpsFront ptl s ++ w := by
  unfold Std.vps vpsFront
  by_cases hc : s.vps_timing_info_present_flag ≠ 0
  · simp only [seq_cons, seq_nil, List.append_assoc, List.append_nil, ifThen, if_pos hc]
    exact ⟨_, rfl⟩
  · simp only [seq_cons, seq_nil, List.append_assoc, List.append_nil, ifThen, if_neg hc, List.nil_append]
    exact ⟨_, rfl⟩

theorem ConformsSpsBody.front {ptl : StdPtl} {s : SpsBody} (h : ConformsSpsBody ptl s) (hs : SupportedPtl ptl) : FrontSps ptl s where
  conforms := { h with
    vui_parameters_present_flag := Nat.zero_lt_succ _
    vui_parameters := ⟨by simp [noVui], fun x hx => by cases hx⟩
    sps_extension_present_flag := Nat.zero_lt_succ _
    sps_range_extension_flag := ⟨fun _ => Nat.zero_lt_succ _, fun _ => rfl⟩
    sps_multilayer_extension_flag := ⟨fun _ => Nat.zero_lt_succ _, fun _ => rfl⟩
    sps_3d_extension_flag := ⟨fun _ => Nat.zero_lt_succ _, fun _ => rfl⟩
    sps_scc_extension_flag := ⟨fun _ => Nat.zero_lt_succ _, fun _ => rfl⟩
    sps_extension_4bits := ⟨fun _ => Nat.zero_lt_succ _, fun _ => rfl⟩
    sps_range_extension := ⟨by simp [noVui], fun x hx => by cases hx⟩
    sps_multilayer_extension := ⟨by simp [noVui], fun x hx => by cases hx⟩
    sps_3d_extension := ⟨by simp [noVui], fun x hx => by cases hx⟩
    sps_scc_extension := ⟨by simp [noVui], fun x hx => by cases hx⟩
    default_display_window := fun v hv => by cases hv }
  ptl := hs
  vui_parameters_present_flag := by have := h.vui_parameters_present_flag; omega

theorem ConformsVpsBody.front {ptl : StdPtl} {s : VpsBody} (h : ConformsVpsBody ptl s) (hs : SupportedPtl ptl) : FrontVps ptl s where
  conforms := { h with
    vps_num_hrd_parameters := ⟨fun _ => Nat.zero_le _, fun _ => rfl⟩
    hrds := ⟨rfl, fun i x hx => by simp [noHrd] at hx⟩
    vps_extension_flag := Nat.zero_lt_succ _ }
  ptl := hs
  vps_num_hrd_parameters := h.vps_num_hrd_parameters

theorem ConformsPpsHead.front {s : PpsHead} (h : ConformsPpsHead s) : ValidPpsHead { s with pps_range_extension_flag := 0 } :=
  ConformsPpsHead.valid { h with pps_range_extension_flag := ⟨fun _ => Nat.zero_lt_succ _, fun _ => rfl⟩ } rfl

end H265.Std
