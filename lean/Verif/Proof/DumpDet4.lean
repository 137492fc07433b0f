/-
The texts of the parameter sets determine what they show.  (Generated by a script from the tables of names, after the helper lemmas.)
-/
import Verif.Proof.DumpDet3

set_option autoImplicit false

namespace H265
open Spec

theorem det_hex4 {name : String} {v w : Nat} : Det (entry name ["0x".toList ++ hexadecimal 4 v]) (entry name ["0x".toList ++ hexadecimal 4 w]) (v = w) :=
  det_entry (fun _ _ e => ⟨hexadecimal_inj (List.append_cancel_left (List.cons.inj e).1), (List.cons.inj e).2⟩)

theorem getLast?_isSome {α : Type} (l : List α) : l.getLast?.isSome = decide (l.length ≠ 0) := by
  cases l with
  | nil => rfl
  | cons x l => simp [List.getLast?_cons]

theorem hrds_nil {n m : Nat} {l : List VpsHrd} (h : EachI n (fun i => ValidVpsHrd i m) l) (hn : n = 0) : l = [] :=
  List.length_eq_zero_iff.1 (h.length.trans hn)

theorem hrds_bound {n m : Nat} {l : List VpsHrd} {f : VpsHrd → Nat} (h : EachI n (fun i => ValidVpsHrd i m) l) (hf : ∀ i x, ValidVpsHrd i m x → f x < 2 ^ 32) :
    ∀ v ∈ l.map f, v < 2 ^ 32 := by
  intro v hv
  obtain ⟨x, hx, rfl⟩ := List.mem_map.1 hv
  obtain ⟨i, hi⟩ := List.mem_iff_getElem?.1 hx
  exact hf i x (h.valid i x hi)

theorem map_getLast? {α β : Type} {l m : List α} {f : α → β} (h : l.map f = m.map f) {x y : α} (hx : l.getLast? = some x) (hy : m.getLast? = some y) : f x = f y := by
  have := congrArg List.getLast? h
  rw [List.getLast?_map, List.getLast?_map, hx, hy] at this
  exact Option.some.inj this

theorem det_lastHrd {n n' m : Nat} {l k : List VpsHrd} (ha : EachI n (fun i => ValidVpsHrd i m) l) (hb : EachI n' (fun i => ValidVpsHrd i m) k)
    (e : l.map (·.cprms_present_flag) = k.map (·.cprms_present_flag)) {x y : VpsHrd} (hx : l.getLast? = some x) (hy : k.getLast? = some y) :
    Det (textHrd x.cprms_present_flag x.hrd_parameters) (textHrd y.cprms_present_flag y.hrd_parameters) (x.hrd_parameters = y.hrd_parameters) := by
  have c := map_getLast? e hx hy
  obtain ⟨i, hi⟩ := List.mem_iff_getElem?.1 (List.mem_of_getLast? hx)
  obtain ⟨j, hj⟩ := List.mem_iff_getElem?.1 (List.mem_of_getLast? hy)
  have vb := (hb.valid j y hj).hrd_parameters
  rw [← c] at vb ⊢
  exact det_Hrd (ha.valid i x hi).hrd_parameters vb

theorem shownHrds_cons (x y : VpsHrd) (l : List VpsHrd) : shownHrds (x :: y :: l) = { x with hrd_parameters := default } :: shownHrds (y :: l) := by
  simp [shownHrds, List.dropLast]

theorem shownHrds_ext : ∀ {l k : List VpsHrd}, l.map (·.hrd_layer_set_idx) = k.map (·.hrd_layer_set_idx) → l.map (·.cprms_present_flag) = k.map (·.cprms_present_flag) →
    (∀ x y, l.getLast? = some x → k.getLast? = some y → x.hrd_parameters = y.hrd_parameters) → shownHrds l = shownHrds k
  | [], [], _, _, _ => rfl
  | [], _ :: _, h, _, _ => by cases h
  | _ :: _, [], h, _, _ => by cases h
  | [x], [y], h1, h2, h3 => by
    have := h3 x y rfl rfl
    obtain ⟨a, b, c⟩ := x; obtain ⟨a', b', c'⟩ := y
    simp_all
  | [_], _ :: _ :: _, h, _, _ => by simp at h
  | _ :: _ :: _, [_], h, _, _ => by simp at h
  | x :: x' :: l, y :: y' :: k, h1, h2, h3 => by
    rw [shownHrds_cons, shownHrds_cons]
    have h1' := List.cons.inj h1
    have h2' := List.cons.inj h2
    rw [shownHrds_ext (l := x' :: l) (k := y' :: k) h1'.2 h2'.2 (fun a b ha hb => h3 a b (by rw [List.getLast?_cons_cons]; exact ha) (by rw [List.getLast?_cons_cons]; exact hb)),
      show x.hrd_layer_set_idx = y.hrd_layer_set_idx from h1'.1, show x.cprms_present_flag = y.cprms_present_flag from h2'.1]

theorem shown_ext {α : Type} {o o' : Option α} {f : α → α} (hs : o.isSome = o'.isSome) (h : ∀ x y, o = some x → o' = some y → f x = f y) : o.map f = o'.map f := by
  cases o <;> cases o' <;> simp_all

theorem det_scaling {c : Prop} {o o' : Option ScalingListData} (ha : Maybe c ValidScalingListData o) (hb : Maybe c ValidScalingListData o') :
    Det (some? o textScalingListData) (some? o' textScalingListData) (o.map ScalingListData.shown = o'.map ScalingListData.shown) :=
  (det_some (ha.same hb Iff.rfl) (fun x y hx hy => det_ScalingListData (ha.valid x hx) (hb.valid y hy))).mono (shown_ext (ha.same hb Iff.rfl))

/-- the values of the records that are present, and which of them are -/
theorem present_col {α β : Type} {l m : List α} {g : α → Option β} (hp : l.map (fun x => (g x).isSome) = m.map (fun x => (g x).isSome))
    (h : l.filterMap g = m.filterMap g) : l.map g = m.map g := by
  refine present_ext (by simpa [Function.comp_def] using hp) ?_
  rw [List.filterMap_map, List.filterMap_map]
  exact h

theorem flags_isSome {α β : Type} {l m : List α} {g : α → Option β} {f : α → Nat} (hl : ∀ x ∈ l, ((g x).isSome = true ↔ f x ≠ 0)) (hm : ∀ x ∈ m, ((g x).isSome = true ↔ f x ≠ 0))
    (h : l.map f = m.map f) : l.map (fun x => (g x).isSome) = m.map (fun x => (g x).isSome) := by
  have k : ∀ {l : List α}, (∀ x ∈ l, ((g x).isSome = true ↔ f x ≠ 0)) → l.map (fun x => (g x).isSome) = (l.map f).map (fun n => decide (n ≠ 0)) := by
    intro l hl
    rw [List.map_map]
    refine List.map_congr_left (fun x hx => ?_)
    have := hl x hx
    cases hg : (g x).isSome <;> simp_all
  rw [k hl, k hm, h]

theorem refLocOffsets_ext {n : Nat} {l m : List RefLocOffset} (ha : Each n ValidRefLocOffset l) (hb : Each n ValidRefLocOffset m)
    (h1 : l.map (·.ref_loc_offset_layer_id) = m.map (·.ref_loc_offset_layer_id))
    (h2 : l.map (·.scaled_ref_layer_offset_present_flag) = m.map (·.scaled_ref_layer_offset_present_flag))
    (h3 : l.filterMap (·.scaled_ref_layer_offset) = m.filterMap (·.scaled_ref_layer_offset))
    (h4 : l.map (·.ref_region_offset_present_flag) = m.map (·.ref_region_offset_present_flag))
    (h5 : l.filterMap (·.ref_region_offset) = m.filterMap (·.ref_region_offset))
    (h6 : l.map (·.resample_phase_set_present_flag) = m.map (·.resample_phase_set_present_flag))
    (h7 : l.filterMap (·.resample_phase_set) = m.filterMap (·.resample_phase_set)) : l = m := by
  have c3 := present_col (flags_isSome (fun x hx => (ha.valid x hx).scaled_ref_layer_offset.present) (fun x hx => (hb.valid x hx).scaled_ref_layer_offset.present) h2) h3
  have c5 := present_col (flags_isSome (fun x hx => (ha.valid x hx).ref_region_offset.present) (fun x hx => (hb.valid x hx).ref_region_offset.present) h4) h5
  have c7 := present_col (flags_isSome (fun x hx => (ha.valid x hx).resample_phase_set.present) (fun x hx => (hb.valid x hx).resample_phase_set.present) h6) h7
  exact cols_inj (f := fun x : RefLocOffset => (x.ref_loc_offset_layer_id, x.scaled_ref_layer_offset_present_flag, x.scaled_ref_layer_offset, x.ref_region_offset_present_flag, x.ref_region_offset, x.resample_phase_set_present_flag, x.resample_phase_set))
    (by rintro ⟨⟩ ⟨⟩ h; simp_all) (cols h1 (cols h2 (cols c3 (cols h4 (cols c5 (cols h6 c7))))))

theorem det_PpsMultilayerExtension {s t : PpsMultilayerExtension} (ha : ValidPpsMultilayerExtension s) (hb : ValidPpsMultilayerExtension t) :
    Det (textPpsMultilayerExtension s) (textPpsMultilayerExtension t) (s = t) := by
  obtain ⟨a1, a2, a3, a4, a5, a6⟩ := s
  obtain ⟨b1, b2, b3, b4, b5, b6⟩ := t
  obtain ⟨va1, va2, va3, va4, va5, va6, va7⟩ := ha
  obtain ⟨vb1, vb2, vb3, vb4, vb5, vb6, vb7⟩ := hb
  dsimp only at *
  unfold textPpsMultilayerExtension
  dsimp only
  refine det_block (fun r r' h1 => ?_)
  replace h1 := step (det_u32 (by bd va1) (by bd vb1)) h1
  obtain ⟨rfl, h1⟩ := h1
  replace h1 := step (det_u32 (by bd va2) (by bd vb2)) h1
  obtain ⟨rfl, h1⟩ := h1
  replace h1 := step (P := a3 = b3) (det_when (fun hc r r' h3 => by
      replace h3 := step (det_u32 (by bd va3) (by bd vb3)) h3
      exact ⟨h3.1, steps_nil h3.2⟩) (fun hn => (va3.absent hn).trans (vb3.absent hn).symm)) h1
  obtain ⟨rfl, h1⟩ := h1
  replace h1 := step (det_u32 (by bd va4) (by bd vb4)) h1
  obtain ⟨rfl, h1⟩ := h1
  replace h1 := step (P := a5 = b5) (det_when (fun hc r r' h3 => by
      obtain ⟨e1, h3⟩ := step (det_list32 (by intro x hx; obtain ⟨y, hy, rfl⟩ := List.mem_map.1 hx; bd (va5.valid y hy).ref_loc_offset_layer_id) (by intro x hx; obtain ⟨y, hy, rfl⟩ := List.mem_map.1 hx; bd (vb5.valid y hy).ref_loc_offset_layer_id)) h3
      obtain ⟨e2, h3⟩ := step (det_list32 (by intro x hx; obtain ⟨y, hy, rfl⟩ := List.mem_map.1 hx; bd (va5.valid y hy).scaled_ref_layer_offset_present_flag) (by intro x hx; obtain ⟨y, hy, rfl⟩ := List.mem_map.1 hx; bd (vb5.valid y hy).scaled_ref_layer_offset_present_flag)) h3
      obtain ⟨c1, h3⟩ := step det_list h3
      obtain ⟨c2, h3⟩ := step det_list h3
      obtain ⟨c3, h3⟩ := step det_list h3
      obtain ⟨c4, h3⟩ := step det_list h3
      have e3 := cols_inj (f := fun x : RefLayerOffsets => (x.scaled_ref_layer_left_offset, x.scaled_ref_layer_top_offset, x.scaled_ref_layer_right_offset, x.scaled_ref_layer_bottom_offset)) (by rintro ⟨⟩ ⟨⟩ h; simp_all) (cols c1 (cols c2 (cols c3 c4)))
      obtain ⟨e4, h3⟩ := step det_listNat h3
      obtain ⟨c1, h3⟩ := step det_list h3
      obtain ⟨c2, h3⟩ := step det_list h3
      obtain ⟨c3, h3⟩ := step det_list h3
      obtain ⟨c4, h3⟩ := step det_list h3
      have e5 := cols_inj (f := fun x : RefRegionOffsets => (x.ref_region_left_offset, x.ref_region_top_offset, x.ref_region_right_offset, x.ref_region_bottom_offset)) (by rintro ⟨⟩ ⟨⟩ h; simp_all) (cols c1 (cols c2 (cols c3 c4)))
      obtain ⟨e6, h3⟩ := step det_listNat h3
      obtain ⟨c1, h3⟩ := step det_list h3
      obtain ⟨c2, h3⟩ := step det_list h3
      obtain ⟨c3, h3⟩ := step det_list h3
      obtain ⟨c4, h3⟩ := step det_list h3
      have e7 := cols_inj (f := fun x : ResamplePhase => (x.phase_hor_luma, x.phase_ver_luma, x.phase_hor_chroma_plus8, x.phase_ver_chroma_plus8)) (by rintro ⟨⟩ ⟨⟩ h; simp_all) (cols c1 (cols c2 (cols c3 c4)))
      exact ⟨refLocOffsets_ext va5 vb5 e1 e2 e3 e4 e5 e6 e7, steps_nil h3⟩) (fun hn => by
      have x := va5.length; have y := vb5.length
      rw [List.length_eq_zero_iff.1 (x.trans (by omega)), List.length_eq_zero_iff.1 (y.trans (by omega))])) h1
  obtain ⟨rfl, h1⟩ := h1
  replace h1 := step (det_u32 (by bd va6) (by bd vb6)) h1
  obtain ⟨rfl, h1⟩ := h1
  exact ⟨rfl, steps_nil h1⟩

theorem det_Vps {v w : Vps} (ha : ValidVpsBody v.body) (hb : ValidVpsBody w.body) (xa : v.vps_extension_data_flag < 2 ^ 32) (xb : w.vps_extension_data_flag < 2 ^ 32) :
    Det (textVps v) (textVps w) (v.shown = w.shown) := by
  obtain ⟨⟨a_vps_video_parameter_set_id, a_vps_base_layer_internal_flag, a_vps_base_layer_available_flag, a_vps_max_layers_minus1, a_vps_max_sub_layers_minus1, a_vps_temporal_id_nesting_flag, a_vps_reserved_0xffff_16bits, a_profile_tier_level, a_vps_sub_layer_ordering_info_present_flag, a_sub_layer_ordering, a_vps_max_layer_id, a_vps_num_layer_sets_minus1, a_layer_id_included_flag, a_vps_timing_info_present_flag, a_vps_num_units_in_tick, a_vps_time_scale, a_vps_poc_proportional_to_timing_flag, a_vps_num_ticks_poc_diff_one_minus1, a_vps_num_hrd_parameters, a_hrds, a_vps_extension_flag⟩, a_x⟩ := v
  obtain ⟨⟨b_vps_video_parameter_set_id, b_vps_base_layer_internal_flag, b_vps_base_layer_available_flag, b_vps_max_layers_minus1, b_vps_max_sub_layers_minus1, b_vps_temporal_id_nesting_flag, b_vps_reserved_0xffff_16bits, b_profile_tier_level, b_vps_sub_layer_ordering_info_present_flag, b_sub_layer_ordering, b_vps_max_layer_id, b_vps_num_layer_sets_minus1, b_layer_id_included_flag, b_vps_timing_info_present_flag, b_vps_num_units_in_tick, b_vps_time_scale, b_vps_poc_proportional_to_timing_flag, b_vps_num_ticks_poc_diff_one_minus1, b_vps_num_hrd_parameters, b_hrds, b_vps_extension_flag⟩, b_x⟩ := w
  obtain ⟨va_vps_video_parameter_set_id, va_vps_base_layer_internal_flag, va_vps_base_layer_available_flag, va_vps_max_layers_minus1, va_vps_max_sub_layers_minus1, va_vps_temporal_id_nesting_flag, va_vps_reserved_0xffff_16bits, va_profile_tier_level, va_vps_sub_layer_ordering_info_present_flag, va_sub_layer_ordering, va_vps_max_layer_id, va_vps_max_layer_id_le, va_vps_num_layer_sets_minus1, va_layer_id_included_flag, va_vps_timing_info_present_flag, va_vps_num_units_in_tick, va_vps_time_scale, va_vps_poc_proportional_to_timing_flag, va_vps_num_ticks_poc_diff_one_minus1, va_vps_num_hrd_parameters, va_hrds, va_vps_extension_flag⟩ := ha
  obtain ⟨vb_vps_video_parameter_set_id, vb_vps_base_layer_internal_flag, vb_vps_base_layer_available_flag, vb_vps_max_layers_minus1, vb_vps_max_sub_layers_minus1, vb_vps_temporal_id_nesting_flag, vb_vps_reserved_0xffff_16bits, vb_profile_tier_level, vb_vps_sub_layer_ordering_info_present_flag, vb_sub_layer_ordering, vb_vps_max_layer_id, vb_vps_max_layer_id_le, vb_vps_num_layer_sets_minus1, vb_layer_id_included_flag, vb_vps_timing_info_present_flag, vb_vps_num_units_in_tick, vb_vps_time_scale, vb_vps_poc_proportional_to_timing_flag, vb_vps_num_ticks_poc_diff_one_minus1, vb_vps_num_hrd_parameters, vb_hrds, vb_vps_extension_flag⟩ := hb
  dsimp only at *
  unfold textVps
  dsimp only
  refine det_block (fun r r' h1 => ?_)
  replace h1 := step (det_u32 (by bd va_vps_video_parameter_set_id) (by bd vb_vps_video_parameter_set_id)) h1
  obtain ⟨rfl, h1⟩ := h1
  replace h1 := step (det_u32 (by bd va_vps_base_layer_internal_flag) (by bd vb_vps_base_layer_internal_flag)) h1
  obtain ⟨rfl, h1⟩ := h1
  replace h1 := step (det_u32 (by bd va_vps_base_layer_available_flag) (by bd vb_vps_base_layer_available_flag)) h1
  obtain ⟨rfl, h1⟩ := h1
  replace h1 := step (det_u32 (by bd va_vps_max_layers_minus1) (by bd vb_vps_max_layers_minus1)) h1
  obtain ⟨rfl, h1⟩ := h1
  replace h1 := step (det_u32 (by bd va_vps_max_sub_layers_minus1) (by bd vb_vps_max_sub_layers_minus1)) h1
  obtain ⟨rfl, h1⟩ := h1
  replace h1 := step (det_u32 (by bd va_vps_temporal_id_nesting_flag) (by bd vb_vps_temporal_id_nesting_flag)) h1
  obtain ⟨rfl, h1⟩ := h1
  replace h1 := step (det_hex4) h1
  obtain ⟨rfl, h1⟩ := h1
  replace h1 := step (det_Ptl va_profile_tier_level vb_profile_tier_level) h1
  obtain ⟨rfl, h1⟩ := h1
  replace h1 := step (det_u32 (by bd va_vps_sub_layer_ordering_info_present_flag) (by bd vb_vps_sub_layer_ordering_info_present_flag)) h1
  obtain ⟨rfl, h1⟩ := h1
  replace h1 := step (det_list32 (by intro x hx; obtain ⟨y, hy, rfl⟩ := List.mem_map.1 hx; bd (va_sub_layer_ordering.valid y hy).max_dec_pic_buffering_minus1) (by intro x hx; obtain ⟨y, hy, rfl⟩ := List.mem_map.1 hx; bd (vb_sub_layer_ordering.valid y hy).max_dec_pic_buffering_minus1)) h1
  obtain ⟨e_sub_layer_ordering_max_dec_pic_buffering_minus1, h1⟩ := h1
  replace h1 := step (det_list32 (by intro x hx; obtain ⟨y, hy, rfl⟩ := List.mem_map.1 hx; bd (va_sub_layer_ordering.valid y hy).max_num_reorder_pics) (by intro x hx; obtain ⟨y, hy, rfl⟩ := List.mem_map.1 hx; bd (vb_sub_layer_ordering.valid y hy).max_num_reorder_pics)) h1
  obtain ⟨e_sub_layer_ordering_max_num_reorder_pics, h1⟩ := h1
  replace h1 := step (det_list32 (by intro x hx; obtain ⟨y, hy, rfl⟩ := List.mem_map.1 hx; bd (va_sub_layer_ordering.valid y hy).max_latency_increase_plus1) (by intro x hx; obtain ⟨y, hy, rfl⟩ := List.mem_map.1 hx; bd (vb_sub_layer_ordering.valid y hy).max_latency_increase_plus1)) h1
  obtain ⟨e_sub_layer_ordering_max_latency_increase_plus1, h1⟩ := h1
  obtain rfl := cols_inj (f := fun x : SubLayerOrdering => (x.max_dec_pic_buffering_minus1, x.max_num_reorder_pics, x.max_latency_increase_plus1)) (by rintro ⟨⟩ ⟨⟩ h1; simp_all) (cols e_sub_layer_ordering_max_dec_pic_buffering_minus1 (cols e_sub_layer_ordering_max_num_reorder_pics e_sub_layer_ordering_max_latency_increase_plus1))
  replace h1 := step (det_u32 (by bd va_vps_max_layer_id) (by bd vb_vps_max_layer_id)) h1
  obtain ⟨rfl, h1⟩ := h1
  replace h1 := step (det_u32 (by bd va_vps_num_layer_sets_minus1) (by bd vb_vps_num_layer_sets_minus1)) h1
  obtain ⟨rfl, h1⟩ := h1
  replace h1 := step (det_rows32 (by bdr va_layer_id_included_flag) (by bdr vb_layer_id_included_flag)) h1
  obtain ⟨rfl, h1⟩ := h1
  replace h1 := step (det_u32 (by bd va_vps_timing_info_present_flag) (by bd vb_vps_timing_info_present_flag)) h1
  obtain ⟨rfl, h1⟩ := h1
  replace h1 := step (det_u32 (by bd va_vps_num_units_in_tick) (by bd vb_vps_num_units_in_tick)) h1
  obtain ⟨rfl, h1⟩ := h1
  replace h1 := step (det_u32 (by bd va_vps_time_scale) (by bd vb_vps_time_scale)) h1
  obtain ⟨rfl, h1⟩ := h1
  replace h1 := step (det_u32 (by bd va_vps_poc_proportional_to_timing_flag) (by bd vb_vps_poc_proportional_to_timing_flag)) h1
  obtain ⟨rfl, h1⟩ := h1
  replace h1 := step (det_u32 (by bd va_vps_num_ticks_poc_diff_one_minus1) (by bd vb_vps_num_ticks_poc_diff_one_minus1)) h1
  obtain ⟨rfl, h1⟩ := h1
  replace h1 := step (det_u32 (by bd va_vps_num_hrd_parameters) (by bd vb_vps_num_hrd_parameters)) h1
  obtain ⟨rfl, h1⟩ := h1
  replace h1 := step (P := shownHrds a_hrds = shownHrds b_hrds) (det_when (fun hc r r' h3 => by
      replace h3 := step (det_list32 (hrds_bound va_hrds (fun i x v => by bd v.hrd_layer_set_idx)) (hrds_bound vb_hrds (fun i x v => by bd v.hrd_layer_set_idx))) h3
      obtain ⟨e1, h3⟩ := h3
      replace h3 := step (det_list32 (hrds_bound va_hrds (fun i x v => by bd v.cprms_present_flag)) (hrds_bound vb_hrds (fun i x v => by bd v.cprms_present_flag))) h3
      obtain ⟨e2, h3⟩ := h3
      replace h3 := step (det_some (E := fun x y => x.hrd_parameters = y.hrd_parameters) (by rw [getLast?_isSome, getLast?_isSome, va_hrds.length, vb_hrds.length]) (fun x y hx hy => det_lastHrd va_hrds vb_hrds e2 hx hy)) h3
      obtain ⟨e3, h3⟩ := h3
      exact ⟨shownHrds_ext e1 e2 e3, steps_nil h3⟩) (fun hn => by
      rw [hrds_nil va_hrds (by omega), hrds_nil vb_hrds (by omega)])) h1
  obtain ⟨e_hrds, h1⟩ := h1
  replace h1 := step (det_u32 (by bd va_vps_extension_flag) (by bd vb_vps_extension_flag)) h1
  obtain ⟨rfl, h1⟩ := h1
  replace h1 := step (det_u32 xa xb) h1
  obtain ⟨rfl, h1⟩ := h1
  exact ⟨by simp only [Vps.shown, e_hrds], steps_nil h1⟩

theorem det_Sps {o : Bool} {v w : Sps} (ha : ValidSpsBody v.body) (hb : ValidSpsBody w.body) :
    Det (textSps o v) (textSps o w) (v.shown = w.shown) := by
  obtain ⟨⟨a_sps_video_parameter_set_id, a_sps_max_sub_layers_minus1, a_sps_temporal_id_nesting_flag, a_profile_tier_level, a_sps_seq_parameter_set_id, a_chroma_format_idc, a_separate_colour_plane_flag, a_pic_width_in_luma_samples, a_pic_height_in_luma_samples, a_conformance_window_flag, a_conf_win_left_offset, a_conf_win_right_offset, a_conf_win_top_offset, a_conf_win_bottom_offset, a_bit_depth_luma_minus8, a_bit_depth_chroma_minus8, a_log2_max_pic_order_cnt_lsb_minus4, a_sps_sub_layer_ordering_info_present_flag, a_sub_layer_ordering, a_log2_min_luma_coding_block_size_minus3, a_log2_diff_max_min_luma_coding_block_size, a_log2_min_luma_transform_block_size_minus2, a_log2_diff_max_min_luma_transform_block_size, a_max_transform_hierarchy_depth_inter, a_max_transform_hierarchy_depth_intra, a_scaling_list_enabled_flag, a_sps_scaling_list_data_present_flag, a_scaling_list_data, a_amp_enabled_flag, a_sample_adaptive_offset_enabled_flag, a_pcm_enabled_flag, a_pcm_sample_bit_depth_luma_minus1, a_pcm_sample_bit_depth_chroma_minus1, a_log2_min_pcm_luma_coding_block_size_minus3, a_log2_diff_max_min_pcm_luma_coding_block_size, a_pcm_loop_filter_disabled_flag, a_num_short_term_ref_pic_sets, a_st_ref_pic_set, a_long_term_ref_pics_present_flag, a_num_long_term_ref_pics_sps, a_lt_ref_pics, a_sps_temporal_mvp_enabled_flag, a_strong_intra_smoothing_enabled_flag, a_vui_parameters_present_flag, a_vui_parameters, a_sps_extension_present_flag, a_sps_range_extension_flag, a_sps_multilayer_extension_flag, a_sps_3d_extension_flag, a_sps_scc_extension_flag, a_sps_extension_4bits, a_sps_range_extension, a_sps_multilayer_extension, a_sps_3d_extension, a_sps_scc_extension⟩, a_x⟩ := v
  obtain ⟨⟨b_sps_video_parameter_set_id, b_sps_max_sub_layers_minus1, b_sps_temporal_id_nesting_flag, b_profile_tier_level, b_sps_seq_parameter_set_id, b_chroma_format_idc, b_separate_colour_plane_flag, b_pic_width_in_luma_samples, b_pic_height_in_luma_samples, b_conformance_window_flag, b_conf_win_left_offset, b_conf_win_right_offset, b_conf_win_top_offset, b_conf_win_bottom_offset, b_bit_depth_luma_minus8, b_bit_depth_chroma_minus8, b_log2_max_pic_order_cnt_lsb_minus4, b_sps_sub_layer_ordering_info_present_flag, b_sub_layer_ordering, b_log2_min_luma_coding_block_size_minus3, b_log2_diff_max_min_luma_coding_block_size, b_log2_min_luma_transform_block_size_minus2, b_log2_diff_max_min_luma_transform_block_size, b_max_transform_hierarchy_depth_inter, b_max_transform_hierarchy_depth_intra, b_scaling_list_enabled_flag, b_sps_scaling_list_data_present_flag, b_scaling_list_data, b_amp_enabled_flag, b_sample_adaptive_offset_enabled_flag, b_pcm_enabled_flag, b_pcm_sample_bit_depth_luma_minus1, b_pcm_sample_bit_depth_chroma_minus1, b_log2_min_pcm_luma_coding_block_size_minus3, b_log2_diff_max_min_pcm_luma_coding_block_size, b_pcm_loop_filter_disabled_flag, b_num_short_term_ref_pic_sets, b_st_ref_pic_set, b_long_term_ref_pics_present_flag, b_num_long_term_ref_pics_sps, b_lt_ref_pics, b_sps_temporal_mvp_enabled_flag, b_strong_intra_smoothing_enabled_flag, b_vui_parameters_present_flag, b_vui_parameters, b_sps_extension_present_flag, b_sps_range_extension_flag, b_sps_multilayer_extension_flag, b_sps_3d_extension_flag, b_sps_scc_extension_flag, b_sps_extension_4bits, b_sps_range_extension, b_sps_multilayer_extension, b_sps_3d_extension, b_sps_scc_extension⟩, b_x⟩ := w
  obtain ⟨va_sps_video_parameter_set_id, va_sps_max_sub_layers_minus1, va_sps_temporal_id_nesting_flag, va_profile_tier_level, va_sps_seq_parameter_set_id, va_chroma_format_idc, va_separate_colour_plane_flag, va_pic_width_in_luma_samples, va_pic_width_multiple, va_pic_height_in_luma_samples, va_pic_height_multiple, va_conformance_window_flag, va_conf_win_left_offset, va_conf_win_right_offset, va_conf_win_top_offset, va_conf_win_bottom_offset, va_bit_depth_luma_minus8, va_bit_depth_chroma_minus8, va_log2_max_pic_order_cnt_lsb_minus4, va_sps_sub_layer_ordering_info_present_flag, va_sub_layer_ordering, va_log2_min_luma_coding_block_size_minus3, va_log2_diff_max_min_luma_coding_block_size, va_log2_min_luma_transform_block_size_minus2, va_log2_diff_max_min_luma_transform_block_size, va_max_transform_hierarchy_depth_inter, va_max_transform_hierarchy_depth_intra, va_scaling_list_enabled_flag, va_sps_scaling_list_data_present_flag, va_scaling_list_data, va_amp_enabled_flag, va_sample_adaptive_offset_enabled_flag, va_pcm_enabled_flag, va_pcm_sample_bit_depth_luma_minus1, va_pcm_sample_bit_depth_chroma_minus1, va_log2_min_pcm_luma_coding_block_size_minus3, va_log2_diff_max_min_pcm_luma_coding_block_size, va_pcm_loop_filter_disabled_flag, va_num_short_term_ref_pic_sets, va_st_ref_pic_set, va_long_term_ref_pics_present_flag, va_num_long_term_ref_pics_sps, va_lt_ref_pics, va_sps_temporal_mvp_enabled_flag, va_strong_intra_smoothing_enabled_flag, va_vui_parameters_present_flag, va_vui_parameters, va_sps_extension_present_flag, va_sps_range_extension_flag, va_sps_multilayer_extension_flag, va_sps_3d_extension_flag, va_sps_scc_extension_flag, va_sps_extension_4bits, va_sps_range_extension, va_sps_multilayer_extension, va_sps_3d_extension, va_sps_scc_extension⟩ := ha
  obtain ⟨vb_sps_video_parameter_set_id, vb_sps_max_sub_layers_minus1, vb_sps_temporal_id_nesting_flag, vb_profile_tier_level, vb_sps_seq_parameter_set_id, vb_chroma_format_idc, vb_separate_colour_plane_flag, vb_pic_width_in_luma_samples, vb_pic_width_multiple, vb_pic_height_in_luma_samples, vb_pic_height_multiple, vb_conformance_window_flag, vb_conf_win_left_offset, vb_conf_win_right_offset, vb_conf_win_top_offset, vb_conf_win_bottom_offset, vb_bit_depth_luma_minus8, vb_bit_depth_chroma_minus8, vb_log2_max_pic_order_cnt_lsb_minus4, vb_sps_sub_layer_ordering_info_present_flag, vb_sub_layer_ordering, vb_log2_min_luma_coding_block_size_minus3, vb_log2_diff_max_min_luma_coding_block_size, vb_log2_min_luma_transform_block_size_minus2, vb_log2_diff_max_min_luma_transform_block_size, vb_max_transform_hierarchy_depth_inter, vb_max_transform_hierarchy_depth_intra, vb_scaling_list_enabled_flag, vb_sps_scaling_list_data_present_flag, vb_scaling_list_data, vb_amp_enabled_flag, vb_sample_adaptive_offset_enabled_flag, vb_pcm_enabled_flag, vb_pcm_sample_bit_depth_luma_minus1, vb_pcm_sample_bit_depth_chroma_minus1, vb_log2_min_pcm_luma_coding_block_size_minus3, vb_log2_diff_max_min_pcm_luma_coding_block_size, vb_pcm_loop_filter_disabled_flag, vb_num_short_term_ref_pic_sets, vb_st_ref_pic_set, vb_long_term_ref_pics_present_flag, vb_num_long_term_ref_pics_sps, vb_lt_ref_pics, vb_sps_temporal_mvp_enabled_flag, vb_strong_intra_smoothing_enabled_flag, vb_vui_parameters_present_flag, vb_vui_parameters, vb_sps_extension_present_flag, vb_sps_range_extension_flag, vb_sps_multilayer_extension_flag, vb_sps_3d_extension_flag, vb_sps_scc_extension_flag, vb_sps_extension_4bits, vb_sps_range_extension, vb_sps_multilayer_extension, vb_sps_3d_extension, vb_sps_scc_extension⟩ := hb
  dsimp only at *
  unfold textSps
  dsimp only
  refine det_block (fun r r' h1 => ?_)
  replace h1 := step (det_u32 (by bd va_sps_video_parameter_set_id) (by bd vb_sps_video_parameter_set_id)) h1
  obtain ⟨rfl, h1⟩ := h1
  replace h1 := step (det_u32 (by bd va_sps_max_sub_layers_minus1) (by bd vb_sps_max_sub_layers_minus1)) h1
  obtain ⟨rfl, h1⟩ := h1
  replace h1 := step (det_u32 (by bd va_sps_temporal_id_nesting_flag) (by bd vb_sps_temporal_id_nesting_flag)) h1
  obtain ⟨rfl, h1⟩ := h1
  replace h1 := step (det_Ptl va_profile_tier_level vb_profile_tier_level) h1
  obtain ⟨rfl, h1⟩ := h1
  replace h1 := step (det_u32 (by bd va_sps_seq_parameter_set_id) (by bd vb_sps_seq_parameter_set_id)) h1
  obtain ⟨rfl, h1⟩ := h1
  replace h1 := step (det_u32 (by bd va_chroma_format_idc) (by bd vb_chroma_format_idc)) h1
  obtain ⟨rfl, h1⟩ := h1
  replace h1 := step (P := a_separate_colour_plane_flag = b_separate_colour_plane_flag) (det_when (fun hc r r' h3 => by
      replace h3 := step (det_u32 (by bd va_separate_colour_plane_flag) (by bd vb_separate_colour_plane_flag)) h3
      obtain ⟨rfl, h3⟩ := h3
      exact ⟨rfl, steps_nil h3⟩) (fun hn => by
      have x_separate_colour_plane_flag := va_separate_colour_plane_flag.absent (by cnd); have y_separate_colour_plane_flag := vb_separate_colour_plane_flag.absent (by cnd)
      exact x_separate_colour_plane_flag.trans y_separate_colour_plane_flag.symm)) h1
  obtain ⟨rfl, h1⟩ := h1
  replace h1 := step (det_u32 (by bd va_pic_width_in_luma_samples) (by bd vb_pic_width_in_luma_samples)) h1
  obtain ⟨rfl, h1⟩ := h1
  replace h1 := step (det_u32 (by bd va_pic_height_in_luma_samples) (by bd vb_pic_height_in_luma_samples)) h1
  obtain ⟨rfl, h1⟩ := h1
  replace h1 := step (det_u32 (by bd va_conformance_window_flag) (by bd vb_conformance_window_flag)) h1
  obtain ⟨rfl, h1⟩ := h1
  replace h1 := step (P := a_conf_win_left_offset = b_conf_win_left_offset ∧ a_conf_win_right_offset = b_conf_win_right_offset ∧ a_conf_win_top_offset = b_conf_win_top_offset ∧ a_conf_win_bottom_offset = b_conf_win_bottom_offset) (det_when (fun hc r r' h3 => by
      replace h3 := step (det_u32 (by bd va_conf_win_left_offset) (by bd vb_conf_win_left_offset)) h3
      obtain ⟨rfl, h3⟩ := h3
      replace h3 := step (det_u32 (by bd va_conf_win_right_offset) (by bd vb_conf_win_right_offset)) h3
      obtain ⟨rfl, h3⟩ := h3
      replace h3 := step (det_u32 (by bd va_conf_win_top_offset) (by bd vb_conf_win_top_offset)) h3
      obtain ⟨rfl, h3⟩ := h3
      replace h3 := step (det_u32 (by bd va_conf_win_bottom_offset) (by bd vb_conf_win_bottom_offset)) h3
      obtain ⟨rfl, h3⟩ := h3
      exact ⟨⟨rfl, rfl, rfl, rfl⟩, steps_nil h3⟩) (fun hn => by
      have x_conf_win_left_offset := va_conf_win_left_offset.absent (by cnd); have y_conf_win_left_offset := vb_conf_win_left_offset.absent (by cnd)
      have x_conf_win_right_offset := va_conf_win_right_offset.absent (by cnd); have y_conf_win_right_offset := vb_conf_win_right_offset.absent (by cnd)
      have x_conf_win_top_offset := va_conf_win_top_offset.absent (by cnd); have y_conf_win_top_offset := vb_conf_win_top_offset.absent (by cnd)
      have x_conf_win_bottom_offset := va_conf_win_bottom_offset.absent (by cnd); have y_conf_win_bottom_offset := vb_conf_win_bottom_offset.absent (by cnd)
      exact ⟨x_conf_win_left_offset.trans y_conf_win_left_offset.symm, x_conf_win_right_offset.trans y_conf_win_right_offset.symm, x_conf_win_top_offset.trans y_conf_win_top_offset.symm, x_conf_win_bottom_offset.trans y_conf_win_bottom_offset.symm⟩)) h1
  obtain ⟨⟨rfl, rfl, rfl, rfl⟩, h1⟩ := h1
  replace h1 := step (det_u32 (by bd va_bit_depth_luma_minus8) (by bd vb_bit_depth_luma_minus8)) h1
  obtain ⟨rfl, h1⟩ := h1
  replace h1 := step (det_u32 (by bd va_bit_depth_chroma_minus8) (by bd vb_bit_depth_chroma_minus8)) h1
  obtain ⟨rfl, h1⟩ := h1
  replace h1 := step (det_u32 (by bd va_log2_max_pic_order_cnt_lsb_minus4) (by bd vb_log2_max_pic_order_cnt_lsb_minus4)) h1
  obtain ⟨rfl, h1⟩ := h1
  replace h1 := step (det_u32 (by bd va_sps_sub_layer_ordering_info_present_flag) (by bd vb_sps_sub_layer_ordering_info_present_flag)) h1
  obtain ⟨rfl, h1⟩ := h1
  replace h1 := step (det_list32 (by intro x hx; obtain ⟨y, hy, rfl⟩ := List.mem_map.1 hx; bd (va_sub_layer_ordering.valid y hy).sps_max_dec_pic_buffering_minus1) (by intro x hx; obtain ⟨y, hy, rfl⟩ := List.mem_map.1 hx; bd (vb_sub_layer_ordering.valid y hy).sps_max_dec_pic_buffering_minus1)) h1
  obtain ⟨e_sub_layer_ordering_sps_max_dec_pic_buffering_minus1, h1⟩ := h1
  replace h1 := step (det_list32 (by intro x hx; obtain ⟨y, hy, rfl⟩ := List.mem_map.1 hx; bd (va_sub_layer_ordering.valid y hy).sps_max_num_reorder_pics) (by intro x hx; obtain ⟨y, hy, rfl⟩ := List.mem_map.1 hx; bd (vb_sub_layer_ordering.valid y hy).sps_max_num_reorder_pics)) h1
  obtain ⟨e_sub_layer_ordering_sps_max_num_reorder_pics, h1⟩ := h1
  replace h1 := step (det_list32 (by intro x hx; obtain ⟨y, hy, rfl⟩ := List.mem_map.1 hx; bd (va_sub_layer_ordering.valid y hy).sps_max_latency_increase_plus1) (by intro x hx; obtain ⟨y, hy, rfl⟩ := List.mem_map.1 hx; bd (vb_sub_layer_ordering.valid y hy).sps_max_latency_increase_plus1)) h1
  obtain ⟨e_sub_layer_ordering_sps_max_latency_increase_plus1, h1⟩ := h1
  obtain rfl := cols_inj (f := fun x : SpsSubLayerOrdering => (x.sps_max_dec_pic_buffering_minus1, x.sps_max_num_reorder_pics, x.sps_max_latency_increase_plus1)) (by rintro ⟨⟩ ⟨⟩ h1; simp_all) (cols e_sub_layer_ordering_sps_max_dec_pic_buffering_minus1 (cols e_sub_layer_ordering_sps_max_num_reorder_pics e_sub_layer_ordering_sps_max_latency_increase_plus1))
  replace h1 := step (det_u32 (by bd va_log2_min_luma_coding_block_size_minus3) (by bd vb_log2_min_luma_coding_block_size_minus3)) h1
  obtain ⟨rfl, h1⟩ := h1
  replace h1 := step (det_u32 (by bd va_log2_diff_max_min_luma_coding_block_size) (by bd vb_log2_diff_max_min_luma_coding_block_size)) h1
  obtain ⟨rfl, h1⟩ := h1
  replace h1 := step (det_u32 (by bd va_log2_min_luma_transform_block_size_minus2) (by bd vb_log2_min_luma_transform_block_size_minus2)) h1
  obtain ⟨rfl, h1⟩ := h1
  replace h1 := step (det_u32 (by bd va_log2_diff_max_min_luma_transform_block_size) (by bd vb_log2_diff_max_min_luma_transform_block_size)) h1
  obtain ⟨rfl, h1⟩ := h1
  replace h1 := step (det_u32 (by bd va_max_transform_hierarchy_depth_inter) (by bd vb_max_transform_hierarchy_depth_inter)) h1
  obtain ⟨rfl, h1⟩ := h1
  replace h1 := step (det_u32 (by bd va_max_transform_hierarchy_depth_intra) (by bd vb_max_transform_hierarchy_depth_intra)) h1
  obtain ⟨rfl, h1⟩ := h1
  replace h1 := step (det_u32 (by bd va_scaling_list_enabled_flag) (by bd vb_scaling_list_enabled_flag)) h1
  obtain ⟨rfl, h1⟩ := h1
  replace h1 := step (P := a_sps_scaling_list_data_present_flag = b_sps_scaling_list_data_present_flag ∧ a_scaling_list_data.map ScalingListData.shown = b_scaling_list_data.map ScalingListData.shown) (det_when (fun hc r r' h3 => by
      replace h3 := step (det_u32 (by bd va_sps_scaling_list_data_present_flag) (by bd vb_sps_scaling_list_data_present_flag)) h3
      obtain ⟨rfl, h3⟩ := h3
      replace h3 := step (det_when (fun hc r r' h5 => by
          replace h5 := step (det_scaling va_scaling_list_data vb_scaling_list_data) h5
          obtain ⟨e, h5⟩ := h5
          exact ⟨e, steps_nil h5⟩) (fun hn => by rw [va_scaling_list_data.none hn, vb_scaling_list_data.none hn])) h3
      obtain ⟨e, h3⟩ := h3
      exact ⟨⟨rfl, e⟩, steps_nil h3⟩) (fun hn => by
      have x := va_sps_scaling_list_data_present_flag.absent hn; have y := vb_sps_scaling_list_data_present_flag.absent hn
      rw [va_scaling_list_data.none (by omega), vb_scaling_list_data.none (by omega)]
      exact ⟨x.trans y.symm, rfl⟩)) h1
  obtain ⟨⟨rfl, e_sl⟩, h1⟩ := h1
  replace h1 := step (det_u32 (by bd va_amp_enabled_flag) (by bd vb_amp_enabled_flag)) h1
  obtain ⟨rfl, h1⟩ := h1
  replace h1 := step (det_u32 (by bd va_sample_adaptive_offset_enabled_flag) (by bd vb_sample_adaptive_offset_enabled_flag)) h1
  obtain ⟨rfl, h1⟩ := h1
  replace h1 := step (det_u32 (by bd va_pcm_enabled_flag) (by bd vb_pcm_enabled_flag)) h1
  obtain ⟨rfl, h1⟩ := h1
  replace h1 := step (P := a_pcm_sample_bit_depth_luma_minus1 = b_pcm_sample_bit_depth_luma_minus1 ∧ a_pcm_sample_bit_depth_chroma_minus1 = b_pcm_sample_bit_depth_chroma_minus1 ∧ a_log2_min_pcm_luma_coding_block_size_minus3 = b_log2_min_pcm_luma_coding_block_size_minus3 ∧ a_log2_diff_max_min_pcm_luma_coding_block_size = b_log2_diff_max_min_pcm_luma_coding_block_size ∧ a_pcm_loop_filter_disabled_flag = b_pcm_loop_filter_disabled_flag) (det_when (fun hc r r' h3 => by
      replace h3 := step (det_u32 (by bd va_pcm_sample_bit_depth_luma_minus1) (by bd vb_pcm_sample_bit_depth_luma_minus1)) h3
      obtain ⟨rfl, h3⟩ := h3
      replace h3 := step (det_u32 (by bd va_pcm_sample_bit_depth_chroma_minus1) (by bd vb_pcm_sample_bit_depth_chroma_minus1)) h3
      obtain ⟨rfl, h3⟩ := h3
      replace h3 := step (det_u32 (by bd va_log2_min_pcm_luma_coding_block_size_minus3) (by bd vb_log2_min_pcm_luma_coding_block_size_minus3)) h3
      obtain ⟨rfl, h3⟩ := h3
      replace h3 := step (det_u32 (by bd va_log2_diff_max_min_pcm_luma_coding_block_size) (by bd vb_log2_diff_max_min_pcm_luma_coding_block_size)) h3
      obtain ⟨rfl, h3⟩ := h3
      replace h3 := step (det_u32 (by bd va_pcm_loop_filter_disabled_flag) (by bd vb_pcm_loop_filter_disabled_flag)) h3
      obtain ⟨rfl, h3⟩ := h3
      exact ⟨⟨rfl, rfl, rfl, rfl, rfl⟩, steps_nil h3⟩) (fun hn => by
      have x_pcm_sample_bit_depth_luma_minus1 := va_pcm_sample_bit_depth_luma_minus1.absent (by cnd); have y_pcm_sample_bit_depth_luma_minus1 := vb_pcm_sample_bit_depth_luma_minus1.absent (by cnd)
      have x_pcm_sample_bit_depth_chroma_minus1 := va_pcm_sample_bit_depth_chroma_minus1.absent (by cnd); have y_pcm_sample_bit_depth_chroma_minus1 := vb_pcm_sample_bit_depth_chroma_minus1.absent (by cnd)
      have x_log2_min_pcm_luma_coding_block_size_minus3 := va_log2_min_pcm_luma_coding_block_size_minus3.absent (by cnd); have y_log2_min_pcm_luma_coding_block_size_minus3 := vb_log2_min_pcm_luma_coding_block_size_minus3.absent (by cnd)
      have x_log2_diff_max_min_pcm_luma_coding_block_size := va_log2_diff_max_min_pcm_luma_coding_block_size.absent (by cnd); have y_log2_diff_max_min_pcm_luma_coding_block_size := vb_log2_diff_max_min_pcm_luma_coding_block_size.absent (by cnd)
      have x_pcm_loop_filter_disabled_flag := va_pcm_loop_filter_disabled_flag.absent (by cnd); have y_pcm_loop_filter_disabled_flag := vb_pcm_loop_filter_disabled_flag.absent (by cnd)
      exact ⟨x_pcm_sample_bit_depth_luma_minus1.trans y_pcm_sample_bit_depth_luma_minus1.symm, x_pcm_sample_bit_depth_chroma_minus1.trans y_pcm_sample_bit_depth_chroma_minus1.symm, x_log2_min_pcm_luma_coding_block_size_minus3.trans y_log2_min_pcm_luma_coding_block_size_minus3.symm, x_log2_diff_max_min_pcm_luma_coding_block_size.trans y_log2_diff_max_min_pcm_luma_coding_block_size.symm, x_pcm_loop_filter_disabled_flag.trans y_pcm_loop_filter_disabled_flag.symm⟩)) h1
  obtain ⟨⟨rfl, rfl, rfl, rfl, rfl⟩, h1⟩ := h1
  replace h1 := step (det_u32 (by bd va_num_short_term_ref_pic_sets) (by bd vb_num_short_term_ref_pic_sets)) h1
  obtain ⟨rfl, h1⟩ := h1
  replace h1 := step (det_StRefPicSets (by decide) va_st_ref_pic_set vb_st_ref_pic_set) h1
  obtain ⟨rfl, h1⟩ := h1
  replace h1 := step (det_u32 (by bd va_long_term_ref_pics_present_flag) (by bd vb_long_term_ref_pics_present_flag)) h1
  obtain ⟨rfl, h1⟩ := h1
  replace h1 := step (P := a_num_long_term_ref_pics_sps = b_num_long_term_ref_pics_sps ∧ a_lt_ref_pics = b_lt_ref_pics) (det_when (fun hc r r' h3 => by
      replace h3 := step (det_u32 (by bd va_num_long_term_ref_pics_sps) (by bd vb_num_long_term_ref_pics_sps)) h3
      obtain ⟨rfl, h3⟩ := h3
      replace h3 := step (det_list32 (by intro x hx; obtain ⟨y, hy, rfl⟩ := List.mem_map.1 hx; bd (va_lt_ref_pics.valid y hy).lt_ref_pic_poc_lsb_sps) (by intro x hx; obtain ⟨y, hy, rfl⟩ := List.mem_map.1 hx; bd (vb_lt_ref_pics.valid y hy).lt_ref_pic_poc_lsb_sps)) h3
      obtain ⟨e_lt_ref_pics_lt_ref_pic_poc_lsb_sps, h3⟩ := h3
      replace h3 := step (det_list32 (by intro x hx; obtain ⟨y, hy, rfl⟩ := List.mem_map.1 hx; bd (va_lt_ref_pics.valid y hy).used_by_curr_pic_lt_sps_flag) (by intro x hx; obtain ⟨y, hy, rfl⟩ := List.mem_map.1 hx; bd (vb_lt_ref_pics.valid y hy).used_by_curr_pic_lt_sps_flag)) h3
      obtain ⟨e_lt_ref_pics_used_by_curr_pic_lt_sps_flag, h3⟩ := h3
      obtain rfl := cols_inj (f := fun x : LtRefPicSps => (x.lt_ref_pic_poc_lsb_sps, x.used_by_curr_pic_lt_sps_flag)) (by rintro ⟨⟩ ⟨⟩ h3; simp_all) (cols e_lt_ref_pics_lt_ref_pic_poc_lsb_sps e_lt_ref_pics_used_by_curr_pic_lt_sps_flag)
      exact ⟨⟨rfl, rfl⟩, steps_nil h3⟩) (fun hn => by
      have x_num_long_term_ref_pics_sps := va_num_long_term_ref_pics_sps.absent (by cnd); have y_num_long_term_ref_pics_sps := vb_num_long_term_ref_pics_sps.absent (by cnd)
      have x_lt_ref_pics := List.length_eq_zero_iff.1 (va_lt_ref_pics.length.trans x_num_long_term_ref_pics_sps); have y_lt_ref_pics := List.length_eq_zero_iff.1 (vb_lt_ref_pics.length.trans y_num_long_term_ref_pics_sps)
      exact ⟨x_num_long_term_ref_pics_sps.trans y_num_long_term_ref_pics_sps.symm, x_lt_ref_pics.trans y_lt_ref_pics.symm⟩)) h1
  obtain ⟨⟨rfl, rfl⟩, h1⟩ := h1
  replace h1 := step (det_u32 (by bd va_sps_temporal_mvp_enabled_flag) (by bd vb_sps_temporal_mvp_enabled_flag)) h1
  obtain ⟨rfl, h1⟩ := h1
  replace h1 := step (det_u32 (by bd va_strong_intra_smoothing_enabled_flag) (by bd vb_strong_intra_smoothing_enabled_flag)) h1
  obtain ⟨rfl, h1⟩ := h1
  replace h1 := step (det_u32 (by bd va_vui_parameters_present_flag) (by bd vb_vui_parameters_present_flag)) h1
  obtain ⟨rfl, h1⟩ := h1
  replace h1 := step (P := a_vui_parameters = b_vui_parameters) (det_when (fun hc r r' h3 => by
      replace h3 := step (det_someEq (va_vui_parameters.same vb_vui_parameters Iff.rfl) (fun x y hx hy => det_Vui (va_vui_parameters.valid x hx) (vb_vui_parameters.valid y hy))) h3
      obtain ⟨rfl, h3⟩ := h3
      exact ⟨rfl, steps_nil h3⟩) (fun hn => by
      have x_vui_parameters := va_vui_parameters.none (by cnd); have y_vui_parameters := vb_vui_parameters.none (by cnd)
      exact x_vui_parameters.trans y_vui_parameters.symm)) h1
  obtain ⟨rfl, h1⟩ := h1
  replace h1 := step (det_u32 (by bd va_sps_extension_present_flag) (by bd vb_sps_extension_present_flag)) h1
  obtain ⟨rfl, h1⟩ := h1
  replace h1 := step (P := a_sps_range_extension_flag = b_sps_range_extension_flag ∧ a_sps_multilayer_extension_flag = b_sps_multilayer_extension_flag ∧ a_sps_3d_extension_flag = b_sps_3d_extension_flag ∧ a_sps_scc_extension_flag = b_sps_scc_extension_flag ∧ a_sps_extension_4bits = b_sps_extension_4bits) (det_when (fun hc r r' h3 => by
      replace h3 := step (det_u32 (by bd va_sps_range_extension_flag) (by bd vb_sps_range_extension_flag)) h3
      obtain ⟨rfl, h3⟩ := h3
      replace h3 := step (det_u32 (by bd va_sps_multilayer_extension_flag) (by bd vb_sps_multilayer_extension_flag)) h3
      obtain ⟨rfl, h3⟩ := h3
      replace h3 := step (det_u32 (by bd va_sps_3d_extension_flag) (by bd vb_sps_3d_extension_flag)) h3
      obtain ⟨rfl, h3⟩ := h3
      replace h3 := step (det_u32 (by bd va_sps_scc_extension_flag) (by bd vb_sps_scc_extension_flag)) h3
      obtain ⟨rfl, h3⟩ := h3
      replace h3 := step (det_u32 (by bd va_sps_extension_4bits) (by bd vb_sps_extension_4bits)) h3
      obtain ⟨rfl, h3⟩ := h3
      exact ⟨⟨rfl, rfl, rfl, rfl, rfl⟩, steps_nil h3⟩) (fun hn => by
      have x_sps_range_extension_flag := va_sps_range_extension_flag.absent (by cnd); have y_sps_range_extension_flag := vb_sps_range_extension_flag.absent (by cnd)
      have x_sps_multilayer_extension_flag := va_sps_multilayer_extension_flag.absent (by cnd); have y_sps_multilayer_extension_flag := vb_sps_multilayer_extension_flag.absent (by cnd)
      have x_sps_3d_extension_flag := va_sps_3d_extension_flag.absent (by cnd); have y_sps_3d_extension_flag := vb_sps_3d_extension_flag.absent (by cnd)
      have x_sps_scc_extension_flag := va_sps_scc_extension_flag.absent (by cnd); have y_sps_scc_extension_flag := vb_sps_scc_extension_flag.absent (by cnd)
      have x_sps_extension_4bits := va_sps_extension_4bits.absent (by cnd); have y_sps_extension_4bits := vb_sps_extension_4bits.absent (by cnd)
      exact ⟨x_sps_range_extension_flag.trans y_sps_range_extension_flag.symm, x_sps_multilayer_extension_flag.trans y_sps_multilayer_extension_flag.symm, x_sps_3d_extension_flag.trans y_sps_3d_extension_flag.symm, x_sps_scc_extension_flag.trans y_sps_scc_extension_flag.symm, x_sps_extension_4bits.trans y_sps_extension_4bits.symm⟩)) h1
  obtain ⟨⟨rfl, rfl, rfl, rfl, rfl⟩, h1⟩ := h1
  replace h1 := step (P := a_sps_range_extension = b_sps_range_extension) (det_when (fun hc r r' h3 => by
      replace h3 := step (det_someEq (va_sps_range_extension.same vb_sps_range_extension Iff.rfl) (fun x y hx hy => det_SpsRangeExtension (va_sps_range_extension.valid x hx) (vb_sps_range_extension.valid y hy))) h3
      obtain ⟨rfl, h3⟩ := h3
      exact ⟨rfl, steps_nil h3⟩) (fun hn => by
      have x_sps_range_extension := va_sps_range_extension.none (by cnd); have y_sps_range_extension := vb_sps_range_extension.none (by cnd)
      exact x_sps_range_extension.trans y_sps_range_extension.symm)) h1
  obtain ⟨rfl, h1⟩ := h1
  replace h1 := step (P := a_sps_multilayer_extension = b_sps_multilayer_extension) (det_when (fun hc r r' h3 => by
      replace h3 := step (det_someEq (va_sps_multilayer_extension.same vb_sps_multilayer_extension Iff.rfl) (fun x y hx hy => det_SpsMultilayerExtension (va_sps_multilayer_extension.valid x hx) (vb_sps_multilayer_extension.valid y hy))) h3
      obtain ⟨rfl, h3⟩ := h3
      exact ⟨rfl, steps_nil h3⟩) (fun hn => by
      have x_sps_multilayer_extension := va_sps_multilayer_extension.none (by cnd); have y_sps_multilayer_extension := vb_sps_multilayer_extension.none (by cnd)
      exact x_sps_multilayer_extension.trans y_sps_multilayer_extension.symm)) h1
  obtain ⟨rfl, h1⟩ := h1
  replace h1 := step (P := a_sps_3d_extension = b_sps_3d_extension) (det_when (fun hc r r' h3 => by
      replace h3 := step (det_someEq (va_sps_3d_extension.same vb_sps_3d_extension Iff.rfl) (fun x y hx hy => det_Sps3dExtension (va_sps_3d_extension.valid x hx) (vb_sps_3d_extension.valid y hy))) h3
      obtain ⟨rfl, h3⟩ := h3
      exact ⟨rfl, steps_nil h3⟩) (fun hn => by
      have x_sps_3d_extension := va_sps_3d_extension.none (by cnd); have y_sps_3d_extension := vb_sps_3d_extension.none (by cnd)
      exact x_sps_3d_extension.trans y_sps_3d_extension.symm)) h1
  obtain ⟨rfl, h1⟩ := h1
  replace h1 := step (P := a_sps_scc_extension = b_sps_scc_extension) (det_when (fun hc r r' h3 => by
      replace h3 := step (det_someEq (va_sps_scc_extension.same vb_sps_scc_extension Iff.rfl) (fun x y hx hy => det_SpsSccExtension va_bit_depth_luma_minus8.2 va_bit_depth_chroma_minus8.2 (va_sps_scc_extension.valid x hx) (vb_sps_scc_extension.valid y hy))) h3
      obtain ⟨rfl, h3⟩ := h3
      exact ⟨rfl, steps_nil h3⟩) (fun hn => by
      have x_sps_scc_extension := va_sps_scc_extension.none (by cnd); have y_sps_scc_extension := vb_sps_scc_extension.none (by cnd)
      exact x_sps_scc_extension.trans y_sps_scc_extension.symm)) h1
  obtain ⟨rfl, h1⟩ := h1
  replace h1 := step (det_when (fun hc r r' h3 => by
      replace h3 := step (det_refl _) h3
      obtain ⟨-, h3⟩ := h3
      exact ⟨trivial, steps_nil h3⟩) (fun hn => trivial)) h1
  obtain ⟨-, h1⟩ := h1
  exact ⟨by simp only [Sps.shown, SpsBody.shown, e_sl], steps_nil h1⟩

theorem det_Pps {v w : Pps} (ha : ValidPpsBody v.body) (hb : ValidPpsBody w.body) :
    Det (textPps v) (textPps w) (v.shown = w.shown) := by
  obtain ⟨⟨⟨a_pps_pic_parameter_set_id, a_pps_seq_parameter_set_id, a_dependent_slice_segments_enabled_flag, a_output_flag_present_flag, a_num_extra_slice_header_bits, a_sign_data_hiding_enabled_flag, a_cabac_init_present_flag, a_num_ref_idx_l0_default_active_minus1, a_num_ref_idx_l1_default_active_minus1, a_init_qp_minus26, a_constrained_intra_pred_flag, a_transform_skip_enabled_flag, a_cu_qp_delta_enabled_flag, a_diff_cu_qp_delta_depth, a_pps_cb_qp_offset, a_pps_cr_qp_offset, a_pps_slice_chroma_qp_offsets_present_flag, a_weighted_pred_flag, a_weighted_bipred_flag, a_transquant_bypass_enabled_flag, a_tiles_enabled_flag, a_entropy_coding_sync_enabled_flag, a_num_tile_columns_minus1, a_num_tile_rows_minus1, a_uniform_spacing_flag, a_column_width_minus1, a_row_height_minus1, a_loop_filter_across_tiles_enabled_flag, a_pps_loop_filter_across_slices_enabled_flag, a_deblocking_filter_control_present_flag, a_deblocking_filter_override_enabled_flag, a_pps_deblocking_filter_disabled_flag, a_pps_beta_offset_div2, a_pps_tc_offset_div2, a_pps_scaling_list_data_present_flag, a_scaling_list_data, a_lists_modification_present_flag, a_log2_parallel_merge_level_minus2, a_slice_segment_header_extension_present_flag, a_pps_extension_present_flag, a_pps_range_extension_flag, a_pps_multilayer_extension_flag, a_pps_3d_extension_flag, a_pps_scc_extension_flag, a_pps_extension_4bits⟩, a_pps_multilayer_extension, a_pps_scc_extension⟩, a_x⟩ := v
  obtain ⟨⟨⟨b_pps_pic_parameter_set_id, b_pps_seq_parameter_set_id, b_dependent_slice_segments_enabled_flag, b_output_flag_present_flag, b_num_extra_slice_header_bits, b_sign_data_hiding_enabled_flag, b_cabac_init_present_flag, b_num_ref_idx_l0_default_active_minus1, b_num_ref_idx_l1_default_active_minus1, b_init_qp_minus26, b_constrained_intra_pred_flag, b_transform_skip_enabled_flag, b_cu_qp_delta_enabled_flag, b_diff_cu_qp_delta_depth, b_pps_cb_qp_offset, b_pps_cr_qp_offset, b_pps_slice_chroma_qp_offsets_present_flag, b_weighted_pred_flag, b_weighted_bipred_flag, b_transquant_bypass_enabled_flag, b_tiles_enabled_flag, b_entropy_coding_sync_enabled_flag, b_num_tile_columns_minus1, b_num_tile_rows_minus1, b_uniform_spacing_flag, b_column_width_minus1, b_row_height_minus1, b_loop_filter_across_tiles_enabled_flag, b_pps_loop_filter_across_slices_enabled_flag, b_deblocking_filter_control_present_flag, b_deblocking_filter_override_enabled_flag, b_pps_deblocking_filter_disabled_flag, b_pps_beta_offset_div2, b_pps_tc_offset_div2, b_pps_scaling_list_data_present_flag, b_scaling_list_data, b_lists_modification_present_flag, b_log2_parallel_merge_level_minus2, b_slice_segment_header_extension_present_flag, b_pps_extension_present_flag, b_pps_range_extension_flag, b_pps_multilayer_extension_flag, b_pps_3d_extension_flag, b_pps_scc_extension_flag, b_pps_extension_4bits⟩, b_pps_multilayer_extension, b_pps_scc_extension⟩, b_x⟩ := w
  obtain ⟨⟨va_pps_pic_parameter_set_id, va_pps_seq_parameter_set_id, va_dependent_slice_segments_enabled_flag, va_output_flag_present_flag, va_num_extra_slice_header_bits, va_sign_data_hiding_enabled_flag, va_cabac_init_present_flag, va_num_ref_idx_l0_default_active_minus1, va_num_ref_idx_l1_default_active_minus1, va_init_qp_minus26, va_constrained_intra_pred_flag, va_transform_skip_enabled_flag, va_cu_qp_delta_enabled_flag, va_diff_cu_qp_delta_depth, va_pps_cb_qp_offset, va_pps_cr_qp_offset, va_pps_slice_chroma_qp_offsets_present_flag, va_weighted_pred_flag, va_weighted_bipred_flag, va_transquant_bypass_enabled_flag, va_tiles_enabled_flag, va_entropy_coding_sync_enabled_flag, va_num_tile_columns_minus1, va_num_tile_rows_minus1, va_uniform_spacing_flag, va_column_width_minus1, va_row_height_minus1, va_loop_filter_across_tiles_enabled_flag, va_pps_loop_filter_across_slices_enabled_flag, va_deblocking_filter_control_present_flag, va_deblocking_filter_override_enabled_flag, va_pps_deblocking_filter_disabled_flag, va_pps_beta_offset_div2, va_pps_tc_offset_div2, va_pps_scaling_list_data_present_flag, va_scaling_list_data, va_lists_modification_present_flag, va_log2_parallel_merge_level_minus2, va_slice_segment_header_extension_present_flag, va_pps_extension_present_flag, va_pps_range_extension_flag, va_pps_multilayer_extension_flag, va_pps_3d_extension_flag, va_pps_scc_extension_flag, va_pps_extension_4bits, va_pps_range_extension_unsupported⟩, va_pps_multilayer_extension, va_3d, va_pps_scc_extension⟩ := ha
  obtain ⟨⟨vb_pps_pic_parameter_set_id, vb_pps_seq_parameter_set_id, vb_dependent_slice_segments_enabled_flag, vb_output_flag_present_flag, vb_num_extra_slice_header_bits, vb_sign_data_hiding_enabled_flag, vb_cabac_init_present_flag, vb_num_ref_idx_l0_default_active_minus1, vb_num_ref_idx_l1_default_active_minus1, vb_init_qp_minus26, vb_constrained_intra_pred_flag, vb_transform_skip_enabled_flag, vb_cu_qp_delta_enabled_flag, vb_diff_cu_qp_delta_depth, vb_pps_cb_qp_offset, vb_pps_cr_qp_offset, vb_pps_slice_chroma_qp_offsets_present_flag, vb_weighted_pred_flag, vb_weighted_bipred_flag, vb_transquant_bypass_enabled_flag, vb_tiles_enabled_flag, vb_entropy_coding_sync_enabled_flag, vb_num_tile_columns_minus1, vb_num_tile_rows_minus1, vb_uniform_spacing_flag, vb_column_width_minus1, vb_row_height_minus1, vb_loop_filter_across_tiles_enabled_flag, vb_pps_loop_filter_across_slices_enabled_flag, vb_deblocking_filter_control_present_flag, vb_deblocking_filter_override_enabled_flag, vb_pps_deblocking_filter_disabled_flag, vb_pps_beta_offset_div2, vb_pps_tc_offset_div2, vb_pps_scaling_list_data_present_flag, vb_scaling_list_data, vb_lists_modification_present_flag, vb_log2_parallel_merge_level_minus2, vb_slice_segment_header_extension_present_flag, vb_pps_extension_present_flag, vb_pps_range_extension_flag, vb_pps_multilayer_extension_flag, vb_pps_3d_extension_flag, vb_pps_scc_extension_flag, vb_pps_extension_4bits, vb_pps_range_extension_unsupported⟩, vb_pps_multilayer_extension, vb_3d, vb_pps_scc_extension⟩ := hb
  dsimp only at *
  unfold textPps
  dsimp only
  refine det_block (fun r r' h1 => ?_)
  replace h1 := step (det_u32 (by bd va_pps_pic_parameter_set_id) (by bd vb_pps_pic_parameter_set_id)) h1
  obtain ⟨rfl, h1⟩ := h1
  replace h1 := step (det_u32 (by bd va_pps_seq_parameter_set_id) (by bd vb_pps_seq_parameter_set_id)) h1
  obtain ⟨rfl, h1⟩ := h1
  replace h1 := step (det_u32 (by bd va_dependent_slice_segments_enabled_flag) (by bd vb_dependent_slice_segments_enabled_flag)) h1
  obtain ⟨rfl, h1⟩ := h1
  replace h1 := step (det_u32 (by bd va_output_flag_present_flag) (by bd vb_output_flag_present_flag)) h1
  obtain ⟨rfl, h1⟩ := h1
  replace h1 := step (det_u32 (by bd va_num_extra_slice_header_bits) (by bd vb_num_extra_slice_header_bits)) h1
  obtain ⟨rfl, h1⟩ := h1
  replace h1 := step (det_u32 (by bd va_sign_data_hiding_enabled_flag) (by bd vb_sign_data_hiding_enabled_flag)) h1
  obtain ⟨rfl, h1⟩ := h1
  replace h1 := step (det_u32 (by bd va_cabac_init_present_flag) (by bd vb_cabac_init_present_flag)) h1
  obtain ⟨rfl, h1⟩ := h1
  replace h1 := step (det_u32 (by bd va_num_ref_idx_l0_default_active_minus1) (by bd vb_num_ref_idx_l0_default_active_minus1)) h1
  obtain ⟨rfl, h1⟩ := h1
  replace h1 := step (det_u32 (by bd va_num_ref_idx_l1_default_active_minus1) (by bd vb_num_ref_idx_l1_default_active_minus1)) h1
  obtain ⟨rfl, h1⟩ := h1
  replace h1 := step (det_num) h1
  obtain ⟨rfl, h1⟩ := h1
  replace h1 := step (det_u32 (by bd va_constrained_intra_pred_flag) (by bd vb_constrained_intra_pred_flag)) h1
  obtain ⟨rfl, h1⟩ := h1
  replace h1 := step (det_u32 (by bd va_transform_skip_enabled_flag) (by bd vb_transform_skip_enabled_flag)) h1
  obtain ⟨rfl, h1⟩ := h1
  replace h1 := step (det_u32 (by bd va_cu_qp_delta_enabled_flag) (by bd vb_cu_qp_delta_enabled_flag)) h1
  obtain ⟨rfl, h1⟩ := h1
  replace h1 := step (P := True) (det_when (fun hc r r' h3 => by
      replace h3 := step (det_refl _) h3
      obtain ⟨-, h3⟩ := h3
      exact ⟨trivial, steps_nil h3⟩) (fun hn => by
      trivial)) h1
  obtain ⟨-, h1⟩ := h1
  replace h1 := step (det_num) h1
  obtain ⟨rfl, h1⟩ := h1
  replace h1 := step (det_num) h1
  obtain ⟨rfl, h1⟩ := h1
  replace h1 := step (det_u32 (by bd va_pps_slice_chroma_qp_offsets_present_flag) (by bd vb_pps_slice_chroma_qp_offsets_present_flag)) h1
  obtain ⟨rfl, h1⟩ := h1
  replace h1 := step (det_u32 (by bd va_weighted_pred_flag) (by bd vb_weighted_pred_flag)) h1
  obtain ⟨rfl, h1⟩ := h1
  replace h1 := step (det_u32 (by bd va_weighted_bipred_flag) (by bd vb_weighted_bipred_flag)) h1
  obtain ⟨rfl, h1⟩ := h1
  replace h1 := step (det_u32 (by bd va_transquant_bypass_enabled_flag) (by bd vb_transquant_bypass_enabled_flag)) h1
  obtain ⟨rfl, h1⟩ := h1
  replace h1 := step (det_u32 (by bd va_tiles_enabled_flag) (by bd vb_tiles_enabled_flag)) h1
  obtain ⟨rfl, h1⟩ := h1
  replace h1 := step (det_u32 (by bd va_entropy_coding_sync_enabled_flag) (by bd vb_entropy_coding_sync_enabled_flag)) h1
  obtain ⟨rfl, h1⟩ := h1
  replace h1 := step (P := a_num_tile_columns_minus1 = b_num_tile_columns_minus1 ∧ a_num_tile_rows_minus1 = b_num_tile_rows_minus1 ∧ a_uniform_spacing_flag = b_uniform_spacing_flag ∧ a_column_width_minus1 = b_column_width_minus1 ∧ a_row_height_minus1 = b_row_height_minus1 ∧ a_loop_filter_across_tiles_enabled_flag = b_loop_filter_across_tiles_enabled_flag) (det_when (fun hc r r' h3 => by
      replace h3 := step (det_u32 (by bd va_num_tile_columns_minus1) (by bd vb_num_tile_columns_minus1)) h3
      obtain ⟨rfl, h3⟩ := h3
      replace h3 := step (det_u32 (by bd va_num_tile_rows_minus1) (by bd vb_num_tile_rows_minus1)) h3
      obtain ⟨rfl, h3⟩ := h3
      replace h3 := step (det_u32 (by bd va_uniform_spacing_flag) (by bd vb_uniform_spacing_flag)) h3
      obtain ⟨rfl, h3⟩ := h3
      replace h3 := step (P := a_column_width_minus1 = b_column_width_minus1 ∧ a_row_height_minus1 = b_row_height_minus1) (det_when (fun hc r r' h5 => by
          replace h5 := step (det_list32 (by bdl va_column_width_minus1) (by bdl vb_column_width_minus1)) h5
          obtain ⟨rfl, h5⟩ := h5
          replace h5 := step (det_list32 (by bdl va_row_height_minus1) (by bdl vb_row_height_minus1)) h5
          obtain ⟨rfl, h5⟩ := h5
          exact ⟨⟨rfl, rfl⟩, steps_nil h5⟩) (fun hn => by
          have x_column_width_minus1 := va_column_width_minus1.absent (by cnd); have y_column_width_minus1 := vb_column_width_minus1.absent (by cnd)
          have x_row_height_minus1 := va_row_height_minus1.absent (by cnd); have y_row_height_minus1 := vb_row_height_minus1.absent (by cnd)
          exact ⟨x_column_width_minus1.trans y_column_width_minus1.symm, x_row_height_minus1.trans y_row_height_minus1.symm⟩)) h3
      obtain ⟨⟨rfl, rfl⟩, h3⟩ := h3
      replace h3 := step (det_u32 (by bd va_loop_filter_across_tiles_enabled_flag) (by bd vb_loop_filter_across_tiles_enabled_flag)) h3
      obtain ⟨rfl, h3⟩ := h3
      exact ⟨⟨rfl, rfl, rfl, rfl, rfl, rfl⟩, steps_nil h3⟩) (fun hn => by
      have x_num_tile_columns_minus1 := va_num_tile_columns_minus1.absent (by cnd); have y_num_tile_columns_minus1 := vb_num_tile_columns_minus1.absent (by cnd)
      have x_num_tile_rows_minus1 := va_num_tile_rows_minus1.absent (by cnd); have y_num_tile_rows_minus1 := vb_num_tile_rows_minus1.absent (by cnd)
      have x_uniform_spacing_flag := va_uniform_spacing_flag.absent (by cnd); have y_uniform_spacing_flag := vb_uniform_spacing_flag.absent (by cnd)
      have x_column_width_minus1 := va_column_width_minus1.absent (by cnd); have y_column_width_minus1 := vb_column_width_minus1.absent (by cnd)
      have x_row_height_minus1 := va_row_height_minus1.absent (by cnd); have y_row_height_minus1 := vb_row_height_minus1.absent (by cnd)
      have x_loop_filter_across_tiles_enabled_flag := va_loop_filter_across_tiles_enabled_flag.absent (by cnd); have y_loop_filter_across_tiles_enabled_flag := vb_loop_filter_across_tiles_enabled_flag.absent (by cnd)
      exact ⟨x_num_tile_columns_minus1.trans y_num_tile_columns_minus1.symm, x_num_tile_rows_minus1.trans y_num_tile_rows_minus1.symm, x_uniform_spacing_flag.trans y_uniform_spacing_flag.symm, x_column_width_minus1.trans y_column_width_minus1.symm, x_row_height_minus1.trans y_row_height_minus1.symm, x_loop_filter_across_tiles_enabled_flag.trans y_loop_filter_across_tiles_enabled_flag.symm⟩)) h1
  obtain ⟨⟨rfl, rfl, rfl, rfl, rfl, rfl⟩, h1⟩ := h1
  replace h1 := step (det_u32 (by bd va_pps_loop_filter_across_slices_enabled_flag) (by bd vb_pps_loop_filter_across_slices_enabled_flag)) h1
  obtain ⟨rfl, h1⟩ := h1
  replace h1 := step (det_u32 (by bd va_deblocking_filter_control_present_flag) (by bd vb_deblocking_filter_control_present_flag)) h1
  obtain ⟨rfl, h1⟩ := h1
  replace h1 := step (P := a_deblocking_filter_override_enabled_flag = b_deblocking_filter_override_enabled_flag ∧ a_pps_deblocking_filter_disabled_flag = b_pps_deblocking_filter_disabled_flag ∧ a_pps_beta_offset_div2 = b_pps_beta_offset_div2 ∧ a_pps_tc_offset_div2 = b_pps_tc_offset_div2) (det_when (fun hc r r' h3 => by
      replace h3 := step (det_u32 (by bd va_deblocking_filter_override_enabled_flag) (by bd vb_deblocking_filter_override_enabled_flag)) h3
      obtain ⟨rfl, h3⟩ := h3
      replace h3 := step (det_u32 (by bd va_pps_deblocking_filter_disabled_flag) (by bd vb_pps_deblocking_filter_disabled_flag)) h3
      obtain ⟨rfl, h3⟩ := h3
      replace h3 := step (P := a_pps_beta_offset_div2 = b_pps_beta_offset_div2 ∧ a_pps_tc_offset_div2 = b_pps_tc_offset_div2) (det_when (fun hc r r' h5 => by
          replace h5 := step (det_num) h5
          obtain ⟨rfl, h5⟩ := h5
          replace h5 := step (det_num) h5
          obtain ⟨rfl, h5⟩ := h5
          exact ⟨⟨rfl, rfl⟩, steps_nil h5⟩) (fun hn => by
          have x_pps_beta_offset_div2 := va_pps_beta_offset_div2.absent (by cnd); have y_pps_beta_offset_div2 := vb_pps_beta_offset_div2.absent (by cnd)
          have x_pps_tc_offset_div2 := va_pps_tc_offset_div2.absent (by cnd); have y_pps_tc_offset_div2 := vb_pps_tc_offset_div2.absent (by cnd)
          exact ⟨x_pps_beta_offset_div2.trans y_pps_beta_offset_div2.symm, x_pps_tc_offset_div2.trans y_pps_tc_offset_div2.symm⟩)) h3
      obtain ⟨⟨rfl, rfl⟩, h3⟩ := h3
      exact ⟨⟨rfl, rfl, rfl, rfl⟩, steps_nil h3⟩) (fun hn => by
      have x_deblocking_filter_override_enabled_flag := va_deblocking_filter_override_enabled_flag.absent (by cnd); have y_deblocking_filter_override_enabled_flag := vb_deblocking_filter_override_enabled_flag.absent (by cnd)
      have x_pps_deblocking_filter_disabled_flag := va_pps_deblocking_filter_disabled_flag.absent (by cnd); have y_pps_deblocking_filter_disabled_flag := vb_pps_deblocking_filter_disabled_flag.absent (by cnd)
      have x_pps_beta_offset_div2 := va_pps_beta_offset_div2.absent (by cnd); have y_pps_beta_offset_div2 := vb_pps_beta_offset_div2.absent (by cnd)
      have x_pps_tc_offset_div2 := va_pps_tc_offset_div2.absent (by cnd); have y_pps_tc_offset_div2 := vb_pps_tc_offset_div2.absent (by cnd)
      exact ⟨x_deblocking_filter_override_enabled_flag.trans y_deblocking_filter_override_enabled_flag.symm, x_pps_deblocking_filter_disabled_flag.trans y_pps_deblocking_filter_disabled_flag.symm, x_pps_beta_offset_div2.trans y_pps_beta_offset_div2.symm, x_pps_tc_offset_div2.trans y_pps_tc_offset_div2.symm⟩)) h1
  obtain ⟨⟨rfl, rfl, rfl, rfl⟩, h1⟩ := h1
  replace h1 := step (det_u32 (by bd va_pps_scaling_list_data_present_flag) (by bd vb_pps_scaling_list_data_present_flag)) h1
  obtain ⟨rfl, h1⟩ := h1
  replace h1 := step (P := a_scaling_list_data.map ScalingListData.shown = b_scaling_list_data.map ScalingListData.shown) (det_opt (by rw [va_scaling_list_data.same vb_scaling_list_data Iff.rfl]) (fun hc _ r r' h5 => by
          replace h5 := step (det_scaling va_scaling_list_data vb_scaling_list_data) h5
          obtain ⟨e, h5⟩ := h5
          exact ⟨e, steps_nil h5⟩) (fun hn _ => by
          have k : ¬ a_pps_scaling_list_data_present_flag ≠ 0 := fun k => hn ⟨k, va_scaling_list_data.present.2 k⟩
          rw [va_scaling_list_data.none k, vb_scaling_list_data.none k])) h1
  obtain ⟨e_sl, h1⟩ := h1
  replace h1 := step (det_u32 (by bd va_lists_modification_present_flag) (by bd vb_lists_modification_present_flag)) h1
  obtain ⟨rfl, h1⟩ := h1
  replace h1 := step (det_u32 (by bd va_log2_parallel_merge_level_minus2) (by bd vb_log2_parallel_merge_level_minus2)) h1
  obtain ⟨rfl, h1⟩ := h1
  replace h1 := step (det_u32 (by bd va_slice_segment_header_extension_present_flag) (by bd vb_slice_segment_header_extension_present_flag)) h1
  obtain ⟨rfl, h1⟩ := h1
  replace h1 := step (det_u32 (by bd va_pps_extension_present_flag) (by bd vb_pps_extension_present_flag)) h1
  obtain ⟨rfl, h1⟩ := h1
  replace h1 := step (P := a_pps_range_extension_flag = b_pps_range_extension_flag ∧ a_pps_multilayer_extension_flag = b_pps_multilayer_extension_flag ∧ a_pps_3d_extension_flag = b_pps_3d_extension_flag ∧ a_pps_scc_extension_flag = b_pps_scc_extension_flag ∧ a_pps_extension_4bits = b_pps_extension_4bits) (det_when (fun hc r r' h3 => by
      replace h3 := step (det_u32 (by bd va_pps_range_extension_flag) (by bd vb_pps_range_extension_flag)) h3
      obtain ⟨rfl, h3⟩ := h3
      replace h3 := step (det_u32 (by bd va_pps_multilayer_extension_flag) (by bd vb_pps_multilayer_extension_flag)) h3
      obtain ⟨rfl, h3⟩ := h3
      replace h3 := step (det_u32 (by bd va_pps_3d_extension_flag) (by bd vb_pps_3d_extension_flag)) h3
      obtain ⟨rfl, h3⟩ := h3
      replace h3 := step (det_u32 (by bd va_pps_scc_extension_flag) (by bd vb_pps_scc_extension_flag)) h3
      obtain ⟨rfl, h3⟩ := h3
      replace h3 := step (det_u32 (by bd va_pps_extension_4bits) (by bd vb_pps_extension_4bits)) h3
      obtain ⟨rfl, h3⟩ := h3
      exact ⟨⟨rfl, rfl, rfl, rfl, rfl⟩, steps_nil h3⟩) (fun hn => by
      have x_pps_range_extension_flag := va_pps_range_extension_flag.absent (by cnd); have y_pps_range_extension_flag := vb_pps_range_extension_flag.absent (by cnd)
      have x_pps_multilayer_extension_flag := va_pps_multilayer_extension_flag.absent (by cnd); have y_pps_multilayer_extension_flag := vb_pps_multilayer_extension_flag.absent (by cnd)
      have x_pps_3d_extension_flag := va_pps_3d_extension_flag.absent (by cnd); have y_pps_3d_extension_flag := vb_pps_3d_extension_flag.absent (by cnd)
      have x_pps_scc_extension_flag := va_pps_scc_extension_flag.absent (by cnd); have y_pps_scc_extension_flag := vb_pps_scc_extension_flag.absent (by cnd)
      have x_pps_extension_4bits := va_pps_extension_4bits.absent (by cnd); have y_pps_extension_4bits := vb_pps_extension_4bits.absent (by cnd)
      exact ⟨x_pps_range_extension_flag.trans y_pps_range_extension_flag.symm, x_pps_multilayer_extension_flag.trans y_pps_multilayer_extension_flag.symm, x_pps_3d_extension_flag.trans y_pps_3d_extension_flag.symm, x_pps_scc_extension_flag.trans y_pps_scc_extension_flag.symm, x_pps_extension_4bits.trans y_pps_extension_4bits.symm⟩)) h1
  obtain ⟨⟨rfl, rfl, rfl, rfl, rfl⟩, h1⟩ := h1
  replace h1 := step (P := a_pps_multilayer_extension = b_pps_multilayer_extension) (det_when (fun hc r r' h3 => by
      replace h3 := step (det_someEq (va_pps_multilayer_extension.same vb_pps_multilayer_extension Iff.rfl) (fun x y hx hy => det_PpsMultilayerExtension (va_pps_multilayer_extension.valid x hx) (vb_pps_multilayer_extension.valid y hy))) h3
      obtain ⟨e, h3⟩ := h3
      exact ⟨e, steps_nil h3⟩) (fun hn => by rw [va_pps_multilayer_extension.none hn, vb_pps_multilayer_extension.none hn])) h1
  obtain ⟨rfl, h1⟩ := h1
  replace h1 := step (P := a_pps_scc_extension.map PpsSccExtension.shown = b_pps_scc_extension.map PpsSccExtension.shown) (det_when (fun hc r r' h3 => by
      replace h3 := step (det_some (va_pps_scc_extension.same vb_pps_scc_extension Iff.rfl) (fun x y hx hy => det_PpsSccExtension (va_pps_scc_extension.valid x hx) (vb_pps_scc_extension.valid y hy))) h3
      obtain ⟨e, h3⟩ := h3
      exact ⟨shown_ext (va_pps_scc_extension.same vb_pps_scc_extension Iff.rfl) e, steps_nil h3⟩) (fun hn => by rw [va_pps_scc_extension.none hn, vb_pps_scc_extension.none hn])) h1
  obtain ⟨e_scc, h1⟩ := h1
  exact ⟨by simp only [Pps.shown, PpsBody.shown, e_sl, e_scc], steps_nil h1⟩

end H265
