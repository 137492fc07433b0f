/-
(Generated.)
-/
import Verif.Proof.DumpDet
import Verif.Spec.DumpShown

set_option autoImplicit false

namespace H265
open Spec

/-! ### Steps of the generated proofs -/

theorem det_when {c : Prop} [Decidable c] {fs gs : List Text} {P : Prop} (h : c → Det fs.flatten gs.flatten P) (hn : ¬ c → P) :
    Det (opt c fs) (opt c gs) P := det_opt Iff.rfl (fun k _ => h k) (fun k _ => hn k)

theorem det_someEq {α : Type} {o o' : Option α} {f : α → Text} (hs : o.isSome = o'.isSome)
    (h : ∀ x y, o = some x → o' = some y → Det (f x) (f y) (x = y)) : Det (some? o f) (some? o' f) (o = o') :=
  (det_some hs h).mono (option_ext hs)

theorem lt32_of_pow {x e : Nat} (h : x < 2 ^ e) (he : e ≤ 32) : x < 2 ^ 32 := Nat.lt_of_lt_of_le h (Nat.pow_le_pow_right (by decide) he)

theorem Spec.ValidUVar.lt32 {n v : Nat} (h : ValidUVar n v) : v < 2 ^ 32 := lt32_of_pow h.lt h.le

/-- a bound of 32 bits -/
macro "bd1 " h:term : tactic => `(tactic| first
  | exact Spec.ValidUVar.lt32 $h
  | (have hk := $h; omega)
  | exact lt32_of_pow $h (by omega)
  | (have hk := $h; simp only [hk]; decide))

macro "bd " h:term : tactic => `(tactic| first
  | bd1 $h
  | (refine Spec.Opt.either $h (fun k => ?_) (fun k => ?_) <;> bd1 k))

/-- a bound for each element of a list -/
macro "bdl1 " h:term : tactic => `(tactic| (intro x hx; bd (Spec.Each.valid $h x hx)))
macro "bdl " h:term : tactic => `(tactic| first
  | bdl1 $h
  | (refine Spec.Opt.either $h (fun k => ?_) (fun k => ?_)
     · bdl1 k
     · rw [k]; intro x hx; cases hx))

/-- a bound for each element of a table -/
macro "bdr1 " h:term : tactic => `(tactic| first
  | (intro x hx v hv; bd (Spec.Each.valid (Spec.Each.valid $h x hx) v hv))
  | (intro x hx v hv; obtain ⟨i, hi⟩ := List.mem_iff_getElem?.1 hx; bd (Spec.Each.valid (Spec.EachI.valid $h i x hi) v hv))
  | (intro x hx v hv; obtain ⟨i, hi⟩ := List.mem_iff_getElem?.1 hx
     have hk := Spec.Each.valid (Spec.EachI.valid $h i x hi) v hv; split at hk <;> bd hk))
macro "bdr " h:term : tactic => `(tactic| first
  | bdr1 $h
  | (refine Spec.Opt.either $h (fun k => ?_) (fun k => ?_)
     · bdr1 k
     · rw [k]; intro x hx; cases hx))

/-- a condition -/
macro "cnd" : tactic => `(tactic| first | assumption | omega | simp_all)



theorem det_NalUnitHeader {s t : NalUnitHeader} (ha : ValidNalUnitHeader s) (hb : ValidNalUnitHeader t) :
    Det (textNalUnitHeader s) (textNalUnitHeader t) (s = t) := by
  obtain ⟨a_forbidden_zero_bit, a_nal_unit_type, a_nuh_layer_id, a_nuh_temporal_id_plus1⟩ := s
  obtain ⟨b_forbidden_zero_bit, b_nal_unit_type, b_nuh_layer_id, b_nuh_temporal_id_plus1⟩ := t
  obtain ⟨va_forbidden_zero_bit, va_nal_unit_type, va_nuh_layer_id, va_nuh_temporal_id_plus1⟩ := ha
  obtain ⟨vb_forbidden_zero_bit, vb_nal_unit_type, vb_nuh_layer_id, vb_nuh_temporal_id_plus1⟩ := hb
  dsimp only at *
  unfold textNalUnitHeader
  dsimp only
  refine det_block (fun r r' h1 => ?_)
  replace h1 := step (det_u32 (by bd va_forbidden_zero_bit) (by bd vb_forbidden_zero_bit)) h1
  obtain ⟨rfl, h1⟩ := h1
  replace h1 := step (det_u32 (by bd va_nal_unit_type) (by bd vb_nal_unit_type)) h1
  obtain ⟨rfl, h1⟩ := h1
  replace h1 := step (det_u32 (by bd va_nuh_layer_id) (by bd vb_nuh_layer_id)) h1
  obtain ⟨rfl, h1⟩ := h1
  replace h1 := step (det_u32 (by bd va_nuh_temporal_id_plus1) (by bd vb_nuh_temporal_id_plus1)) h1
  obtain ⟨rfl, h1⟩ := h1
  exact ⟨rfl, steps_nil h1⟩

theorem det_Aud {s t : Aud} (ha : ValidAud s) (hb : ValidAud t) :
    Det (textAud s) (textAud t) (s = t) := by
  obtain ⟨a_pic_type⟩ := s
  obtain ⟨b_pic_type⟩ := t
  obtain ⟨va_pic_type⟩ := ha
  obtain ⟨vb_pic_type⟩ := hb
  dsimp only at *
  unfold textAud
  dsimp only
  refine det_block (fun r r' h1 => ?_)
  replace h1 := step (det_u32 (by bd va_pic_type) (by bd vb_pic_type)) h1
  obtain ⟨rfl, h1⟩ := h1
  exact ⟨rfl, steps_nil h1⟩

theorem det_SpsRangeExtension {s t : SpsRangeExtension} (ha : ValidSpsRangeExtension s) (hb : ValidSpsRangeExtension t) :
    Det (textSpsRangeExtension s) (textSpsRangeExtension t) (s = t) := by
  obtain ⟨a_transform_skip_rotation_enabled_flag, a_transform_skip_context_enabled_flag, a_implicit_rdpcm_enabled_flag, a_explicit_rdpcm_enabled_flag, a_extended_precision_processing_flag, a_intra_smoothing_disabled_flag, a_high_precision_offsets_enabled_flag, a_persistent_rice_adaptation_enabled_flag, a_cabac_bypass_alignment_enabled_flag⟩ := s
  obtain ⟨b_transform_skip_rotation_enabled_flag, b_transform_skip_context_enabled_flag, b_implicit_rdpcm_enabled_flag, b_explicit_rdpcm_enabled_flag, b_extended_precision_processing_flag, b_intra_smoothing_disabled_flag, b_high_precision_offsets_enabled_flag, b_persistent_rice_adaptation_enabled_flag, b_cabac_bypass_alignment_enabled_flag⟩ := t
  obtain ⟨va_transform_skip_rotation_enabled_flag, va_transform_skip_context_enabled_flag, va_implicit_rdpcm_enabled_flag, va_explicit_rdpcm_enabled_flag, va_extended_precision_processing_flag, va_intra_smoothing_disabled_flag, va_high_precision_offsets_enabled_flag, va_persistent_rice_adaptation_enabled_flag, va_cabac_bypass_alignment_enabled_flag⟩ := ha
  obtain ⟨vb_transform_skip_rotation_enabled_flag, vb_transform_skip_context_enabled_flag, vb_implicit_rdpcm_enabled_flag, vb_explicit_rdpcm_enabled_flag, vb_extended_precision_processing_flag, vb_intra_smoothing_disabled_flag, vb_high_precision_offsets_enabled_flag, vb_persistent_rice_adaptation_enabled_flag, vb_cabac_bypass_alignment_enabled_flag⟩ := hb
  dsimp only at *
  unfold textSpsRangeExtension
  dsimp only
  refine det_block (fun r r' h1 => ?_)
  replace h1 := step (det_u32 (by bd va_transform_skip_rotation_enabled_flag) (by bd vb_transform_skip_rotation_enabled_flag)) h1
  obtain ⟨rfl, h1⟩ := h1
  replace h1 := step (det_u32 (by bd va_transform_skip_context_enabled_flag) (by bd vb_transform_skip_context_enabled_flag)) h1
  obtain ⟨rfl, h1⟩ := h1
  replace h1 := step (det_u32 (by bd va_implicit_rdpcm_enabled_flag) (by bd vb_implicit_rdpcm_enabled_flag)) h1
  obtain ⟨rfl, h1⟩ := h1
  replace h1 := step (det_u32 (by bd va_explicit_rdpcm_enabled_flag) (by bd vb_explicit_rdpcm_enabled_flag)) h1
  obtain ⟨rfl, h1⟩ := h1
  replace h1 := step (det_u32 (by bd va_extended_precision_processing_flag) (by bd vb_extended_precision_processing_flag)) h1
  obtain ⟨rfl, h1⟩ := h1
  replace h1 := step (det_u32 (by bd va_intra_smoothing_disabled_flag) (by bd vb_intra_smoothing_disabled_flag)) h1
  obtain ⟨rfl, h1⟩ := h1
  replace h1 := step (det_u32 (by bd va_high_precision_offsets_enabled_flag) (by bd vb_high_precision_offsets_enabled_flag)) h1
  obtain ⟨rfl, h1⟩ := h1
  replace h1 := step (det_u32 (by bd va_persistent_rice_adaptation_enabled_flag) (by bd vb_persistent_rice_adaptation_enabled_flag)) h1
  obtain ⟨rfl, h1⟩ := h1
  replace h1 := step (det_u32 (by bd va_cabac_bypass_alignment_enabled_flag) (by bd vb_cabac_bypass_alignment_enabled_flag)) h1
  obtain ⟨rfl, h1⟩ := h1
  exact ⟨rfl, steps_nil h1⟩

theorem det_SpsMultilayerExtension {s t : SpsMultilayerExtension} (ha : ValidSpsMultilayerExtension s) (hb : ValidSpsMultilayerExtension t) :
    Det (textSpsMultilayerExtension s) (textSpsMultilayerExtension t) (s = t) := by
  obtain ⟨a_inter_view_mv_vert_constraint_flag⟩ := s
  obtain ⟨b_inter_view_mv_vert_constraint_flag⟩ := t
  obtain ⟨va_inter_view_mv_vert_constraint_flag⟩ := ha
  obtain ⟨vb_inter_view_mv_vert_constraint_flag⟩ := hb
  dsimp only at *
  unfold textSpsMultilayerExtension
  dsimp only
  refine det_block (fun r r' h1 => ?_)
  replace h1 := step (det_u32 (by bd va_inter_view_mv_vert_constraint_flag) (by bd vb_inter_view_mv_vert_constraint_flag)) h1
  obtain ⟨rfl, h1⟩ := h1
  exact ⟨rfl, steps_nil h1⟩

theorem det_Sps3dExtension {s t : Sps3dExtension} (ha : ValidSps3dExtension s) (hb : ValidSps3dExtension t) :
    Det (textSps3dExtension s) (textSps3dExtension t) (s = t) := by
  obtain ⟨a_iv_di_mc_enabled_flag_0, a_iv_mv_scal_enabled_flag_0, a_log2_ivmc_sub_pb_size_minus3, a_iv_res_pred_enabled_flag, a_depth_ref_enabled_flag, a_vsp_mc_enabled_flag, a_dbbp_enabled_flag, a_iv_di_mc_enabled_flag_1, a_iv_mv_scal_enabled_flag_1, a_tex_mc_enabled_flag, a_log2_texmc_sub_pb_size_minus3, a_intra_contour_enabled_flag, a_intra_dc_only_wedge_enabled_flag, a_cqt_cu_part_pred_enabled_flag, a_inter_dc_only_enabled_flag, a_skip_intra_enabled_flag⟩ := s
  obtain ⟨b_iv_di_mc_enabled_flag_0, b_iv_mv_scal_enabled_flag_0, b_log2_ivmc_sub_pb_size_minus3, b_iv_res_pred_enabled_flag, b_depth_ref_enabled_flag, b_vsp_mc_enabled_flag, b_dbbp_enabled_flag, b_iv_di_mc_enabled_flag_1, b_iv_mv_scal_enabled_flag_1, b_tex_mc_enabled_flag, b_log2_texmc_sub_pb_size_minus3, b_intra_contour_enabled_flag, b_intra_dc_only_wedge_enabled_flag, b_cqt_cu_part_pred_enabled_flag, b_inter_dc_only_enabled_flag, b_skip_intra_enabled_flag⟩ := t
  obtain ⟨va_iv_di_mc_enabled_flag_0, va_iv_mv_scal_enabled_flag_0, va_log2_ivmc_sub_pb_size_minus3, va_iv_res_pred_enabled_flag, va_depth_ref_enabled_flag, va_vsp_mc_enabled_flag, va_dbbp_enabled_flag, va_iv_di_mc_enabled_flag_1, va_iv_mv_scal_enabled_flag_1, va_tex_mc_enabled_flag, va_log2_texmc_sub_pb_size_minus3, va_intra_contour_enabled_flag, va_intra_dc_only_wedge_enabled_flag, va_cqt_cu_part_pred_enabled_flag, va_inter_dc_only_enabled_flag, va_skip_intra_enabled_flag⟩ := ha
  obtain ⟨vb_iv_di_mc_enabled_flag_0, vb_iv_mv_scal_enabled_flag_0, vb_log2_ivmc_sub_pb_size_minus3, vb_iv_res_pred_enabled_flag, vb_depth_ref_enabled_flag, vb_vsp_mc_enabled_flag, vb_dbbp_enabled_flag, vb_iv_di_mc_enabled_flag_1, vb_iv_mv_scal_enabled_flag_1, vb_tex_mc_enabled_flag, vb_log2_texmc_sub_pb_size_minus3, vb_intra_contour_enabled_flag, vb_intra_dc_only_wedge_enabled_flag, vb_cqt_cu_part_pred_enabled_flag, vb_inter_dc_only_enabled_flag, vb_skip_intra_enabled_flag⟩ := hb
  dsimp only at *
  unfold textSps3dExtension
  dsimp only
  refine det_block (fun r r' h1 => ?_)
  replace h1 := step (det_list32 (by simp only [List.mem_cons, List.not_mem_nil, or_false]; rintro x (rfl | rfl) <;> first | bd va_iv_di_mc_enabled_flag_0 | bd va_iv_di_mc_enabled_flag_1) (by simp only [List.mem_cons, List.not_mem_nil, or_false]; rintro x (rfl | rfl) <;> first | bd vb_iv_di_mc_enabled_flag_0 | bd vb_iv_di_mc_enabled_flag_1)) h1
  obtain ⟨e, h1⟩ := h1
  obtain ⟨rfl, rfl⟩ : _ ∧ _ := by simpa using e
  replace h1 := step (det_list32 (by simp only [List.mem_cons, List.not_mem_nil, or_false]; rintro x (rfl | rfl) <;> first | bd va_iv_mv_scal_enabled_flag_0 | bd va_iv_mv_scal_enabled_flag_1) (by simp only [List.mem_cons, List.not_mem_nil, or_false]; rintro x (rfl | rfl) <;> first | bd vb_iv_mv_scal_enabled_flag_0 | bd vb_iv_mv_scal_enabled_flag_1)) h1
  obtain ⟨e, h1⟩ := h1
  obtain ⟨rfl, rfl⟩ : _ ∧ _ := by simpa using e
  replace h1 := step (det_u32 (by bd va_log2_ivmc_sub_pb_size_minus3) (by bd vb_log2_ivmc_sub_pb_size_minus3)) h1
  obtain ⟨rfl, h1⟩ := h1
  replace h1 := step (det_u32 (by bd va_iv_res_pred_enabled_flag) (by bd vb_iv_res_pred_enabled_flag)) h1
  obtain ⟨rfl, h1⟩ := h1
  replace h1 := step (det_u32 (by bd va_depth_ref_enabled_flag) (by bd vb_depth_ref_enabled_flag)) h1
  obtain ⟨rfl, h1⟩ := h1
  replace h1 := step (det_u32 (by bd va_vsp_mc_enabled_flag) (by bd vb_vsp_mc_enabled_flag)) h1
  obtain ⟨rfl, h1⟩ := h1
  replace h1 := step (det_u32 (by bd va_dbbp_enabled_flag) (by bd vb_dbbp_enabled_flag)) h1
  obtain ⟨rfl, h1⟩ := h1
  replace h1 := step (det_u32 (by bd va_tex_mc_enabled_flag) (by bd vb_tex_mc_enabled_flag)) h1
  obtain ⟨rfl, h1⟩ := h1
  replace h1 := step (det_u32 (by bd va_log2_texmc_sub_pb_size_minus3) (by bd vb_log2_texmc_sub_pb_size_minus3)) h1
  obtain ⟨rfl, h1⟩ := h1
  replace h1 := step (det_u32 (by bd va_intra_contour_enabled_flag) (by bd vb_intra_contour_enabled_flag)) h1
  obtain ⟨rfl, h1⟩ := h1
  replace h1 := step (det_u32 (by bd va_intra_dc_only_wedge_enabled_flag) (by bd vb_intra_dc_only_wedge_enabled_flag)) h1
  obtain ⟨rfl, h1⟩ := h1
  replace h1 := step (det_u32 (by bd va_cqt_cu_part_pred_enabled_flag) (by bd vb_cqt_cu_part_pred_enabled_flag)) h1
  obtain ⟨rfl, h1⟩ := h1
  replace h1 := step (det_u32 (by bd va_inter_dc_only_enabled_flag) (by bd vb_inter_dc_only_enabled_flag)) h1
  obtain ⟨rfl, h1⟩ := h1
  replace h1 := step (det_u32 (by bd va_skip_intra_enabled_flag) (by bd vb_skip_intra_enabled_flag)) h1
  obtain ⟨rfl, h1⟩ := h1
  exact ⟨rfl, steps_nil h1⟩

theorem det_SpsSccExtension {cf bl bc : Nat} (hl : bl ≤ 8) (hc : bc ≤ 8) {s t : SpsSccExtension} (ha : ValidSpsSccExtension cf bl bc s) (hb : ValidSpsSccExtension cf bl bc t) :
    Det (textSpsSccExtension s) (textSpsSccExtension t) (s = t) := by
  obtain ⟨a_sps_curr_pic_ref_enabled_flag, a_palette_mode_enabled_flag, a_palette_max_size, a_delta_palette_max_predictor_size, a_sps_palette_predictor_initializers_present_flag, a_sps_num_palette_predictor_initializers_minus1, a_sps_palette_predictor_initializers, a_motion_vector_resolution_control_idc, a_intra_boundary_filtering_disabled_flag⟩ := s
  obtain ⟨b_sps_curr_pic_ref_enabled_flag, b_palette_mode_enabled_flag, b_palette_max_size, b_delta_palette_max_predictor_size, b_sps_palette_predictor_initializers_present_flag, b_sps_num_palette_predictor_initializers_minus1, b_sps_palette_predictor_initializers, b_motion_vector_resolution_control_idc, b_intra_boundary_filtering_disabled_flag⟩ := t
  obtain ⟨va_sps_curr_pic_ref_enabled_flag, va_palette_mode_enabled_flag, va_palette_max_size, va_delta_palette_max_predictor_size, va_sps_palette_predictor_initializers_present_flag, va_sps_num_palette_predictor_initializers_minus1, va_sps_palette_predictor_initializers, va_motion_vector_resolution_control_idc, va_intra_boundary_filtering_disabled_flag⟩ := ha
  obtain ⟨vb_sps_curr_pic_ref_enabled_flag, vb_palette_mode_enabled_flag, vb_palette_max_size, vb_delta_palette_max_predictor_size, vb_sps_palette_predictor_initializers_present_flag, vb_sps_num_palette_predictor_initializers_minus1, vb_sps_palette_predictor_initializers, vb_motion_vector_resolution_control_idc, vb_intra_boundary_filtering_disabled_flag⟩ := hb
  dsimp only at *
  unfold textSpsSccExtension
  dsimp only
  refine det_block (fun r r' h1 => ?_)
  replace h1 := step (det_u32 (by bd va_sps_curr_pic_ref_enabled_flag) (by bd vb_sps_curr_pic_ref_enabled_flag)) h1
  obtain ⟨rfl, h1⟩ := h1
  replace h1 := step (det_u32 (by bd va_palette_mode_enabled_flag) (by bd vb_palette_mode_enabled_flag)) h1
  obtain ⟨rfl, h1⟩ := h1
  replace h1 := step (P := a_palette_max_size = b_palette_max_size ∧ a_delta_palette_max_predictor_size = b_delta_palette_max_predictor_size ∧ a_sps_palette_predictor_initializers_present_flag = b_sps_palette_predictor_initializers_present_flag ∧ a_sps_num_palette_predictor_initializers_minus1 = b_sps_num_palette_predictor_initializers_minus1 ∧ a_sps_palette_predictor_initializers = b_sps_palette_predictor_initializers) (det_when (fun hc r r' h3 => by
      replace h3 := step (det_u32 (by bd va_palette_max_size) (by bd vb_palette_max_size)) h3
      obtain ⟨rfl, h3⟩ := h3
      replace h3 := step (det_u32 (by bd va_delta_palette_max_predictor_size) (by bd vb_delta_palette_max_predictor_size)) h3
      obtain ⟨rfl, h3⟩ := h3
      replace h3 := step (det_u32 (by bd va_sps_palette_predictor_initializers_present_flag) (by bd vb_sps_palette_predictor_initializers_present_flag)) h3
      obtain ⟨rfl, h3⟩ := h3
      replace h3 := step (P := a_sps_num_palette_predictor_initializers_minus1 = b_sps_num_palette_predictor_initializers_minus1 ∧ a_sps_palette_predictor_initializers = b_sps_palette_predictor_initializers) (det_when (fun hc r r' h5 => by
          replace h5 := step (det_u32 (by bd va_sps_num_palette_predictor_initializers_minus1) (by bd vb_sps_num_palette_predictor_initializers_minus1)) h5
          obtain ⟨rfl, h5⟩ := h5
          replace h5 := step (det_rows32 (by bdr va_sps_palette_predictor_initializers) (by bdr vb_sps_palette_predictor_initializers)) h5
          obtain ⟨rfl, h5⟩ := h5
          exact ⟨⟨rfl, rfl⟩, steps_nil h5⟩) (fun hn => by
          have x_sps_num_palette_predictor_initializers_minus1 := va_sps_num_palette_predictor_initializers_minus1.absent (by cnd); have y_sps_num_palette_predictor_initializers_minus1 := vb_sps_num_palette_predictor_initializers_minus1.absent (by cnd)
          have x_sps_palette_predictor_initializers := va_sps_palette_predictor_initializers.absent (by cnd); have y_sps_palette_predictor_initializers := vb_sps_palette_predictor_initializers.absent (by cnd)
          exact ⟨x_sps_num_palette_predictor_initializers_minus1.trans y_sps_num_palette_predictor_initializers_minus1.symm, x_sps_palette_predictor_initializers.trans y_sps_palette_predictor_initializers.symm⟩)) h3
      obtain ⟨⟨rfl, rfl⟩, h3⟩ := h3
      exact ⟨⟨rfl, rfl, rfl, rfl, rfl⟩, steps_nil h3⟩) (fun hn => by
      have x_palette_max_size := va_palette_max_size.absent (by cnd); have y_palette_max_size := vb_palette_max_size.absent (by cnd)
      have x_delta_palette_max_predictor_size := va_delta_palette_max_predictor_size.absent (by cnd); have y_delta_palette_max_predictor_size := vb_delta_palette_max_predictor_size.absent (by cnd)
      have x_sps_palette_predictor_initializers_present_flag := va_sps_palette_predictor_initializers_present_flag.absent (by cnd); have y_sps_palette_predictor_initializers_present_flag := vb_sps_palette_predictor_initializers_present_flag.absent (by cnd)
      have x_sps_num_palette_predictor_initializers_minus1 := va_sps_num_palette_predictor_initializers_minus1.absent (by cnd); have y_sps_num_palette_predictor_initializers_minus1 := vb_sps_num_palette_predictor_initializers_minus1.absent (by cnd)
      have x_sps_palette_predictor_initializers := va_sps_palette_predictor_initializers.absent (by cnd); have y_sps_palette_predictor_initializers := vb_sps_palette_predictor_initializers.absent (by cnd)
      exact ⟨x_palette_max_size.trans y_palette_max_size.symm, x_delta_palette_max_predictor_size.trans y_delta_palette_max_predictor_size.symm, x_sps_palette_predictor_initializers_present_flag.trans y_sps_palette_predictor_initializers_present_flag.symm, x_sps_num_palette_predictor_initializers_minus1.trans y_sps_num_palette_predictor_initializers_minus1.symm, x_sps_palette_predictor_initializers.trans y_sps_palette_predictor_initializers.symm⟩)) h1
  obtain ⟨⟨rfl, rfl, rfl, rfl, rfl⟩, h1⟩ := h1
  replace h1 := step (det_u32 (by bd va_motion_vector_resolution_control_idc) (by bd vb_motion_vector_resolution_control_idc)) h1
  obtain ⟨rfl, h1⟩ := h1
  replace h1 := step (det_u32 (by bd va_intra_boundary_filtering_disabled_flag) (by bd vb_intra_boundary_filtering_disabled_flag)) h1
  obtain ⟨rfl, h1⟩ := h1
  exact ⟨rfl, steps_nil h1⟩

theorem det_PpsSccExtension {s t : PpsSccExtension} (ha : ValidPpsSccExtension s) (hb : ValidPpsSccExtension t) :
    Det (textPpsSccExtension s) (textPpsSccExtension t) (s.shown = t.shown) := by
  obtain ⟨a_pps_curr_pic_ref_enabled_flag, a_residual_adaptive_colour_transform_enabled_flag, a_pps_slice_act_qp_offsets_present_flag, a_pps_act_y_qp_offset_plus5, a_pps_act_cb_qp_offset_plus5, a_pps_act_cr_qp_offset_plus3, a_pps_palette_predictor_initializer_present_flag, a_pps_num_palette_predictor_initializer, a_monochrome_palette_flag, a_luma_bit_depth_entry_minus8, a_chroma_bit_depth_entry_minus8, a_pps_palette_predictor_initializers⟩ := s
  obtain ⟨b_pps_curr_pic_ref_enabled_flag, b_residual_adaptive_colour_transform_enabled_flag, b_pps_slice_act_qp_offsets_present_flag, b_pps_act_y_qp_offset_plus5, b_pps_act_cb_qp_offset_plus5, b_pps_act_cr_qp_offset_plus3, b_pps_palette_predictor_initializer_present_flag, b_pps_num_palette_predictor_initializer, b_monochrome_palette_flag, b_luma_bit_depth_entry_minus8, b_chroma_bit_depth_entry_minus8, b_pps_palette_predictor_initializers⟩ := t
  obtain ⟨va_pps_curr_pic_ref_enabled_flag, va_residual_adaptive_colour_transform_enabled_flag, va_pps_slice_act_qp_offsets_present_flag, va_pps_act_y_qp_offset_plus5, va_pps_act_cb_qp_offset_plus5, va_pps_act_cr_qp_offset_plus3, va_pps_palette_predictor_initializer_present_flag, va_pps_num_palette_predictor_initializer, va_monochrome_palette_flag, va_luma_bit_depth_entry_minus8, va_chroma_bit_depth_entry_minus8, va_pps_palette_predictor_initializers⟩ := ha
  obtain ⟨vb_pps_curr_pic_ref_enabled_flag, vb_residual_adaptive_colour_transform_enabled_flag, vb_pps_slice_act_qp_offsets_present_flag, vb_pps_act_y_qp_offset_plus5, vb_pps_act_cb_qp_offset_plus5, vb_pps_act_cr_qp_offset_plus3, vb_pps_palette_predictor_initializer_present_flag, vb_pps_num_palette_predictor_initializer, vb_monochrome_palette_flag, vb_luma_bit_depth_entry_minus8, vb_chroma_bit_depth_entry_minus8, vb_pps_palette_predictor_initializers⟩ := hb
  dsimp only at *
  unfold textPpsSccExtension
  dsimp only
  refine det_block (fun r r' h1 => ?_)
  replace h1 := step (det_u32 (by bd va_pps_curr_pic_ref_enabled_flag) (by bd vb_pps_curr_pic_ref_enabled_flag)) h1
  obtain ⟨rfl, h1⟩ := h1
  replace h1 := step (det_u32 (by bd va_residual_adaptive_colour_transform_enabled_flag) (by bd vb_residual_adaptive_colour_transform_enabled_flag)) h1
  obtain ⟨rfl, h1⟩ := h1
  replace h1 := step (P := a_pps_slice_act_qp_offsets_present_flag = b_pps_slice_act_qp_offsets_present_flag ∧ a_pps_act_y_qp_offset_plus5 = b_pps_act_y_qp_offset_plus5 ∧ a_pps_act_cb_qp_offset_plus5 = b_pps_act_cb_qp_offset_plus5 ∧ a_pps_act_cr_qp_offset_plus3 = b_pps_act_cr_qp_offset_plus3) (det_when (fun hc r r' h3 => by
      replace h3 := step (det_u32 (by bd va_pps_slice_act_qp_offsets_present_flag) (by bd vb_pps_slice_act_qp_offsets_present_flag)) h3
      obtain ⟨rfl, h3⟩ := h3
      replace h3 := step (det_num) h3
      obtain ⟨rfl, h3⟩ := h3
      replace h3 := step (det_num) h3
      obtain ⟨rfl, h3⟩ := h3
      replace h3 := step (det_num) h3
      obtain ⟨rfl, h3⟩ := h3
      exact ⟨⟨rfl, rfl, rfl, rfl⟩, steps_nil h3⟩) (fun hn => by
      have x_pps_slice_act_qp_offsets_present_flag := va_pps_slice_act_qp_offsets_present_flag.absent (by cnd); have y_pps_slice_act_qp_offsets_present_flag := vb_pps_slice_act_qp_offsets_present_flag.absent (by cnd)
      have x_pps_act_y_qp_offset_plus5 := va_pps_act_y_qp_offset_plus5.absent (by cnd); have y_pps_act_y_qp_offset_plus5 := vb_pps_act_y_qp_offset_plus5.absent (by cnd)
      have x_pps_act_cb_qp_offset_plus5 := va_pps_act_cb_qp_offset_plus5.absent (by cnd); have y_pps_act_cb_qp_offset_plus5 := vb_pps_act_cb_qp_offset_plus5.absent (by cnd)
      have x_pps_act_cr_qp_offset_plus3 := va_pps_act_cr_qp_offset_plus3.absent (by cnd); have y_pps_act_cr_qp_offset_plus3 := vb_pps_act_cr_qp_offset_plus3.absent (by cnd)
      exact ⟨x_pps_slice_act_qp_offsets_present_flag.trans y_pps_slice_act_qp_offsets_present_flag.symm, x_pps_act_y_qp_offset_plus5.trans y_pps_act_y_qp_offset_plus5.symm, x_pps_act_cb_qp_offset_plus5.trans y_pps_act_cb_qp_offset_plus5.symm, x_pps_act_cr_qp_offset_plus3.trans y_pps_act_cr_qp_offset_plus3.symm⟩)) h1
  obtain ⟨⟨rfl, rfl, rfl, rfl⟩, h1⟩ := h1
  replace h1 := step (det_u32 (by bd va_pps_palette_predictor_initializer_present_flag) (by bd vb_pps_palette_predictor_initializer_present_flag)) h1
  obtain ⟨rfl, h1⟩ := h1
  replace h1 := step (P := a_pps_num_palette_predictor_initializer = b_pps_num_palette_predictor_initializer ∧ a_monochrome_palette_flag = b_monochrome_palette_flag ∧ a_luma_bit_depth_entry_minus8 = b_luma_bit_depth_entry_minus8 ∧ a_pps_palette_predictor_initializers = b_pps_palette_predictor_initializers) (det_when (fun hc r r' h3 => by
      replace h3 := step (det_u32 (by bd va_pps_num_palette_predictor_initializer) (by bd vb_pps_num_palette_predictor_initializer)) h3
      obtain ⟨rfl, h3⟩ := h3
      replace h3 := step (P := a_monochrome_palette_flag = b_monochrome_palette_flag ∧ a_luma_bit_depth_entry_minus8 = b_luma_bit_depth_entry_minus8 ∧ a_pps_palette_predictor_initializers = b_pps_palette_predictor_initializers) (det_when (fun hc r r' h5 => by
          replace h5 := step (det_u32 (by bd va_monochrome_palette_flag) (by bd vb_monochrome_palette_flag)) h5
          obtain ⟨rfl, h5⟩ := h5
          replace h5 := step (det_u32 (by bd va_luma_bit_depth_entry_minus8) (by bd vb_luma_bit_depth_entry_minus8)) h5
          obtain ⟨rfl, h5⟩ := h5
          replace h5 := step (P := True) (det_when (fun hc r r' h7 => by
              replace h7 := step (det_u32 (by bd va_chroma_bit_depth_entry_minus8) (by bd vb_chroma_bit_depth_entry_minus8)) h7
              obtain ⟨-, h7⟩ := h7
              exact ⟨trivial, steps_nil h7⟩) (fun hn => by
              trivial)) h5
          obtain ⟨-, h5⟩ := h5
          replace h5 := step (det_rows32 (by bdr va_pps_palette_predictor_initializers) (by bdr vb_pps_palette_predictor_initializers)) h5
          obtain ⟨rfl, h5⟩ := h5
          exact ⟨⟨rfl, rfl, rfl⟩, steps_nil h5⟩) (fun hn => by
          have x_monochrome_palette_flag := va_monochrome_palette_flag.absent (by cnd); have y_monochrome_palette_flag := vb_monochrome_palette_flag.absent (by cnd)
          have x_luma_bit_depth_entry_minus8 := va_luma_bit_depth_entry_minus8.absent (by cnd); have y_luma_bit_depth_entry_minus8 := vb_luma_bit_depth_entry_minus8.absent (by cnd)
          have x_pps_palette_predictor_initializers := va_pps_palette_predictor_initializers.absent (by cnd); have y_pps_palette_predictor_initializers := vb_pps_palette_predictor_initializers.absent (by cnd)
          exact ⟨x_monochrome_palette_flag.trans y_monochrome_palette_flag.symm, x_luma_bit_depth_entry_minus8.trans y_luma_bit_depth_entry_minus8.symm, x_pps_palette_predictor_initializers.trans y_pps_palette_predictor_initializers.symm⟩)) h3
      obtain ⟨⟨rfl, rfl, rfl⟩, h3⟩ := h3
      exact ⟨⟨rfl, rfl, rfl, rfl⟩, steps_nil h3⟩) (fun hn => by
      have x_pps_num_palette_predictor_initializer := va_pps_num_palette_predictor_initializer.absent (by cnd); have y_pps_num_palette_predictor_initializer := vb_pps_num_palette_predictor_initializer.absent (by cnd)
      have x_monochrome_palette_flag := va_monochrome_palette_flag.absent (by cnd); have y_monochrome_palette_flag := vb_monochrome_palette_flag.absent (by cnd)
      have x_luma_bit_depth_entry_minus8 := va_luma_bit_depth_entry_minus8.absent (by cnd); have y_luma_bit_depth_entry_minus8 := vb_luma_bit_depth_entry_minus8.absent (by cnd)
      have x_pps_palette_predictor_initializers := va_pps_palette_predictor_initializers.absent (by cnd); have y_pps_palette_predictor_initializers := vb_pps_palette_predictor_initializers.absent (by cnd)
      exact ⟨x_pps_num_palette_predictor_initializer.trans y_pps_num_palette_predictor_initializer.symm, x_monochrome_palette_flag.trans y_monochrome_palette_flag.symm, x_luma_bit_depth_entry_minus8.trans y_luma_bit_depth_entry_minus8.symm, x_pps_palette_predictor_initializers.trans y_pps_palette_predictor_initializers.symm⟩)) h1
  obtain ⟨⟨rfl, rfl, rfl, rfl⟩, h1⟩ := h1
  exact ⟨rfl, steps_nil h1⟩

end H265
