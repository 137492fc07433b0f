/-
The text of an SEI message determines the message.  (Generated by a script from the tables of names, after the helper lemmas.)
-/
import Verif.Proof.DumpDet5

set_option autoImplicit false

namespace H265
open Spec

theorem det_uuid {name : String} {a b c d : Nat} : Det (entry name [uuid a b]) (entry name [uuid c d]) (a = c ∧ b = d) := by
  refine det_entry (fun r t e => ?_)
  obtain ⟨e, h⟩ := List.cons.inj e
  refine ⟨?_, h⟩
  unfold Spec.uuid at e
  have nd : ∀ w n, '-' ∉ hexadecimal w n := by
    intro w n hm
    unfold hexadecimal at hm
    rcases List.mem_append.1 hm with h | h
    · exact absurd (List.eq_of_mem_replicate h) (by decide)
    · rw [← putX_eq] at h
      obtain ⟨k, hk⟩ := digitsAux_mem _ _ _ _ h
      exact (digitChar_plain k).2.1 hk.symm
  obtain ⟨e1, e⟩ := split_at (nd _ _) (nd _ _) e
  obtain ⟨e2, e⟩ := split_at (nd _ _) (nd _ _) e
  obtain ⟨e3, e⟩ := split_at (nd _ _) (nd _ _) e
  obtain ⟨e4, e⟩ := split_at (nd _ _) (nd _ _) e
  have e1 := hexadecimal_inj e1; have e2 := hexadecimal_inj e2; have e3 := hexadecimal_inj e3; have e4 := hexadecimal_inj e4; have e5 := hexadecimal_inj e
  constructor <;> omega

theorem det_first {name : String} {v w : Nat} {f : Nat → Text} : Det (entry name (decimal v :: f v)) (entry name (decimal w :: f w)) (v = w) := by
  refine det_entry (fun r t e => ?_)
  obtain ⟨e, h⟩ := List.cons.inj e
  obtain rfl := Int.ofNat.inj (decimal_inj e)
  exact ⟨rfl, List.append_cancel_left h⟩

theorem det_chromaticity {name : String} {v w : Nat} : Det (chromaticity name v) (chromaticity name w) (v = w) :=
  det_first (f := fun v => ['(' :: (fraction 5 (2 * v) ++ [')'])])
theorem det_luminance {name : String} {v w : Nat} : Det (luminance name v) (luminance name w) (v = w) :=
  det_first (f := fun v => ['(' :: fraction 4 v, "cd/m^2)".toList])
theorem det_light {name : String} {v w : Nat} : Det (entry name [decimal v, "cd/m^2".toList]) (entry name [decimal w, "cd/m^2".toList]) (v = w) :=
  det_first (f := fun _ => ["cd/m^2".toList])

theorem det_at {α : Type} {V : α → Prop} {l m : List α} {f : α → Text} (hl : Each 3 V l) (hm : Each 3 V m) (i : Nat) (h : ∀ x y, V x → V y → Det (f x) (f y) (x = y)) :
    Det (some? l[i]? f) (some? m[i]? f) (l[i]? = m[i]?) :=
  det_someEq (by
      have e1 := hl.length; have e2 := hm.length
      by_cases hi : i < 3
      · rw [List.getElem?_eq_getElem (by omega), List.getElem?_eq_getElem (by omega)]; rfl
      · rw [List.getElem?_eq_none (by omega), List.getElem?_eq_none (by omega)])
    (fun x y hx hy => h x y (hl.valid x (List.mem_of_getElem? hx)) (hm.valid y (List.mem_of_getElem? hy)))

theorem three_ext {α : Type} {V : α → Prop} {l m : List α} (hl : Each 3 V l) (hm : Each 3 V m) (h0 : l[0]? = m[0]?) (h1 : l[1]? = m[1]?) (h2 : l[2]? = m[2]?) : l = m := by
  match l, m, hl.length, hm.length, h0, h1, h2 with
  | [a, b, c], [d, e, f], _, _, h0, h1, h2 => simp_all

theorem det_two {f g f' g' : Text} {P Q : Prop} (h : Det f g P) (h' : Det f' g' Q) : Det (List.flatten [f, f']) (List.flatten [g, g']) (P ∧ Q) := by
  intro r t e
  obtain ⟨p, e⟩ := step h e
  obtain ⟨q, e⟩ := step h' e
  exact ⟨⟨p, q⟩, steps_nil e⟩

theorem det_primary {n n' : String} {x y : SeiPrimaries} : Det (List.flatten [chromaticity n x.x, chromaticity n' x.y]) (List.flatten [chromaticity n y.x, chromaticity n' y.y]) (x = y) :=
  (det_two det_chromaticity det_chromaticity).mono (fun h => by cases x; cases y; simp_all)

theorem det_ccv {n n' : String} {x y : SeiCcvPrimaries} : Det (List.flatten [num n x.x, num n' x.y]) (List.flatten [num n y.x, num n' y.y]) (x = y) :=
  (det_two det_num det_num).mono (fun h => by cases x; cases y; simp_all)

theorem det_lut {n n' n'' : String} {b : Nat} {x y : SeiLut} (ha : ValidSeiLut b x) (hb : ValidSeiLut b y) :
    Det (List.flatten [num n x.num_val_minus1, opt (x.num_val_minus1 > 0) [listed n' oneNat (x.entries.map (·.coded_value)), listed n'' oneNat (x.entries.map (·.target_value))]])
      (List.flatten [num n y.num_val_minus1, opt (y.num_val_minus1 > 0) [listed n' oneNat (y.entries.map (·.coded_value)), listed n'' oneNat (y.entries.map (·.target_value))]]) (x = y) := by
  obtain ⟨xn, xe⟩ := x
  obtain ⟨yn, ye⟩ := y
  dsimp only
  intro r t h
  replace h := step det_numNat h
  obtain ⟨rfl, h⟩ := h
  obtain ⟨e, h⟩ := step (P := xe = ye) (det_when (fun hc r r' h3 => by
    obtain ⟨e1, h3⟩ := step det_listNat h3
    obtain ⟨e2, h3⟩ := step det_listNat h3
    exact ⟨cols_inj (f := fun x : SeiLutEntry => (x.coded_value, x.target_value)) (by rintro ⟨⟩ ⟨⟩ h; simp_all) (cols e1 e2), steps_nil h3⟩)
    (fun hn => (ha.entries.absent hn).trans (hb.entries.absent hn).symm)) h
  exact ⟨by rw [e], steps_nil h⟩

theorem ne_nil_of_length {α : Type} {l m : List α} (h : l.length = m.length) : l ≠ [] ↔ m ≠ [] := by
  cases l <;> cases m <;> simp_all

theorem det_SeiUserDataRegistered {n : Nat} {s t : SeiUserDataRegistered} (ha : ValidSeiUserDataRegistered n s) (hb : ValidSeiUserDataRegistered n t) :
    Det (textSeiUserDataRegistered s) (textSeiUserDataRegistered t) (s = t) := by
  obtain ⟨a_itu_t_t35_country_code, a_itu_t_t35_country_code_extension_byte, a_payload⟩ := s
  obtain ⟨b_itu_t_t35_country_code, b_itu_t_t35_country_code_extension_byte, b_payload⟩ := t
  obtain ⟨va_size_nonzero, va_itu_t_t35_country_code, va_size_extension, va_itu_t_t35_country_code_extension_byte, va_payload⟩ := ha
  obtain ⟨vb_size_nonzero, vb_itu_t_t35_country_code, vb_size_extension, vb_itu_t_t35_country_code_extension_byte, vb_payload⟩ := hb
  dsimp only at *
  unfold textSeiUserDataRegistered
  dsimp only
  refine det_block (fun r r' h1 => ?_)
  replace h1 := step (det_u32 (by bd va_itu_t_t35_country_code) (by bd vb_itu_t_t35_country_code)) h1
  obtain ⟨rfl, h1⟩ := h1
  replace h1 := step (det_u32 (by bd va_itu_t_t35_country_code_extension_byte) (by bd vb_itu_t_t35_country_code_extension_byte)) h1
  obtain ⟨rfl, h1⟩ := h1
  replace h1 := step (det_numNat) h1
  obtain ⟨-, h1⟩ := h1
  replace h1 := step (det_listNat) h1
  obtain ⟨rfl, h1⟩ := h1
  exact ⟨rfl, steps_nil h1⟩

theorem det_SeiUserDataUnregistered {n : Nat} {s t : SeiUserDataUnregistered} (ha : ValidSeiUserDataUnregistered n s) (hb : ValidSeiUserDataUnregistered n t) :
    Det (textSeiUserDataUnregistered s) (textSeiUserDataUnregistered t) (s = t) := by
  obtain ⟨a_uuid_iso_iec_11578_1, a_uuid_iso_iec_11578_2, a_payload⟩ := s
  obtain ⟨b_uuid_iso_iec_11578_1, b_uuid_iso_iec_11578_2, b_payload⟩ := t
  obtain ⟨va_size_uuid, va_uuid_iso_iec_11578_1, va_uuid_iso_iec_11578_2, va_payload⟩ := ha
  obtain ⟨vb_size_uuid, vb_uuid_iso_iec_11578_1, vb_uuid_iso_iec_11578_2, vb_payload⟩ := hb
  dsimp only at *
  unfold textSeiUserDataUnregistered
  dsimp only
  refine det_block (fun r r' h1 => ?_)
  replace h1 := step (det_uuid) h1
  obtain ⟨⟨rfl, rfl⟩, h1⟩ := h1
  replace h1 := step (det_numNat) h1
  obtain ⟨-, h1⟩ := h1
  replace h1 := step (det_listNat) h1
  obtain ⟨rfl, h1⟩ := h1
  exact ⟨rfl, steps_nil h1⟩

theorem det_SeiAlphaChannelInfo {s t : SeiAlphaChannelInfo} (ha : ValidSeiAlphaChannelInfo s) (hb : ValidSeiAlphaChannelInfo t) :
    Det (textSeiAlphaChannelInfo s) (textSeiAlphaChannelInfo t) (s = t) := by
  obtain ⟨a_alpha_channel_cancel_flag, a_alpha_channel_use_idc, a_alpha_channel_bit_depth_minus8, a_alpha_transparent_value, a_alpha_opaque_value, a_alpha_channel_incr_flag, a_alpha_channel_clip_flag, a_alpha_channel_clip_type_flag⟩ := s
  obtain ⟨b_alpha_channel_cancel_flag, b_alpha_channel_use_idc, b_alpha_channel_bit_depth_minus8, b_alpha_transparent_value, b_alpha_opaque_value, b_alpha_channel_incr_flag, b_alpha_channel_clip_flag, b_alpha_channel_clip_type_flag⟩ := t
  obtain ⟨va_alpha_channel_cancel_flag, va_alpha_channel_use_idc, va_alpha_channel_bit_depth_minus8, va_alpha_transparent_value, va_alpha_opaque_value, va_alpha_channel_incr_flag, va_alpha_channel_clip_flag, va_alpha_channel_clip_type_flag⟩ := ha
  obtain ⟨vb_alpha_channel_cancel_flag, vb_alpha_channel_use_idc, vb_alpha_channel_bit_depth_minus8, vb_alpha_transparent_value, vb_alpha_opaque_value, vb_alpha_channel_incr_flag, vb_alpha_channel_clip_flag, vb_alpha_channel_clip_type_flag⟩ := hb
  dsimp only at *
  unfold textSeiAlphaChannelInfo
  dsimp only
  refine det_block (fun r r' h1 => ?_)
  replace h1 := step (det_u32 (by bd va_alpha_channel_cancel_flag) (by bd vb_alpha_channel_cancel_flag)) h1
  obtain ⟨rfl, h1⟩ := h1
  replace h1 := step (P := a_alpha_channel_use_idc = b_alpha_channel_use_idc ∧ a_alpha_channel_bit_depth_minus8 = b_alpha_channel_bit_depth_minus8 ∧ a_alpha_transparent_value = b_alpha_transparent_value ∧ a_alpha_opaque_value = b_alpha_opaque_value ∧ a_alpha_channel_incr_flag = b_alpha_channel_incr_flag ∧ a_alpha_channel_clip_flag = b_alpha_channel_clip_flag ∧ a_alpha_channel_clip_type_flag = b_alpha_channel_clip_type_flag) (det_when (fun hc r r' h3 => by
      replace h3 := step (det_u32 (by bd va_alpha_channel_use_idc) (by bd vb_alpha_channel_use_idc)) h3
      obtain ⟨rfl, h3⟩ := h3
      replace h3 := step (det_u32 (by bd va_alpha_channel_bit_depth_minus8) (by bd vb_alpha_channel_bit_depth_minus8)) h3
      obtain ⟨rfl, h3⟩ := h3
      have hbd := va_alpha_channel_bit_depth_minus8.present (by cnd)
      replace h3 := step (det_u32 (by bd va_alpha_transparent_value) (by bd vb_alpha_transparent_value)) h3
      obtain ⟨rfl, h3⟩ := h3
      replace h3 := step (det_u32 (by bd va_alpha_opaque_value) (by bd vb_alpha_opaque_value)) h3
      obtain ⟨rfl, h3⟩ := h3
      replace h3 := step (det_u32 (by bd va_alpha_channel_incr_flag) (by bd vb_alpha_channel_incr_flag)) h3
      obtain ⟨rfl, h3⟩ := h3
      replace h3 := step (det_u32 (by bd va_alpha_channel_clip_flag) (by bd vb_alpha_channel_clip_flag)) h3
      obtain ⟨rfl, h3⟩ := h3
      replace h3 := step (P := a_alpha_channel_clip_type_flag = b_alpha_channel_clip_type_flag) (det_when (fun hc r r' h5 => by
          replace h5 := step (det_u32 (by bd va_alpha_channel_clip_type_flag) (by bd vb_alpha_channel_clip_type_flag)) h5
          obtain ⟨rfl, h5⟩ := h5
          exact ⟨rfl, steps_nil h5⟩) (fun hn => by
          have x_alpha_channel_clip_type_flag := va_alpha_channel_clip_type_flag.absent (by cnd); have y_alpha_channel_clip_type_flag := vb_alpha_channel_clip_type_flag.absent (by cnd)
          exact x_alpha_channel_clip_type_flag.trans y_alpha_channel_clip_type_flag.symm)) h3
      obtain ⟨rfl, h3⟩ := h3
      exact ⟨⟨rfl, rfl, rfl, rfl, rfl, rfl, rfl⟩, steps_nil h3⟩) (fun hn => by
      have x_alpha_channel_use_idc := va_alpha_channel_use_idc.absent (by cnd); have y_alpha_channel_use_idc := vb_alpha_channel_use_idc.absent (by cnd)
      have x_alpha_channel_bit_depth_minus8 := va_alpha_channel_bit_depth_minus8.absent (by cnd); have y_alpha_channel_bit_depth_minus8 := vb_alpha_channel_bit_depth_minus8.absent (by cnd)
      have x_alpha_transparent_value := va_alpha_transparent_value.absent (by cnd); have y_alpha_transparent_value := vb_alpha_transparent_value.absent (by cnd)
      have x_alpha_opaque_value := va_alpha_opaque_value.absent (by cnd); have y_alpha_opaque_value := vb_alpha_opaque_value.absent (by cnd)
      have x_alpha_channel_incr_flag := va_alpha_channel_incr_flag.absent (by cnd); have y_alpha_channel_incr_flag := vb_alpha_channel_incr_flag.absent (by cnd)
      have x_alpha_channel_clip_flag := va_alpha_channel_clip_flag.absent (by cnd); have y_alpha_channel_clip_flag := vb_alpha_channel_clip_flag.absent (by cnd)
      have x_alpha_channel_clip_type_flag := va_alpha_channel_clip_type_flag.absent (by cnd); have y_alpha_channel_clip_type_flag := vb_alpha_channel_clip_type_flag.absent (by cnd)
      exact ⟨x_alpha_channel_use_idc.trans y_alpha_channel_use_idc.symm, x_alpha_channel_bit_depth_minus8.trans y_alpha_channel_bit_depth_minus8.symm, x_alpha_transparent_value.trans y_alpha_transparent_value.symm, x_alpha_opaque_value.trans y_alpha_opaque_value.symm, x_alpha_channel_incr_flag.trans y_alpha_channel_incr_flag.symm, x_alpha_channel_clip_flag.trans y_alpha_channel_clip_flag.symm, x_alpha_channel_clip_type_flag.trans y_alpha_channel_clip_type_flag.symm⟩)) h1
  obtain ⟨⟨rfl, rfl, rfl, rfl, rfl, rfl, rfl⟩, h1⟩ := h1
  exact ⟨rfl, steps_nil h1⟩

theorem det_SeiMasteringDisplay {s t : SeiMasteringDisplay} (ha : ValidSeiMasteringDisplay s) (hb : ValidSeiMasteringDisplay t) :
    Det (textSeiMasteringDisplay s) (textSeiMasteringDisplay t) (s = t) := by
  obtain ⟨a_display_primaries, a_white_point_x, a_white_point_y, a_max_display_mastering_luminance, a_min_display_mastering_luminance⟩ := s
  obtain ⟨b_display_primaries, b_white_point_x, b_white_point_y, b_max_display_mastering_luminance, b_min_display_mastering_luminance⟩ := t
  obtain ⟨va_display_primaries, va_white_point_x, va_white_point_y, va_max_display_mastering_luminance, va_min_display_mastering_luminance⟩ := ha
  obtain ⟨vb_display_primaries, vb_white_point_x, vb_white_point_y, vb_max_display_mastering_luminance, vb_min_display_mastering_luminance⟩ := hb
  dsimp only at *
  unfold textSeiMasteringDisplay
  dsimp only
  refine det_block (fun r r' h1 => ?_)
  replace h1 := step (det_at va_display_primaries vb_display_primaries 0 (fun _ _ _ _ => det_primary)) h1
  obtain ⟨e_display_primaries0, h1⟩ := h1
  replace h1 := step (det_at va_display_primaries vb_display_primaries 1 (fun _ _ _ _ => det_primary)) h1
  obtain ⟨e_display_primaries1, h1⟩ := h1
  replace h1 := step (det_at va_display_primaries vb_display_primaries 2 (fun _ _ _ _ => det_primary)) h1
  obtain ⟨e_display_primaries2, h1⟩ := h1
  obtain rfl := three_ext va_display_primaries vb_display_primaries e_display_primaries0 e_display_primaries1 e_display_primaries2
  replace h1 := step (det_chromaticity) h1
  obtain ⟨rfl, h1⟩ := h1
  replace h1 := step (det_chromaticity) h1
  obtain ⟨rfl, h1⟩ := h1
  replace h1 := step (det_luminance) h1
  obtain ⟨rfl, h1⟩ := h1
  replace h1 := step (det_luminance) h1
  obtain ⟨rfl, h1⟩ := h1
  exact ⟨rfl, steps_nil h1⟩

theorem det_SeiContentLightLevel {s t : SeiContentLightLevel} (ha : ValidSeiContentLightLevel s) (hb : ValidSeiContentLightLevel t) :
    Det (textSeiContentLightLevel s) (textSeiContentLightLevel t) (s = t) := by
  obtain ⟨a_max_content_light_level, a_max_pic_average_light_level⟩ := s
  obtain ⟨b_max_content_light_level, b_max_pic_average_light_level⟩ := t
  obtain ⟨va_max_content_light_level, va_max_pic_average_light_level⟩ := ha
  obtain ⟨vb_max_content_light_level, vb_max_pic_average_light_level⟩ := hb
  dsimp only at *
  unfold textSeiContentLightLevel
  dsimp only
  refine det_block (fun r r' h1 => ?_)
  replace h1 := step (det_light) h1
  obtain ⟨rfl, h1⟩ := h1
  replace h1 := step (det_light) h1
  obtain ⟨rfl, h1⟩ := h1
  exact ⟨rfl, steps_nil h1⟩

theorem det_SeiKneeFunction {s t : SeiKneeFunction} (ha : ValidSeiKneeFunction s) (hb : ValidSeiKneeFunction t) :
    Det (textSeiKneeFunction s) (textSeiKneeFunction t) (s = t) := by
  obtain ⟨a_knee_function_id, a_knee_function_cancel_flag, a_knee_function_persistence_flag, a_input_d_range, a_input_disp_luminance, a_output_d_range, a_output_disp_luminance, a_num_knee_points_minus1, a_knee_points⟩ := s
  obtain ⟨b_knee_function_id, b_knee_function_cancel_flag, b_knee_function_persistence_flag, b_input_d_range, b_input_disp_luminance, b_output_d_range, b_output_disp_luminance, b_num_knee_points_minus1, b_knee_points⟩ := t
  obtain ⟨va_knee_function_id, va_knee_function_cancel_flag, va_knee_function_persistence_flag, va_input_d_range, va_input_disp_luminance, va_output_d_range, va_output_disp_luminance, va_num_knee_points_minus1, va_knee_points⟩ := ha
  obtain ⟨vb_knee_function_id, vb_knee_function_cancel_flag, vb_knee_function_persistence_flag, vb_input_d_range, vb_input_disp_luminance, vb_output_d_range, vb_output_disp_luminance, vb_num_knee_points_minus1, vb_knee_points⟩ := hb
  dsimp only at *
  unfold textSeiKneeFunction
  dsimp only
  refine det_block (fun r r' h1 => ?_)
  replace h1 := step (det_numNat) h1
  obtain ⟨rfl, h1⟩ := h1
  replace h1 := step (det_numNat) h1
  obtain ⟨rfl, h1⟩ := h1
  replace h1 := step (P := a_knee_function_persistence_flag = b_knee_function_persistence_flag ∧ a_input_d_range = b_input_d_range ∧ a_input_disp_luminance = b_input_disp_luminance ∧ a_output_d_range = b_output_d_range ∧ a_output_disp_luminance = b_output_disp_luminance ∧ a_num_knee_points_minus1 = b_num_knee_points_minus1 ∧ a_knee_points = b_knee_points) (det_when (fun hc r r' h3 => by
      replace h3 := step (det_numNat) h3
      obtain ⟨rfl, h3⟩ := h3
      replace h3 := step (det_numNat) h3
      obtain ⟨rfl, h3⟩ := h3
      replace h3 := step (det_numNat) h3
      obtain ⟨rfl, h3⟩ := h3
      replace h3 := step (det_numNat) h3
      obtain ⟨rfl, h3⟩ := h3
      replace h3 := step (det_numNat) h3
      obtain ⟨rfl, h3⟩ := h3
      replace h3 := step (det_numNat) h3
      obtain ⟨rfl, h3⟩ := h3
      replace h3 := step (P := a_knee_points = b_knee_points) (det_opt (ne_nil_of_length ((va_knee_points.present (by cnd)).length.trans (vb_knee_points.present (by cnd)).length.symm)) (fun hc _ r r' h5 => by
          replace h5 := step (det_listNat) h5
          obtain ⟨e_knee_points_input_knee_point, h5⟩ := h5
          replace h5 := step (det_listNat) h5
          obtain ⟨e_knee_points_output_knee_point, h5⟩ := h5
          obtain rfl := cols_inj (f := fun x : SeiKneePoint => (x.input_knee_point, x.output_knee_point)) (by rintro ⟨⟩ ⟨⟩ h5; simp_all) (cols e_knee_points_input_knee_point e_knee_points_output_knee_point)
          exact ⟨rfl, steps_nil h5⟩) (fun hn hn' => by
          have x_knee_points := Classical.not_not.1 hn; have y_knee_points := Classical.not_not.1 hn'
          exact x_knee_points.trans y_knee_points.symm)) h3
      obtain ⟨rfl, h3⟩ := h3
      exact ⟨⟨rfl, rfl, rfl, rfl, rfl, rfl, rfl⟩, steps_nil h3⟩) (fun hn => by
      have x_knee_function_persistence_flag := va_knee_function_persistence_flag.absent (by cnd); have y_knee_function_persistence_flag := vb_knee_function_persistence_flag.absent (by cnd)
      have x_input_d_range := va_input_d_range.absent (by cnd); have y_input_d_range := vb_input_d_range.absent (by cnd)
      have x_input_disp_luminance := va_input_disp_luminance.absent (by cnd); have y_input_disp_luminance := vb_input_disp_luminance.absent (by cnd)
      have x_output_d_range := va_output_d_range.absent (by cnd); have y_output_d_range := vb_output_d_range.absent (by cnd)
      have x_output_disp_luminance := va_output_disp_luminance.absent (by cnd); have y_output_disp_luminance := vb_output_disp_luminance.absent (by cnd)
      have x_num_knee_points_minus1 := va_num_knee_points_minus1.absent (by cnd); have y_num_knee_points_minus1 := vb_num_knee_points_minus1.absent (by cnd)
      have x_knee_points := va_knee_points.absent (by cnd); have y_knee_points := vb_knee_points.absent (by cnd)
      exact ⟨x_knee_function_persistence_flag.trans y_knee_function_persistence_flag.symm, x_input_d_range.trans y_input_d_range.symm, x_input_disp_luminance.trans y_input_disp_luminance.symm, x_output_d_range.trans y_output_d_range.symm, x_output_disp_luminance.trans y_output_disp_luminance.symm, x_num_knee_points_minus1.trans y_num_knee_points_minus1.symm, x_knee_points.trans y_knee_points.symm⟩)) h1
  obtain ⟨⟨rfl, rfl, rfl, rfl, rfl, rfl, rfl⟩, h1⟩ := h1
  exact ⟨rfl, steps_nil h1⟩

theorem det_SeiColourRemapping {s t : SeiColourRemapping} (ha : ValidSeiColourRemapping s) (hb : ValidSeiColourRemapping t) :
    Det (textSeiColourRemapping s) (textSeiColourRemapping t) (s = t) := by
  obtain ⟨a_colour_remap_id, a_colour_remap_cancel_flag, a_colour_remap_persistence_flag, a_colour_remap_video_signal_info_present_flag, a_colour_remap_full_range_flag, a_colour_remap_primaries, a_colour_remap_transfer_function, a_colour_remap_matrix_coefficients, a_colour_remap_input_bit_depth, a_colour_remap_output_bit_depth, a_pre_lut, a_colour_remap_matrix_present_flag, a_log2_matrix_denom, a_colour_remap_coeffs, a_post_lut⟩ := s
  obtain ⟨b_colour_remap_id, b_colour_remap_cancel_flag, b_colour_remap_persistence_flag, b_colour_remap_video_signal_info_present_flag, b_colour_remap_full_range_flag, b_colour_remap_primaries, b_colour_remap_transfer_function, b_colour_remap_matrix_coefficients, b_colour_remap_input_bit_depth, b_colour_remap_output_bit_depth, b_pre_lut, b_colour_remap_matrix_present_flag, b_log2_matrix_denom, b_colour_remap_coeffs, b_post_lut⟩ := t
  obtain ⟨va_colour_remap_id, va_colour_remap_cancel_flag, va_colour_remap_persistence_flag, va_colour_remap_video_signal_info_present_flag, va_colour_remap_full_range_flag, va_colour_remap_primaries, va_colour_remap_transfer_function, va_colour_remap_matrix_coefficients, va_colour_remap_input_bit_depth, va_colour_remap_output_bit_depth, va_bit_depths_nonzero, va_pre_lut, va_colour_remap_matrix_present_flag, va_log2_matrix_denom, va_colour_remap_coeffs, va_post_lut⟩ := ha
  obtain ⟨vb_colour_remap_id, vb_colour_remap_cancel_flag, vb_colour_remap_persistence_flag, vb_colour_remap_video_signal_info_present_flag, vb_colour_remap_full_range_flag, vb_colour_remap_primaries, vb_colour_remap_transfer_function, vb_colour_remap_matrix_coefficients, vb_colour_remap_input_bit_depth, vb_colour_remap_output_bit_depth, vb_bit_depths_nonzero, vb_pre_lut, vb_colour_remap_matrix_present_flag, vb_log2_matrix_denom, vb_colour_remap_coeffs, vb_post_lut⟩ := hb
  dsimp only at *
  unfold textSeiColourRemapping
  dsimp only
  refine det_block (fun r r' h1 => ?_)
  replace h1 := step (det_numNat) h1
  obtain ⟨rfl, h1⟩ := h1
  replace h1 := step (det_numNat) h1
  obtain ⟨rfl, h1⟩ := h1
  replace h1 := step (P := a_colour_remap_persistence_flag = b_colour_remap_persistence_flag ∧ a_colour_remap_video_signal_info_present_flag = b_colour_remap_video_signal_info_present_flag ∧ a_colour_remap_full_range_flag = b_colour_remap_full_range_flag ∧ a_colour_remap_primaries = b_colour_remap_primaries ∧ a_colour_remap_transfer_function = b_colour_remap_transfer_function ∧ a_colour_remap_matrix_coefficients = b_colour_remap_matrix_coefficients ∧ a_colour_remap_input_bit_depth = b_colour_remap_input_bit_depth ∧ a_colour_remap_output_bit_depth = b_colour_remap_output_bit_depth ∧ a_pre_lut = b_pre_lut ∧ a_colour_remap_matrix_present_flag = b_colour_remap_matrix_present_flag ∧ a_log2_matrix_denom = b_log2_matrix_denom ∧ a_colour_remap_coeffs = b_colour_remap_coeffs ∧ a_post_lut = b_post_lut) (det_when (fun hc r r' h3 => by
      replace h3 := step (det_numNat) h3
      obtain ⟨rfl, h3⟩ := h3
      replace h3 := step (det_numNat) h3
      obtain ⟨rfl, h3⟩ := h3
      replace h3 := step (P := a_colour_remap_full_range_flag = b_colour_remap_full_range_flag ∧ a_colour_remap_primaries = b_colour_remap_primaries ∧ a_colour_remap_transfer_function = b_colour_remap_transfer_function ∧ a_colour_remap_matrix_coefficients = b_colour_remap_matrix_coefficients) (det_when (fun hc r r' h5 => by
          replace h5 := step (det_numNat) h5
          obtain ⟨rfl, h5⟩ := h5
          replace h5 := step (det_numNat) h5
          obtain ⟨rfl, h5⟩ := h5
          replace h5 := step (det_numNat) h5
          obtain ⟨rfl, h5⟩ := h5
          replace h5 := step (det_numNat) h5
          obtain ⟨rfl, h5⟩ := h5
          exact ⟨⟨rfl, rfl, rfl, rfl⟩, steps_nil h5⟩) (fun hn => by
          have x_colour_remap_full_range_flag := va_colour_remap_full_range_flag.absent (by cnd); have y_colour_remap_full_range_flag := vb_colour_remap_full_range_flag.absent (by cnd)
          have x_colour_remap_primaries := va_colour_remap_primaries.absent (by cnd); have y_colour_remap_primaries := vb_colour_remap_primaries.absent (by cnd)
          have x_colour_remap_transfer_function := va_colour_remap_transfer_function.absent (by cnd); have y_colour_remap_transfer_function := vb_colour_remap_transfer_function.absent (by cnd)
          have x_colour_remap_matrix_coefficients := va_colour_remap_matrix_coefficients.absent (by cnd); have y_colour_remap_matrix_coefficients := vb_colour_remap_matrix_coefficients.absent (by cnd)
          exact ⟨x_colour_remap_full_range_flag.trans y_colour_remap_full_range_flag.symm, x_colour_remap_primaries.trans y_colour_remap_primaries.symm, x_colour_remap_transfer_function.trans y_colour_remap_transfer_function.symm, x_colour_remap_matrix_coefficients.trans y_colour_remap_matrix_coefficients.symm⟩)) h3
      obtain ⟨⟨rfl, rfl, rfl, rfl⟩, h3⟩ := h3
      replace h3 := step (det_numNat) h3
      obtain ⟨rfl, h3⟩ := h3
      replace h3 := step (det_numNat) h3
      obtain ⟨rfl, h3⟩ := h3
      replace h3 := step (det_at (va_pre_lut.present (by cnd)) (vb_pre_lut.present (by cnd)) 0 (fun _ _ vx vy => det_lut vx vy)) h3
      obtain ⟨e_pre_lut0, h3⟩ := h3
      replace h3 := step (det_at (va_pre_lut.present (by cnd)) (vb_pre_lut.present (by cnd)) 1 (fun _ _ vx vy => det_lut vx vy)) h3
      obtain ⟨e_pre_lut1, h3⟩ := h3
      replace h3 := step (det_at (va_pre_lut.present (by cnd)) (vb_pre_lut.present (by cnd)) 2 (fun _ _ vx vy => det_lut vx vy)) h3
      obtain ⟨e_pre_lut2, h3⟩ := h3
      obtain rfl := three_ext (va_pre_lut.present (by cnd)) (vb_pre_lut.present (by cnd)) e_pre_lut0 e_pre_lut1 e_pre_lut2
      replace h3 := step (det_numNat) h3
      obtain ⟨rfl, h3⟩ := h3
      replace h3 := step (P := a_log2_matrix_denom = b_log2_matrix_denom ∧ a_colour_remap_coeffs = b_colour_remap_coeffs) (det_when (fun hc r r' h5 => by
          replace h5 := step (det_numNat) h5
          obtain ⟨rfl, h5⟩ := h5
          replace h5 := step (P := a_colour_remap_coeffs = b_colour_remap_coeffs) (det_opt (ne_nil_of_length ((va_colour_remap_coeffs.present (by cnd)).length.trans (vb_colour_remap_coeffs.present (by cnd)).length.symm)) (fun hc _ r r' h7 => by
              replace h7 := step (det_at (va_colour_remap_coeffs.present (by cnd)) (vb_colour_remap_coeffs.present (by cnd)) 0 (fun _ _ _ _ r t h7 => (fun h7 => ⟨h7.1, steps_nil h7.2⟩) (step det_list h7))) h7
              obtain ⟨e_colour_remap_coeffs0, h7⟩ := h7
              replace h7 := step (det_at (va_colour_remap_coeffs.present (by cnd)) (vb_colour_remap_coeffs.present (by cnd)) 1 (fun _ _ _ _ r t h7 => (fun h7 => ⟨h7.1, steps_nil h7.2⟩) (step det_list h7))) h7
              obtain ⟨e_colour_remap_coeffs1, h7⟩ := h7
              replace h7 := step (det_at (va_colour_remap_coeffs.present (by cnd)) (vb_colour_remap_coeffs.present (by cnd)) 2 (fun _ _ _ _ r t h7 => (fun h7 => ⟨h7.1, steps_nil h7.2⟩) (step det_list h7))) h7
              obtain ⟨e_colour_remap_coeffs2, h7⟩ := h7
              obtain rfl := three_ext (va_colour_remap_coeffs.present (by cnd)) (vb_colour_remap_coeffs.present (by cnd)) e_colour_remap_coeffs0 e_colour_remap_coeffs1 e_colour_remap_coeffs2
              exact ⟨rfl, steps_nil h7⟩) (fun hn hn' => by
              have x_colour_remap_coeffs := Classical.not_not.1 hn; have y_colour_remap_coeffs := Classical.not_not.1 hn'
              exact x_colour_remap_coeffs.trans y_colour_remap_coeffs.symm)) h5
          obtain ⟨rfl, h5⟩ := h5
          exact ⟨⟨rfl, rfl⟩, steps_nil h5⟩) (fun hn => by
          have x_log2_matrix_denom := va_log2_matrix_denom.absent (by cnd); have y_log2_matrix_denom := vb_log2_matrix_denom.absent (by cnd)
          have x_colour_remap_coeffs := va_colour_remap_coeffs.absent (by cnd); have y_colour_remap_coeffs := vb_colour_remap_coeffs.absent (by cnd)
          exact ⟨x_log2_matrix_denom.trans y_log2_matrix_denom.symm, x_colour_remap_coeffs.trans y_colour_remap_coeffs.symm⟩)) h3
      obtain ⟨⟨rfl, rfl⟩, h3⟩ := h3
      replace h3 := step (det_at (va_post_lut.present (by cnd)) (vb_post_lut.present (by cnd)) 0 (fun _ _ vx vy => det_lut vx vy)) h3
      obtain ⟨e_post_lut0, h3⟩ := h3
      replace h3 := step (det_at (va_post_lut.present (by cnd)) (vb_post_lut.present (by cnd)) 1 (fun _ _ vx vy => det_lut vx vy)) h3
      obtain ⟨e_post_lut1, h3⟩ := h3
      replace h3 := step (det_at (va_post_lut.present (by cnd)) (vb_post_lut.present (by cnd)) 2 (fun _ _ vx vy => det_lut vx vy)) h3
      obtain ⟨e_post_lut2, h3⟩ := h3
      obtain rfl := three_ext (va_post_lut.present (by cnd)) (vb_post_lut.present (by cnd)) e_post_lut0 e_post_lut1 e_post_lut2
      exact ⟨⟨rfl, rfl, rfl, rfl, rfl, rfl, rfl, rfl, rfl, rfl, rfl, rfl, rfl⟩, steps_nil h3⟩) (fun hn => by
      have x_colour_remap_persistence_flag := va_colour_remap_persistence_flag.absent (by cnd); have y_colour_remap_persistence_flag := vb_colour_remap_persistence_flag.absent (by cnd)
      have x_colour_remap_video_signal_info_present_flag := va_colour_remap_video_signal_info_present_flag.absent (by cnd); have y_colour_remap_video_signal_info_present_flag := vb_colour_remap_video_signal_info_present_flag.absent (by cnd)
      have x_colour_remap_full_range_flag := va_colour_remap_full_range_flag.absent (by cnd); have y_colour_remap_full_range_flag := vb_colour_remap_full_range_flag.absent (by cnd)
      have x_colour_remap_primaries := va_colour_remap_primaries.absent (by cnd); have y_colour_remap_primaries := vb_colour_remap_primaries.absent (by cnd)
      have x_colour_remap_transfer_function := va_colour_remap_transfer_function.absent (by cnd); have y_colour_remap_transfer_function := vb_colour_remap_transfer_function.absent (by cnd)
      have x_colour_remap_matrix_coefficients := va_colour_remap_matrix_coefficients.absent (by cnd); have y_colour_remap_matrix_coefficients := vb_colour_remap_matrix_coefficients.absent (by cnd)
      have x_colour_remap_input_bit_depth := va_colour_remap_input_bit_depth.absent (by cnd); have y_colour_remap_input_bit_depth := vb_colour_remap_input_bit_depth.absent (by cnd)
      have x_colour_remap_output_bit_depth := va_colour_remap_output_bit_depth.absent (by cnd); have y_colour_remap_output_bit_depth := vb_colour_remap_output_bit_depth.absent (by cnd)
      have x_pre_lut := va_pre_lut.absent (by cnd); have y_pre_lut := vb_pre_lut.absent (by cnd)
      have x_colour_remap_matrix_present_flag := va_colour_remap_matrix_present_flag.absent (by cnd); have y_colour_remap_matrix_present_flag := vb_colour_remap_matrix_present_flag.absent (by cnd)
      have x_log2_matrix_denom := va_log2_matrix_denom.absent (by cnd); have y_log2_matrix_denom := vb_log2_matrix_denom.absent (by cnd)
      have x_colour_remap_coeffs := va_colour_remap_coeffs.absent (by cnd); have y_colour_remap_coeffs := vb_colour_remap_coeffs.absent (by cnd)
      have x_post_lut := va_post_lut.absent (by cnd); have y_post_lut := vb_post_lut.absent (by cnd)
      exact ⟨x_colour_remap_persistence_flag.trans y_colour_remap_persistence_flag.symm, x_colour_remap_video_signal_info_present_flag.trans y_colour_remap_video_signal_info_present_flag.symm, x_colour_remap_full_range_flag.trans y_colour_remap_full_range_flag.symm, x_colour_remap_primaries.trans y_colour_remap_primaries.symm, x_colour_remap_transfer_function.trans y_colour_remap_transfer_function.symm, x_colour_remap_matrix_coefficients.trans y_colour_remap_matrix_coefficients.symm, x_colour_remap_input_bit_depth.trans y_colour_remap_input_bit_depth.symm, x_colour_remap_output_bit_depth.trans y_colour_remap_output_bit_depth.symm, x_pre_lut.trans y_pre_lut.symm, x_colour_remap_matrix_present_flag.trans y_colour_remap_matrix_present_flag.symm, x_log2_matrix_denom.trans y_log2_matrix_denom.symm, x_colour_remap_coeffs.trans y_colour_remap_coeffs.symm, x_post_lut.trans y_post_lut.symm⟩)) h1
  obtain ⟨⟨rfl, rfl, rfl, rfl, rfl, rfl, rfl, rfl, rfl, rfl, rfl, rfl, rfl⟩, h1⟩ := h1
  exact ⟨rfl, steps_nil h1⟩

theorem det_SeiContentColourVolume {s t : SeiContentColourVolume} (ha : ValidSeiContentColourVolume s) (hb : ValidSeiContentColourVolume t) :
    Det (textSeiContentColourVolume s) (textSeiContentColourVolume t) (s = t) := by
  obtain ⟨a_ccv_cancel_flag, a_ccv_persistence_flag, a_ccv_primaries_present_flag, a_ccv_min_luminance_value_present_flag, a_ccv_max_luminance_value_present_flag, a_ccv_avg_luminance_value_present_flag, a_ccv_reserved_zero_2bits, a_ccv_primaries, a_ccv_min_luminance_value, a_ccv_max_luminance_value, a_ccv_avg_luminance_value⟩ := s
  obtain ⟨b_ccv_cancel_flag, b_ccv_persistence_flag, b_ccv_primaries_present_flag, b_ccv_min_luminance_value_present_flag, b_ccv_max_luminance_value_present_flag, b_ccv_avg_luminance_value_present_flag, b_ccv_reserved_zero_2bits, b_ccv_primaries, b_ccv_min_luminance_value, b_ccv_max_luminance_value, b_ccv_avg_luminance_value⟩ := t
  obtain ⟨va_ccv_cancel_flag, va_ccv_persistence_flag, va_ccv_primaries_present_flag, va_ccv_min_luminance_value_present_flag, va_ccv_max_luminance_value_present_flag, va_ccv_avg_luminance_value_present_flag, va_ccv_reserved_zero_2bits, va_ccv_primaries, va_ccv_min_luminance_value, va_ccv_max_luminance_value, va_ccv_avg_luminance_value⟩ := ha
  obtain ⟨vb_ccv_cancel_flag, vb_ccv_persistence_flag, vb_ccv_primaries_present_flag, vb_ccv_min_luminance_value_present_flag, vb_ccv_max_luminance_value_present_flag, vb_ccv_avg_luminance_value_present_flag, vb_ccv_reserved_zero_2bits, vb_ccv_primaries, vb_ccv_min_luminance_value, vb_ccv_max_luminance_value, vb_ccv_avg_luminance_value⟩ := hb
  dsimp only at *
  unfold textSeiContentColourVolume
  dsimp only
  refine det_block (fun r r' h1 => ?_)
  replace h1 := step (det_numNat) h1
  obtain ⟨rfl, h1⟩ := h1
  replace h1 := step (P := a_ccv_persistence_flag = b_ccv_persistence_flag ∧ a_ccv_primaries_present_flag = b_ccv_primaries_present_flag ∧ a_ccv_min_luminance_value_present_flag = b_ccv_min_luminance_value_present_flag ∧ a_ccv_max_luminance_value_present_flag = b_ccv_max_luminance_value_present_flag ∧ a_ccv_avg_luminance_value_present_flag = b_ccv_avg_luminance_value_present_flag ∧ a_ccv_reserved_zero_2bits = b_ccv_reserved_zero_2bits ∧ a_ccv_primaries = b_ccv_primaries ∧ a_ccv_min_luminance_value = b_ccv_min_luminance_value ∧ a_ccv_max_luminance_value = b_ccv_max_luminance_value ∧ a_ccv_avg_luminance_value = b_ccv_avg_luminance_value) (det_when (fun hc r r' h3 => by
      replace h3 := step (det_numNat) h3
      obtain ⟨rfl, h3⟩ := h3
      replace h3 := step (det_numNat) h3
      obtain ⟨rfl, h3⟩ := h3
      replace h3 := step (det_numNat) h3
      obtain ⟨rfl, h3⟩ := h3
      replace h3 := step (det_numNat) h3
      obtain ⟨rfl, h3⟩ := h3
      replace h3 := step (det_numNat) h3
      obtain ⟨rfl, h3⟩ := h3
      replace h3 := step (det_numNat) h3
      obtain ⟨rfl, h3⟩ := h3
      replace h3 := step (P := a_ccv_primaries = b_ccv_primaries) (det_when (fun hc r r' h5 => by
          replace h5 := step (det_at (va_ccv_primaries.present (by cnd)) (vb_ccv_primaries.present (by cnd)) 0 (fun _ _ _ _ => det_ccv)) h5
          obtain ⟨e_ccv_primaries0, h5⟩ := h5
          replace h5 := step (det_at (va_ccv_primaries.present (by cnd)) (vb_ccv_primaries.present (by cnd)) 1 (fun _ _ _ _ => det_ccv)) h5
          obtain ⟨e_ccv_primaries1, h5⟩ := h5
          replace h5 := step (det_at (va_ccv_primaries.present (by cnd)) (vb_ccv_primaries.present (by cnd)) 2 (fun _ _ _ _ => det_ccv)) h5
          obtain ⟨e_ccv_primaries2, h5⟩ := h5
          obtain rfl := three_ext (va_ccv_primaries.present (by cnd)) (vb_ccv_primaries.present (by cnd)) e_ccv_primaries0 e_ccv_primaries1 e_ccv_primaries2
          exact ⟨rfl, steps_nil h5⟩) (fun hn => by
          have x_ccv_primaries := va_ccv_primaries.absent (by cnd); have y_ccv_primaries := vb_ccv_primaries.absent (by cnd)
          exact x_ccv_primaries.trans y_ccv_primaries.symm)) h3
      obtain ⟨rfl, h3⟩ := h3
      replace h3 := step (P := a_ccv_min_luminance_value = b_ccv_min_luminance_value) (det_when (fun hc r r' h5 => by
          replace h5 := step (det_numNat) h5
          obtain ⟨rfl, h5⟩ := h5
          exact ⟨rfl, steps_nil h5⟩) (fun hn => by
          have x_ccv_min_luminance_value := va_ccv_min_luminance_value.absent (by cnd); have y_ccv_min_luminance_value := vb_ccv_min_luminance_value.absent (by cnd)
          exact x_ccv_min_luminance_value.trans y_ccv_min_luminance_value.symm)) h3
      obtain ⟨rfl, h3⟩ := h3
      replace h3 := step (P := a_ccv_max_luminance_value = b_ccv_max_luminance_value) (det_when (fun hc r r' h5 => by
          replace h5 := step (det_numNat) h5
          obtain ⟨rfl, h5⟩ := h5
          exact ⟨rfl, steps_nil h5⟩) (fun hn => by
          have x_ccv_max_luminance_value := va_ccv_max_luminance_value.absent (by cnd); have y_ccv_max_luminance_value := vb_ccv_max_luminance_value.absent (by cnd)
          exact x_ccv_max_luminance_value.trans y_ccv_max_luminance_value.symm)) h3
      obtain ⟨rfl, h3⟩ := h3
      replace h3 := step (P := a_ccv_avg_luminance_value = b_ccv_avg_luminance_value) (det_when (fun hc r r' h5 => by
          replace h5 := step (det_numNat) h5
          obtain ⟨rfl, h5⟩ := h5
          exact ⟨rfl, steps_nil h5⟩) (fun hn => by
          have x_ccv_avg_luminance_value := va_ccv_avg_luminance_value.absent (by cnd); have y_ccv_avg_luminance_value := vb_ccv_avg_luminance_value.absent (by cnd)
          exact x_ccv_avg_luminance_value.trans y_ccv_avg_luminance_value.symm)) h3
      obtain ⟨rfl, h3⟩ := h3
      exact ⟨⟨rfl, rfl, rfl, rfl, rfl, rfl, rfl, rfl, rfl, rfl⟩, steps_nil h3⟩) (fun hn => by
      have x_ccv_persistence_flag := va_ccv_persistence_flag.absent (by cnd); have y_ccv_persistence_flag := vb_ccv_persistence_flag.absent (by cnd)
      have x_ccv_primaries_present_flag := va_ccv_primaries_present_flag.absent (by cnd); have y_ccv_primaries_present_flag := vb_ccv_primaries_present_flag.absent (by cnd)
      have x_ccv_min_luminance_value_present_flag := va_ccv_min_luminance_value_present_flag.absent (by cnd); have y_ccv_min_luminance_value_present_flag := vb_ccv_min_luminance_value_present_flag.absent (by cnd)
      have x_ccv_max_luminance_value_present_flag := va_ccv_max_luminance_value_present_flag.absent (by cnd); have y_ccv_max_luminance_value_present_flag := vb_ccv_max_luminance_value_present_flag.absent (by cnd)
      have x_ccv_avg_luminance_value_present_flag := va_ccv_avg_luminance_value_present_flag.absent (by cnd); have y_ccv_avg_luminance_value_present_flag := vb_ccv_avg_luminance_value_present_flag.absent (by cnd)
      have x_ccv_reserved_zero_2bits := va_ccv_reserved_zero_2bits.absent (by cnd); have y_ccv_reserved_zero_2bits := vb_ccv_reserved_zero_2bits.absent (by cnd)
      have x_ccv_primaries := va_ccv_primaries.absent (by cnd); have y_ccv_primaries := vb_ccv_primaries.absent (by cnd)
      have x_ccv_min_luminance_value := va_ccv_min_luminance_value.absent (by cnd); have y_ccv_min_luminance_value := vb_ccv_min_luminance_value.absent (by cnd)
      have x_ccv_max_luminance_value := va_ccv_max_luminance_value.absent (by cnd); have y_ccv_max_luminance_value := vb_ccv_max_luminance_value.absent (by cnd)
      have x_ccv_avg_luminance_value := va_ccv_avg_luminance_value.absent (by cnd); have y_ccv_avg_luminance_value := vb_ccv_avg_luminance_value.absent (by cnd)
      exact ⟨x_ccv_persistence_flag.trans y_ccv_persistence_flag.symm, x_ccv_primaries_present_flag.trans y_ccv_primaries_present_flag.symm, x_ccv_min_luminance_value_present_flag.trans y_ccv_min_luminance_value_present_flag.symm, x_ccv_max_luminance_value_present_flag.trans y_ccv_max_luminance_value_present_flag.symm, x_ccv_avg_luminance_value_present_flag.trans y_ccv_avg_luminance_value_present_flag.symm, x_ccv_reserved_zero_2bits.trans y_ccv_reserved_zero_2bits.symm, x_ccv_primaries.trans y_ccv_primaries.symm, x_ccv_min_luminance_value.trans y_ccv_min_luminance_value.symm, x_ccv_max_luminance_value.trans y_ccv_max_luminance_value.symm, x_ccv_avg_luminance_value.trans y_ccv_avg_luminance_value.symm⟩)) h1
  obtain ⟨⟨rfl, rfl, rfl, rfl, rfl, rfl, rfl, rfl, rfl, rfl⟩, h1⟩ := h1
  exact ⟨rfl, steps_nil h1⟩

theorem det_SeiAlternativeTransfer {s t : SeiAlternativeTransfer} (ha : ValidSeiAlternativeTransfer s) (hb : ValidSeiAlternativeTransfer t) :
    Det (textSeiAlternativeTransfer s) (textSeiAlternativeTransfer t) (s = t) := by
  obtain ⟨a_preferred_transfer_characteristics⟩ := s
  obtain ⟨b_preferred_transfer_characteristics⟩ := t
  obtain ⟨va_preferred_transfer_characteristics⟩ := ha
  obtain ⟨vb_preferred_transfer_characteristics⟩ := hb
  dsimp only at *
  unfold textSeiAlternativeTransfer
  dsimp only
  refine det_block (fun r r' h1 => ?_)
  replace h1 := step (det_numNat) h1
  obtain ⟨rfl, h1⟩ := h1
  exact ⟨rfl, steps_nil h1⟩

theorem det_SeiAmbientViewing {s t : SeiAmbientViewing} (ha : ValidSeiAmbientViewing s) (hb : ValidSeiAmbientViewing t) :
    Det (textSeiAmbientViewing s) (textSeiAmbientViewing t) (s = t) := by
  obtain ⟨a_ambient_illuminance, a_ambient_light_x, a_ambient_light_y⟩ := s
  obtain ⟨b_ambient_illuminance, b_ambient_light_x, b_ambient_light_y⟩ := t
  obtain ⟨va_ambient_illuminance, va_ambient_light_x, va_ambient_light_y⟩ := ha
  obtain ⟨vb_ambient_illuminance, vb_ambient_light_x, vb_ambient_light_y⟩ := hb
  dsimp only at *
  unfold textSeiAmbientViewing
  dsimp only
  refine det_block (fun r r' h1 => ?_)
  replace h1 := step (det_numNat) h1
  obtain ⟨rfl, h1⟩ := h1
  replace h1 := step (det_numNat) h1
  obtain ⟨rfl, h1⟩ := h1
  replace h1 := step (det_numNat) h1
  obtain ⟨rfl, h1⟩ := h1
  exact ⟨rfl, steps_nil h1⟩

theorem det_SeiUnknown {n : Nat} {s t : SeiUnknown} (ha : ValidSeiUnknown n s) (hb : ValidSeiUnknown n t) :
    Det (textSeiUnknown s) (textSeiUnknown t) (s = t) := by
  obtain ⟨a_payload⟩ := s
  obtain ⟨b_payload⟩ := t
  obtain ⟨va_size_nonzero, va_payload⟩ := ha
  obtain ⟨vb_size_nonzero, vb_payload⟩ := hb
  dsimp only at *
  unfold textSeiUnknown
  dsimp only
  refine det_block (fun r r' h1 => ?_)
  replace h1 := step (det_numNat) h1
  obtain ⟨-, h1⟩ := h1
  replace h1 := step (det_listNat) h1
  obtain ⟨rfl, h1⟩ := h1
  exact ⟨rfl, steps_nil h1⟩

/-- the constructor of an SEI payload that belongs to a payload type -/
def seiPayloadKind : SeiPayload → Nat
  | .userDataRegistered _ => 4
  | .userDataUnregistered _ => 5
  | .masteringDisplay _ => 137
  | .contentLightLevel _ => 144
  | .kneeFunction _ => 141
  | .colourRemapping _ => 142
  | .contentColourVolume _ => 149
  | .alternativeTransfer _ => 147
  | .ambientViewing _ => 148
  | .alphaChannelInfo _ => 165
  | .unknown _ => 0

theorem seiPayloadKind_eq {t n : Nat} {x : SeiPayload} (h : ValidSeiPayload t n x) :
    seiPayloadKind x = if t ∈ [4, 5, 137, 144, 141, 142, 149, 147, 148, 165] then t else 0 := by
  cases x <;> (unfold Spec.ValidSeiPayload at h; obtain ⟨h, -⟩ := h)
  case unknown => rw [if_neg h]; rfl
  all_goals subst h; rfl

theorem det_SeiPayload {t n : Nat} {x y : SeiPayload} (ha : ValidSeiPayload t n x) (hb : ValidSeiPayload t n y) : Det (textSeiPayload x) (textSeiPayload y) (x = y) := by
  have hk : seiPayloadKind x = seiPayloadKind y := (seiPayloadKind_eq ha).trans (seiPayloadKind_eq hb).symm
  cases x
  case userDataRegistered a =>
    cases y
    case userDataRegistered b => exact (det_SeiUserDataRegistered ha.2 hb.2).mono (congrArg _)
    all_goals exact absurd hk (by simp only [seiPayloadKind]; decide)
  case userDataUnregistered a =>
    cases y
    case userDataUnregistered b => exact (det_SeiUserDataUnregistered ha.2 hb.2).mono (congrArg _)
    all_goals exact absurd hk (by simp only [seiPayloadKind]; decide)
  case masteringDisplay a =>
    cases y
    case masteringDisplay b => exact (det_SeiMasteringDisplay ha.2 hb.2).mono (congrArg _)
    all_goals exact absurd hk (by simp only [seiPayloadKind]; decide)
  case contentLightLevel a =>
    cases y
    case contentLightLevel b => exact (det_SeiContentLightLevel ha.2 hb.2).mono (congrArg _)
    all_goals exact absurd hk (by simp only [seiPayloadKind]; decide)
  case kneeFunction a =>
    cases y
    case kneeFunction b => exact (det_SeiKneeFunction ha.2 hb.2).mono (congrArg _)
    all_goals exact absurd hk (by simp only [seiPayloadKind]; decide)
  case colourRemapping a =>
    cases y
    case colourRemapping b => exact (det_SeiColourRemapping ha.2 hb.2).mono (congrArg _)
    all_goals exact absurd hk (by simp only [seiPayloadKind]; decide)
  case contentColourVolume a =>
    cases y
    case contentColourVolume b => exact (det_SeiContentColourVolume ha.2 hb.2).mono (congrArg _)
    all_goals exact absurd hk (by simp only [seiPayloadKind]; decide)
  case alternativeTransfer a =>
    cases y
    case alternativeTransfer b => exact (det_SeiAlternativeTransfer ha.2 hb.2).mono (congrArg _)
    all_goals exact absurd hk (by simp only [seiPayloadKind]; decide)
  case ambientViewing a =>
    cases y
    case ambientViewing b => exact (det_SeiAmbientViewing ha.2 hb.2).mono (congrArg _)
    all_goals exact absurd hk (by simp only [seiPayloadKind]; decide)
  case alphaChannelInfo a =>
    cases y
    case alphaChannelInfo b => exact (det_SeiAlphaChannelInfo ha.2 hb.2).mono (congrArg _)
    all_goals exact absurd hk (by simp only [seiPayloadKind]; decide)
  case unknown a =>
    cases y
    case unknown b => exact (det_SeiUnknown ha.2 hb.2).mono (congrArg _)
    all_goals exact absurd hk (by simp only [seiPayloadKind]; decide)

end H265
