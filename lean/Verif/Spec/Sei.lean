/-
Syntax of SEI messages (clauses 7.3.5 and D.2).
-/
import Verif.Spec.Bits
import Verif.Spec.Pps

namespace H265
open Spec

namespace Spec
/-- i(32): two's complement -/
def i32 (v : Int) : List Bool := u 32 (v % 2 ^ 32).toNat
/-- range of i(32) -/
def ValidI32 (v : Int) : Prop := -(2 ^ 31) ≤ v ∧ v < 2 ^ 31
end Spec

/-- `H265SeiUserDataRegisteredItuTT35State`, include/h265_sei_parser.h:117-137 -/
structure SeiUserDataRegistered where
  itu_t_t35_country_code : Nat
  itu_t_t35_country_code_extension_byte : Nat
  payload : List Nat
  deriving DecidableEq, Repr, Inhabited

namespace Spec
/-- user_data_registered_itu_t_t35(payloadSize), clause D.2.6 -/
def seiUserDataRegistered (s : SeiUserDataRegistered) : List Bool :=
  seq [u 8 s.itu_t_t35_country_code,
    cond (s.itu_t_t35_country_code = 255) (u 8 s.itu_t_t35_country_code_extension_byte),
    list (u 8) s.payload]

/-- ranges -/
structure ValidSeiUserDataRegistered (payload_size : Nat) (s : SeiUserDataRegistered) : Prop where
  size_nonzero : payload_size ≠ 0
  itu_t_t35_country_code : s.itu_t_t35_country_code < 2 ^ 8
  size_extension : (s.itu_t_t35_country_code = 255 → payload_size ≠ 1)
  itu_t_t35_country_code_extension_byte : Opt (s.itu_t_t35_country_code = 255) (s.itu_t_t35_country_code_extension_byte < 2 ^ 8) (s.itu_t_t35_country_code_extension_byte = 0)
  payload : Each (payload_size - (if s.itu_t_t35_country_code = 255 then 2 else 1)) (· < 2 ^ 8) s.payload
end Spec

/-- `H265SeiUserDataUnregisteredState`, include/h265_sei_parser.h:144-164 -/
structure SeiUserDataUnregistered where
  uuid_iso_iec_11578_1 : Nat
  uuid_iso_iec_11578_2 : Nat
  payload : List Nat
  deriving DecidableEq, Repr, Inhabited

namespace Spec
/-- user_data_unregistered(payloadSize), clause D.2.7 -/
def seiUserDataUnregistered (s : SeiUserDataUnregistered) : List Bool :=
  seq [u 64 s.uuid_iso_iec_11578_1,
    u 64 s.uuid_iso_iec_11578_2,
    list (u 8) s.payload]

/-- ranges -/
structure ValidSeiUserDataUnregistered (payload_size : Nat) (s : SeiUserDataUnregistered) : Prop where
  size_uuid : 16 ≤ payload_size
  uuid_iso_iec_11578_1 : s.uuid_iso_iec_11578_1 < 2 ^ 64
  uuid_iso_iec_11578_2 : s.uuid_iso_iec_11578_2 < 2 ^ 64
  payload : Each (payload_size - 16) (· < 2 ^ 8) s.payload
end Spec

/-- `H265SeiAlphaChannelInfoState`, include/h265_sei_parser.h:171-194 -/
structure SeiAlphaChannelInfo where
  alpha_channel_cancel_flag : Nat
  alpha_channel_use_idc : Nat
  alpha_channel_bit_depth_minus8 : Nat
  alpha_transparent_value : Nat
  alpha_opaque_value : Nat
  alpha_channel_incr_flag : Nat
  alpha_channel_clip_flag : Nat
  alpha_channel_clip_type_flag : Nat
  deriving DecidableEq, Repr, Inhabited

namespace Spec
/-- alpha_channel_info(), clause F.14.2.8 -/
def seiAlphaChannelInfo (s : SeiAlphaChannelInfo) : List Bool :=
  seq [u 1 s.alpha_channel_cancel_flag,
    cond (s.alpha_channel_cancel_flag = 0) (u 3 s.alpha_channel_use_idc),
    cond (s.alpha_channel_cancel_flag = 0) (u 3 s.alpha_channel_bit_depth_minus8),
    cond (s.alpha_channel_cancel_flag = 0) (u ((s.alpha_channel_bit_depth_minus8 + 9)) s.alpha_transparent_value),
    cond (s.alpha_channel_cancel_flag = 0) (u ((s.alpha_channel_bit_depth_minus8 + 9)) s.alpha_opaque_value),
    cond (s.alpha_channel_cancel_flag = 0) (u 1 s.alpha_channel_incr_flag),
    cond (s.alpha_channel_cancel_flag = 0) (u 1 s.alpha_channel_clip_flag),
    cond ((s.alpha_channel_cancel_flag = 0 ∧ s.alpha_channel_clip_flag ≠ 0)) (u 1 s.alpha_channel_clip_type_flag)]

/-- ranges -/
structure ValidSeiAlphaChannelInfo (s : SeiAlphaChannelInfo) : Prop where
  alpha_channel_cancel_flag : s.alpha_channel_cancel_flag < 2 ^ 1
  alpha_channel_use_idc : Opt (s.alpha_channel_cancel_flag = 0) (s.alpha_channel_use_idc < 2 ^ 3) (s.alpha_channel_use_idc = 0)
  alpha_channel_bit_depth_minus8 : Opt (s.alpha_channel_cancel_flag = 0) (s.alpha_channel_bit_depth_minus8 < 2 ^ 3) (s.alpha_channel_bit_depth_minus8 = 0)
  alpha_transparent_value : Opt (s.alpha_channel_cancel_flag = 0) (s.alpha_transparent_value < 2 ^ ((s.alpha_channel_bit_depth_minus8 + 9))) (s.alpha_transparent_value = 0)
  alpha_opaque_value : Opt (s.alpha_channel_cancel_flag = 0) (s.alpha_opaque_value < 2 ^ ((s.alpha_channel_bit_depth_minus8 + 9))) (s.alpha_opaque_value = 0)
  alpha_channel_incr_flag : Opt (s.alpha_channel_cancel_flag = 0) (s.alpha_channel_incr_flag < 2 ^ 1) (s.alpha_channel_incr_flag = 0)
  alpha_channel_clip_flag : Opt (s.alpha_channel_cancel_flag = 0) (s.alpha_channel_clip_flag < 2 ^ 1) (s.alpha_channel_clip_flag = 0)
  alpha_channel_clip_type_flag : Opt ((s.alpha_channel_cancel_flag = 0 ∧ s.alpha_channel_clip_flag ≠ 0)) (s.alpha_channel_clip_type_flag < 2 ^ 1) (s.alpha_channel_clip_type_flag = 0)
end Spec

/-- one element of display_primaries_x and display_primaries_y -/
structure SeiPrimaries where
  x : Nat
  y : Nat
  deriving DecidableEq, Repr, Inhabited

namespace Spec
/-- one pair of coordinates -/
def seiPrimaries (s : SeiPrimaries) : List Bool :=
  seq [u 16 s.x,
    u 16 s.y]

/-- ranges -/
structure ValidSeiPrimaries (s : SeiPrimaries) : Prop where
  x : s.x < 2 ^ 16
  y : s.y < 2 ^ 16
end Spec

/-- `H265SeiMasteringDisplayColourVolumeState`, include/h265_sei_parser.h:201-227 -/
structure SeiMasteringDisplay where
  display_primaries : List SeiPrimaries
  white_point_x : Nat
  white_point_y : Nat
  max_display_mastering_luminance : Nat
  min_display_mastering_luminance : Nat
  deriving DecidableEq, Repr, Inhabited

namespace Spec
/-- mastering_display_colour_volume(), clause D.2.28 -/
def seiMasteringDisplay (s : SeiMasteringDisplay) : List Bool :=
  seq [list seiPrimaries s.display_primaries,
    u 16 s.white_point_x,
    u 16 s.white_point_y,
    u 32 s.max_display_mastering_luminance,
    u 32 s.min_display_mastering_luminance]

/-- ranges -/
structure ValidSeiMasteringDisplay (s : SeiMasteringDisplay) : Prop where
  display_primaries : Each 3 ValidSeiPrimaries s.display_primaries
  white_point_x : s.white_point_x < 2 ^ 16
  white_point_y : s.white_point_y < 2 ^ 16
  max_display_mastering_luminance : s.max_display_mastering_luminance < 2 ^ 32
  min_display_mastering_luminance : s.min_display_mastering_luminance < 2 ^ 32
end Spec

/-- `H265SeiContentLightLevelInfoState`, include/h265_sei_parser.h:234-255 -/
structure SeiContentLightLevel where
  max_content_light_level : Nat
  max_pic_average_light_level : Nat
  deriving DecidableEq, Repr, Inhabited

namespace Spec
/-- content_light_level_info(), clause D.2.35 -/
def seiContentLightLevel (s : SeiContentLightLevel) : List Bool :=
  seq [u 16 s.max_content_light_level,
    u 16 s.max_pic_average_light_level]

/-- ranges -/
structure ValidSeiContentLightLevel (s : SeiContentLightLevel) : Prop where
  max_content_light_level : s.max_content_light_level < 2 ^ 16
  max_pic_average_light_level : s.max_pic_average_light_level < 2 ^ 16
end Spec

/-- one element of input_knee_point and output_knee_point -/
structure SeiKneePoint where
  input_knee_point : Nat
  output_knee_point : Nat
  deriving DecidableEq, Repr, Inhabited

namespace Spec
/-- one knee point -/
def seiKneePoint (s : SeiKneePoint) : List Bool :=
  seq [u 10 s.input_knee_point,
    u 10 s.output_knee_point]

/-- ranges -/
structure ValidSeiKneePoint (s : SeiKneePoint) : Prop where
  input_knee_point : s.input_knee_point < 2 ^ 10
  output_knee_point : s.output_knee_point < 2 ^ 10
end Spec

/-- `H265SeiKneeFunctionInfoState`, include/h265_sei_parser.h:262-287 -/
structure SeiKneeFunction where
  knee_function_id : Nat
  knee_function_cancel_flag : Nat
  knee_function_persistence_flag : Nat
  input_d_range : Nat
  input_disp_luminance : Nat
  output_d_range : Nat
  output_disp_luminance : Nat
  num_knee_points_minus1 : Nat
  knee_points : List SeiKneePoint
  deriving DecidableEq, Repr, Inhabited

namespace Spec
/-- knee_function_info(), clause D.2.30 -/
def seiKneeFunction (s : SeiKneeFunction) : List Bool :=
  seq [ue s.knee_function_id,
    u 1 s.knee_function_cancel_flag,
    cond (s.knee_function_cancel_flag = 0) (u 1 s.knee_function_persistence_flag),
    cond (s.knee_function_cancel_flag = 0) (u 32 s.input_d_range),
    cond (s.knee_function_cancel_flag = 0) (u 32 s.input_disp_luminance),
    cond (s.knee_function_cancel_flag = 0) (u 32 s.output_d_range),
    cond (s.knee_function_cancel_flag = 0) (u 32 s.output_disp_luminance),
    cond (s.knee_function_cancel_flag = 0) (ue s.num_knee_points_minus1),
    cond (s.knee_function_cancel_flag = 0) (list seiKneePoint s.knee_points)]

/-- ranges -/
structure ValidSeiKneeFunction (s : SeiKneeFunction) : Prop where
  knee_function_id : s.knee_function_id < 2 ^ 32 - 1
  knee_function_cancel_flag : s.knee_function_cancel_flag < 2 ^ 1
  knee_function_persistence_flag : Opt (s.knee_function_cancel_flag = 0) (s.knee_function_persistence_flag < 2 ^ 1) (s.knee_function_persistence_flag = 0)
  input_d_range : Opt (s.knee_function_cancel_flag = 0) (s.input_d_range < 2 ^ 32) (s.input_d_range = 0)
  input_disp_luminance : Opt (s.knee_function_cancel_flag = 0) (s.input_disp_luminance < 2 ^ 32) (s.input_disp_luminance = 0)
  output_d_range : Opt (s.knee_function_cancel_flag = 0) (s.output_d_range < 2 ^ 32) (s.output_d_range = 0)
  output_disp_luminance : Opt (s.knee_function_cancel_flag = 0) (s.output_disp_luminance < 2 ^ 32) (s.output_disp_luminance = 0)
  num_knee_points_minus1 : Opt (s.knee_function_cancel_flag = 0) (s.num_knee_points_minus1 < 2 ^ 32 - 1) (s.num_knee_points_minus1 = 0)
  knee_points : Opt (s.knee_function_cancel_flag = 0) (Each (s.num_knee_points_minus1 + 1) ValidSeiKneePoint s.knee_points) (s.knee_points = [])
end Spec

/-- one element of pre_lut_coded_value[c] and pre_lut_target_value[c], or of the post_lut vectors -/
structure SeiLutEntry where
  coded_value : Nat
  target_value : Nat
  deriving DecidableEq, Repr, Inhabited

namespace Spec
/-- one entry of a look-up table -/
def seiLutEntry (bits : Nat) (s : SeiLutEntry) : List Bool :=
  seq [u bits s.coded_value,
    u bits s.target_value]

/-- ranges -/
structure ValidSeiLutEntry (bits : Nat) (s : SeiLutEntry) : Prop where
  coded_value : ValidUVar bits s.coded_value
  target_value : ValidUVar bits s.target_value
end Spec

/-- pre_lut_num_val_minus1[c] with its table, or the post_lut ones -/
structure SeiLut where
  num_val_minus1 : Nat
  entries : List SeiLutEntry
  deriving DecidableEq, Repr, Inhabited

namespace Spec
/-- one look-up table -/
def seiLut (bits : Nat) (s : SeiLut) : List Bool :=
  seq [u 8 s.num_val_minus1,
    cond (s.num_val_minus1 > 0) (list (seiLutEntry bits) s.entries)]

/-- ranges -/
structure ValidSeiLut (bits : Nat) (s : SeiLut) : Prop where
  num_val_minus1 : s.num_val_minus1 < 2 ^ 8
  entries : Opt (s.num_val_minus1 > 0) (Each (s.num_val_minus1 + 1) (ValidSeiLutEntry bits) s.entries) (s.entries = [])
end Spec

/-- `H265SeiColourRemappingInfoState`, include/h265_sei_parser.h:294-329 (each look-up table with its size is a record; without matrix or when cancelled the vectors are empty) -/
structure SeiColourRemapping where
  colour_remap_id : Nat
  colour_remap_cancel_flag : Nat
  colour_remap_persistence_flag : Nat
  colour_remap_video_signal_info_present_flag : Nat
  colour_remap_full_range_flag : Nat
  colour_remap_primaries : Nat
  colour_remap_transfer_function : Nat
  colour_remap_matrix_coefficients : Nat
  colour_remap_input_bit_depth : Nat
  colour_remap_output_bit_depth : Nat
  pre_lut : List SeiLut
  colour_remap_matrix_present_flag : Nat
  log2_matrix_denom : Nat
  colour_remap_coeffs : List (List Int)
  post_lut : List SeiLut
  deriving DecidableEq, Repr, Inhabited

namespace Spec
/-- colour_remapping_info(), clause D.2.31, with the widths the code uses: the target values of the pre-LUT are read with the width of the input bit depth (the standard: output bit depth) -/
def seiColourRemapping (s : SeiColourRemapping) : List Bool :=
  seq [ue s.colour_remap_id,
    u 1 s.colour_remap_cancel_flag,
    cond (s.colour_remap_cancel_flag = 0) (u 1 s.colour_remap_persistence_flag),
    cond (s.colour_remap_cancel_flag = 0) (u 1 s.colour_remap_video_signal_info_present_flag),
    cond ((s.colour_remap_cancel_flag = 0 ∧ s.colour_remap_video_signal_info_present_flag ≠ 0)) (u 1 s.colour_remap_full_range_flag),
    cond ((s.colour_remap_cancel_flag = 0 ∧ s.colour_remap_video_signal_info_present_flag ≠ 0)) (u 8 s.colour_remap_primaries),
    cond ((s.colour_remap_cancel_flag = 0 ∧ s.colour_remap_video_signal_info_present_flag ≠ 0)) (u 8 s.colour_remap_transfer_function),
    cond ((s.colour_remap_cancel_flag = 0 ∧ s.colour_remap_video_signal_info_present_flag ≠ 0)) (u 8 s.colour_remap_matrix_coefficients),
    cond (s.colour_remap_cancel_flag = 0) (u 8 s.colour_remap_input_bit_depth),
    cond (s.colour_remap_cancel_flag = 0) (u 8 s.colour_remap_output_bit_depth),
    cond (s.colour_remap_cancel_flag = 0) (list (seiLut ((s.colour_remap_input_bit_depth + 7) / 8 * 8)) s.pre_lut),
    cond (s.colour_remap_cancel_flag = 0) (u 1 s.colour_remap_matrix_present_flag),
    cond ((s.colour_remap_cancel_flag = 0 ∧ s.colour_remap_matrix_present_flag ≠ 0)) (u 4 s.log2_matrix_denom),
    cond ((s.colour_remap_cancel_flag = 0 ∧ s.colour_remap_matrix_present_flag ≠ 0)) (list (list se) s.colour_remap_coeffs),
    cond (s.colour_remap_cancel_flag = 0) (list (seiLut ((s.colour_remap_output_bit_depth + 7) / 8 * 8)) s.post_lut)]

/-- ranges -/
structure ValidSeiColourRemapping (s : SeiColourRemapping) : Prop where
  colour_remap_id : s.colour_remap_id < 2 ^ 32 - 1
  colour_remap_cancel_flag : s.colour_remap_cancel_flag < 2 ^ 1
  colour_remap_persistence_flag : Opt (s.colour_remap_cancel_flag = 0) (s.colour_remap_persistence_flag < 2 ^ 1) (s.colour_remap_persistence_flag = 0)
  colour_remap_video_signal_info_present_flag : Opt (s.colour_remap_cancel_flag = 0) (s.colour_remap_video_signal_info_present_flag < 2 ^ 1) (s.colour_remap_video_signal_info_present_flag = 0)
  colour_remap_full_range_flag : Opt ((s.colour_remap_cancel_flag = 0 ∧ s.colour_remap_video_signal_info_present_flag ≠ 0)) (s.colour_remap_full_range_flag < 2 ^ 1) (s.colour_remap_full_range_flag = 0)
  colour_remap_primaries : Opt ((s.colour_remap_cancel_flag = 0 ∧ s.colour_remap_video_signal_info_present_flag ≠ 0)) (s.colour_remap_primaries < 2 ^ 8) (s.colour_remap_primaries = 0)
  colour_remap_transfer_function : Opt ((s.colour_remap_cancel_flag = 0 ∧ s.colour_remap_video_signal_info_present_flag ≠ 0)) (s.colour_remap_transfer_function < 2 ^ 8) (s.colour_remap_transfer_function = 0)
  colour_remap_matrix_coefficients : Opt ((s.colour_remap_cancel_flag = 0 ∧ s.colour_remap_video_signal_info_present_flag ≠ 0)) (s.colour_remap_matrix_coefficients < 2 ^ 8) (s.colour_remap_matrix_coefficients = 0)
  colour_remap_input_bit_depth : Opt (s.colour_remap_cancel_flag = 0) (s.colour_remap_input_bit_depth < 2 ^ 8) (s.colour_remap_input_bit_depth = 0)
  colour_remap_output_bit_depth : Opt (s.colour_remap_cancel_flag = 0) (s.colour_remap_output_bit_depth < 2 ^ 8) (s.colour_remap_output_bit_depth = 0)
  bit_depths_nonzero : (s.colour_remap_cancel_flag = 0 → s.colour_remap_input_bit_depth ≠ 0 ∧ s.colour_remap_output_bit_depth ≠ 0)
  pre_lut : Opt (s.colour_remap_cancel_flag = 0) (Each 3 (ValidSeiLut ((s.colour_remap_input_bit_depth + 7) / 8 * 8)) s.pre_lut) (s.pre_lut = [])
  colour_remap_matrix_present_flag : Opt (s.colour_remap_cancel_flag = 0) (s.colour_remap_matrix_present_flag < 2 ^ 1) (s.colour_remap_matrix_present_flag = 0)
  log2_matrix_denom : Opt ((s.colour_remap_cancel_flag = 0 ∧ s.colour_remap_matrix_present_flag ≠ 0)) (s.log2_matrix_denom < 2 ^ 4) (s.log2_matrix_denom = 0)
  colour_remap_coeffs : Opt ((s.colour_remap_cancel_flag = 0 ∧ s.colour_remap_matrix_present_flag ≠ 0)) (Each 3 (Each 3 (fun v => -(2 ^ 31) < v ∧ v < 2 ^ 30)) s.colour_remap_coeffs) (s.colour_remap_coeffs = [])
  post_lut : Opt (s.colour_remap_cancel_flag = 0) (Each 3 (ValidSeiLut ((s.colour_remap_output_bit_depth + 7) / 8 * 8)) s.post_lut) (s.post_lut = [])
end Spec

/-- one element of ccv_primaries_x and ccv_primaries_y -/
structure SeiCcvPrimaries where
  x : Int
  y : Int
  deriving DecidableEq, Repr, Inhabited

namespace Spec
/-- one pair of coordinates, i(32) -/
def seiCcvPrimaries (s : SeiCcvPrimaries) : List Bool :=
  seq [i32 s.x,
    i32 s.y]

/-- ranges -/
structure ValidSeiCcvPrimaries (s : SeiCcvPrimaries) : Prop where
  x : ValidI32 s.x
  y : ValidI32 s.y
end Spec

/-- `H265SeiContentColourVolumeState`, include/h265_sei_parser.h:336-364 -/
structure SeiContentColourVolume where
  ccv_cancel_flag : Nat
  ccv_persistence_flag : Nat
  ccv_primaries_present_flag : Nat
  ccv_min_luminance_value_present_flag : Nat
  ccv_max_luminance_value_present_flag : Nat
  ccv_avg_luminance_value_present_flag : Nat
  ccv_reserved_zero_2bits : Nat
  ccv_primaries : List SeiCcvPrimaries
  ccv_min_luminance_value : Nat
  ccv_max_luminance_value : Nat
  ccv_avg_luminance_value : Nat
  deriving DecidableEq, Repr, Inhabited

namespace Spec
/-- content_colour_volume(), clause D.2.40 -/
def seiContentColourVolume (s : SeiContentColourVolume) : List Bool :=
  seq [u 1 s.ccv_cancel_flag,
    cond (s.ccv_cancel_flag = 0) (u 1 s.ccv_persistence_flag),
    cond (s.ccv_cancel_flag = 0) (u 1 s.ccv_primaries_present_flag),
    cond (s.ccv_cancel_flag = 0) (u 1 s.ccv_min_luminance_value_present_flag),
    cond (s.ccv_cancel_flag = 0) (u 1 s.ccv_max_luminance_value_present_flag),
    cond (s.ccv_cancel_flag = 0) (u 1 s.ccv_avg_luminance_value_present_flag),
    cond (s.ccv_cancel_flag = 0) (u 2 s.ccv_reserved_zero_2bits),
    cond ((s.ccv_cancel_flag = 0 ∧ s.ccv_primaries_present_flag ≠ 0)) (list seiCcvPrimaries s.ccv_primaries),
    cond ((s.ccv_cancel_flag = 0 ∧ s.ccv_min_luminance_value_present_flag ≠ 0)) (u 32 s.ccv_min_luminance_value),
    cond ((s.ccv_cancel_flag = 0 ∧ s.ccv_max_luminance_value_present_flag ≠ 0)) (u 32 s.ccv_max_luminance_value),
    cond ((s.ccv_cancel_flag = 0 ∧ s.ccv_avg_luminance_value_present_flag ≠ 0)) (u 32 s.ccv_avg_luminance_value)]

/-- ranges -/
structure ValidSeiContentColourVolume (s : SeiContentColourVolume) : Prop where
  ccv_cancel_flag : s.ccv_cancel_flag < 2 ^ 1
  ccv_persistence_flag : Opt (s.ccv_cancel_flag = 0) (s.ccv_persistence_flag < 2 ^ 1) (s.ccv_persistence_flag = 0)
  ccv_primaries_present_flag : Opt (s.ccv_cancel_flag = 0) (s.ccv_primaries_present_flag < 2 ^ 1) (s.ccv_primaries_present_flag = 0)
  ccv_min_luminance_value_present_flag : Opt (s.ccv_cancel_flag = 0) (s.ccv_min_luminance_value_present_flag < 2 ^ 1) (s.ccv_min_luminance_value_present_flag = 0)
  ccv_max_luminance_value_present_flag : Opt (s.ccv_cancel_flag = 0) (s.ccv_max_luminance_value_present_flag < 2 ^ 1) (s.ccv_max_luminance_value_present_flag = 0)
  ccv_avg_luminance_value_present_flag : Opt (s.ccv_cancel_flag = 0) (s.ccv_avg_luminance_value_present_flag < 2 ^ 1) (s.ccv_avg_luminance_value_present_flag = 0)
  ccv_reserved_zero_2bits : Opt (s.ccv_cancel_flag = 0) (s.ccv_reserved_zero_2bits < 2 ^ 2) (s.ccv_reserved_zero_2bits = 0)
  ccv_primaries : Opt ((s.ccv_cancel_flag = 0 ∧ s.ccv_primaries_present_flag ≠ 0)) (Each 3 ValidSeiCcvPrimaries s.ccv_primaries) (s.ccv_primaries = [⟨0, 0⟩, ⟨0, 0⟩, ⟨0, 0⟩])
  ccv_min_luminance_value : Opt ((s.ccv_cancel_flag = 0 ∧ s.ccv_min_luminance_value_present_flag ≠ 0)) (s.ccv_min_luminance_value < 2 ^ 32) (s.ccv_min_luminance_value = 0)
  ccv_max_luminance_value : Opt ((s.ccv_cancel_flag = 0 ∧ s.ccv_max_luminance_value_present_flag ≠ 0)) (s.ccv_max_luminance_value < 2 ^ 32) (s.ccv_max_luminance_value = 0)
  ccv_avg_luminance_value : Opt ((s.ccv_cancel_flag = 0 ∧ s.ccv_avg_luminance_value_present_flag ≠ 0)) (s.ccv_avg_luminance_value < 2 ^ 32) (s.ccv_avg_luminance_value = 0)
end Spec

/-- `H265SeiAlternativeTransferCharacteristicsState`, include/h265_sei_parser.h:372-391 -/
structure SeiAlternativeTransfer where
  preferred_transfer_characteristics : Nat
  deriving DecidableEq, Repr, Inhabited

namespace Spec
/-- alternative_transfer_characteristics(), clause D.2.38 -/
def seiAlternativeTransfer (s : SeiAlternativeTransfer) : List Bool :=
  seq [u 8 s.preferred_transfer_characteristics]

/-- ranges -/
structure ValidSeiAlternativeTransfer (s : SeiAlternativeTransfer) : Prop where
  preferred_transfer_characteristics : s.preferred_transfer_characteristics < 2 ^ 8
end Spec

/-- `H265SeiAmbientViewingEnvironmentState`, include/h265_sei_parser.h:398-423 -/
structure SeiAmbientViewing where
  ambient_illuminance : Nat
  ambient_light_x : Nat
  ambient_light_y : Nat
  deriving DecidableEq, Repr, Inhabited

namespace Spec
/-- ambient_viewing_environment(), clause D.2.39 -/
def seiAmbientViewing (s : SeiAmbientViewing) : List Bool :=
  seq [u 32 s.ambient_illuminance,
    u 16 s.ambient_light_x,
    u 16 s.ambient_light_y]

/-- ranges -/
structure ValidSeiAmbientViewing (s : SeiAmbientViewing) : Prop where
  ambient_illuminance : s.ambient_illuminance < 2 ^ 32
  ambient_light_x : s.ambient_light_x < 2 ^ 16
  ambient_light_y : s.ambient_light_y < 2 ^ 16
end Spec

/-- `H265SeiUnknownState`, include/h265_sei_parser.h:430-444 -/
structure SeiUnknown where
  payload : List Nat
  deriving DecidableEq, Repr, Inhabited

namespace Spec
/-- payload bytes of a message of another type -/
def seiUnknown (s : SeiUnknown) : List Bool :=
  seq [list (u 8) s.payload]

/-- ranges -/
structure ValidSeiUnknown (payload_size : Nat) (s : SeiUnknown) : Prop where
  size_nonzero : payload_size ≠ 0
  payload : Each payload_size (· < 2 ^ 8) s.payload
end Spec

/-- `H265SeiPayloadState` and its subclasses, include/h265_sei_parser.h:85-446 -/
inductive SeiPayload where
  | userDataRegistered (s : SeiUserDataRegistered)
  | userDataUnregistered (s : SeiUserDataUnregistered)
  | masteringDisplay (s : SeiMasteringDisplay)
  | contentLightLevel (s : SeiContentLightLevel)
  | kneeFunction (s : SeiKneeFunction)
  | colourRemapping (s : SeiColourRemapping)
  | contentColourVolume (s : SeiContentColourVolume)
  | alternativeTransfer (s : SeiAlternativeTransfer)
  | ambientViewing (s : SeiAmbientViewing)
  | alphaChannelInfo (s : SeiAlphaChannelInfo)
  | unknown (s : SeiUnknown)
  deriving DecidableEq, Repr, Inhabited

/-- `SeiMessageState`, include/h265_sei_parser.h:455-468; `payload_state` is null if the payload could not be parsed -/
structure SeiMessage where
  payload_type : Nat
  payload_size : Nat
  payload_state : Option SeiPayload
  deriving DecidableEq, Repr, Inhabited

namespace Spec
/-- payload_type and payload_size, clause 7.3.5: `n / 255` bytes 0xff, then the byte `n % 255` -/
def ffCoded (n : Nat) : List Bool := (List.replicate (n / 255) (u 8 255)).flatten ++ u 8 (n % 255)

/-- sei_payload(), clause D.2.1 -/
def seiPayload : SeiPayload → List Bool
  | .userDataRegistered s => seiUserDataRegistered s
  | .userDataUnregistered s => seiUserDataUnregistered s
  | .masteringDisplay s => seiMasteringDisplay s
  | .contentLightLevel s => seiContentLightLevel s
  | .kneeFunction s => seiKneeFunction s
  | .colourRemapping s => seiColourRemapping s
  | .contentColourVolume s => seiContentColourVolume s
  | .alternativeTransfer s => seiAlternativeTransfer s
  | .ambientViewing s => seiAmbientViewing s
  | .alphaChannelInfo s => seiAlphaChannelInfo s
  | .unknown s => seiUnknown s

/-- the payload has the syntax structure of its type and is well formed -/
def ValidSeiPayload (payload_type payload_size : Nat) : SeiPayload → Prop
  | .userDataRegistered s => payload_type = 4 ∧ ValidSeiUserDataRegistered payload_size s
  | .userDataUnregistered s => payload_type = 5 ∧ ValidSeiUserDataUnregistered payload_size s
  | .masteringDisplay s => payload_type = 137 ∧ ValidSeiMasteringDisplay s
  | .contentLightLevel s => payload_type = 144 ∧ ValidSeiContentLightLevel s
  | .kneeFunction s => payload_type = 141 ∧ ValidSeiKneeFunction s
  | .colourRemapping s => payload_type = 142 ∧ ValidSeiColourRemapping s
  | .contentColourVolume s => payload_type = 149 ∧ ValidSeiContentColourVolume s
  | .alternativeTransfer s => payload_type = 147 ∧ ValidSeiAlternativeTransfer s
  | .ambientViewing s => payload_type = 148 ∧ ValidSeiAmbientViewing s
  | .alphaChannelInfo s => payload_type = 165 ∧ ValidSeiAlphaChannelInfo s
  | .unknown s => payload_type ∉ [4, 5, 137, 144, 141, 142, 149, 147, 148, 165] ∧ ValidSeiUnknown payload_size s
end Spec

end H265
