/-
Model of src/h265_sei_parser.cc.
-/
import Verif.Model.Common
import Verif.Model.Pps
import Verif.Spec.Sei

namespace H265
open Prog

/-- `ReadBits` with a width computed from bit depths, src/h265_sei_parser.cc:514-530 and 580-596 -/
def Prog.uAny (n : Nat) : Prog Nat := u n

/-- a 64-bit field read in two halves, src/h265_sei_parser.cc:172-190 -/
def Prog.u32x2 : Prog Nat := (u 32).bind fun a => (u 32).bind fun b => ret (a * 2 ^ 32 + b)

/-- `static_cast<int32_t>` of a 32-bit field, src/h265_sei_parser.cc:673-687 -/
def Prog.i32v : Prog Int := (u 32).bind fun a => ret (if a < 2 ^ 31 then (a : Int) else (a : Int) - 2 ^ 32)

/-- `H265SeiUserDataRegisteredItuTT35Parser::parse_payload`, src/h265_sei_parser.cc:117-157 (`payload.resize(n)` followed by reads into each element is a loop of `n` reads) -/
def parseSeiUserDataRegistered (payload_size : Nat) : Prog SeiUserDataRegistered := do
  check (payload_size ≠ 0)
  let itu_t_t35_country_code ← u 8
  check ((itu_t_t35_country_code = 255 → payload_size ≠ 1))
  let itu_t_t35_country_code_extension_byte ← opt (itu_t_t35_country_code = 255) (u 8) 0
  let payload ← rep (payload_size - (if itu_t_t35_country_code = 255 then 2 else 1)) (u 8)
  return { itu_t_t35_country_code, itu_t_t35_country_code_extension_byte, payload }

/-- `H265SeiUserDataUnregisteredParser::parse_payload`, src/h265_sei_parser.cc:159-204 -/
def parseSeiUserDataUnregistered (payload_size : Nat) : Prog SeiUserDataUnregistered := do
  check (16 ≤ payload_size)
  let uuid_iso_iec_11578_1 ← u32x2
  let uuid_iso_iec_11578_2 ← u32x2
  let payload ← rep (payload_size - 16) (u 8)
  return { uuid_iso_iec_11578_1, uuid_iso_iec_11578_2, payload }

/-- `H265SeiAlphaChannelInfoParser::parse_payload`, src/h265_sei_parser.cc:206-270 (nested conditions flattened) -/
def parseSeiAlphaChannelInfo : Prog SeiAlphaChannelInfo := do
  let alpha_channel_cancel_flag ← u 1
  let alpha_channel_use_idc ← opt (alpha_channel_cancel_flag = 0) (u 3) 0
  let alpha_channel_bit_depth_minus8 ← opt (alpha_channel_cancel_flag = 0) (u 3) 0
  let alpha_transparent_value ← opt (alpha_channel_cancel_flag = 0) (u ((alpha_channel_bit_depth_minus8 + 9))) 0
  let alpha_opaque_value ← opt (alpha_channel_cancel_flag = 0) (u ((alpha_channel_bit_depth_minus8 + 9))) 0
  let alpha_channel_incr_flag ← opt (alpha_channel_cancel_flag = 0) (u 1) 0
  let alpha_channel_clip_flag ← opt (alpha_channel_cancel_flag = 0) (u 1) 0
  let alpha_channel_clip_type_flag ← opt ((alpha_channel_cancel_flag = 0 ∧ alpha_channel_clip_flag ≠ 0)) (u 1) 0
  return { alpha_channel_cancel_flag, alpha_channel_use_idc, alpha_channel_bit_depth_minus8, alpha_transparent_value, alpha_opaque_value, alpha_channel_incr_flag, alpha_channel_clip_flag, alpha_channel_clip_type_flag }

/-- loop body, src/h265_sei_parser.cc:285-296 -/
def parseSeiPrimaries : Prog SeiPrimaries := do
  let x ← u 16
  let y ← u 16
  return { x, y }

/-- `H265SeiMasteringDisplayColourVolumeParser::parse_payload`, src/h265_sei_parser.cc:272-323 -/
def parseSeiMasteringDisplay : Prog SeiMasteringDisplay := do
  let display_primaries ← rep 3 parseSeiPrimaries
  let white_point_x ← u 16
  let white_point_y ← u 16
  let max_display_mastering_luminance ← u 32
  let min_display_mastering_luminance ← u 32
  return { display_primaries, white_point_x, white_point_y, max_display_mastering_luminance, min_display_mastering_luminance }

/-- `H265SeiContentLightLevelInfoParser::parse_payload`, src/h265_sei_parser.cc:325-350 -/
def parseSeiContentLightLevel : Prog SeiContentLightLevel := do
  let max_content_light_level ← u 16
  let max_pic_average_light_level ← u 16
  return { max_content_light_level, max_pic_average_light_level }

/-- loop body, src/h265_sei_parser.cc:404-420 -/
def parseSeiKneePoint : Prog SeiKneePoint := do
  let input_knee_point ← u 10
  let output_knee_point ← u 10
  return { input_knee_point, output_knee_point }

/-- `H265SeiKneeFunctionInfoParser::parse_payload`, src/h265_sei_parser.cc:352-425 (nested conditions flattened; `i <= num_knee_points_minus1` ends since the bound is at most 2^32 - 2) -/
def parseSeiKneeFunction : Prog SeiKneeFunction := do
  let knee_function_id ← uev
  let knee_function_cancel_flag ← u 1
  let knee_function_persistence_flag ← opt (knee_function_cancel_flag = 0) (u 1) 0
  let input_d_range ← opt (knee_function_cancel_flag = 0) (u 32) 0
  let input_disp_luminance ← opt (knee_function_cancel_flag = 0) (u 32) 0
  let output_d_range ← opt (knee_function_cancel_flag = 0) (u 32) 0
  let output_disp_luminance ← opt (knee_function_cancel_flag = 0) (u 32) 0
  let num_knee_points_minus1 ← opt (knee_function_cancel_flag = 0) uev 0
  let knee_points ← opt (knee_function_cancel_flag = 0) (rep (num_knee_points_minus1 + 1) parseSeiKneePoint) []
  return { knee_function_id, knee_function_cancel_flag, knee_function_persistence_flag, input_d_range, input_disp_luminance, output_d_range, output_disp_luminance, num_knee_points_minus1, knee_points }

/-- loop body, src/h265_sei_parser.cc:512-532 and 578-598; more than 32 bits make the reader fail -/
def parseSeiLutEntry (bits : Nat) : Prog SeiLutEntry := do
  let coded_value ← uAny bits
  let target_value ← uAny bits
  return { coded_value, target_value }

/-- loop body, src/h265_sei_parser.cc:499-534 and 565-600 -/
def parseSeiLut (bits : Nat) : Prog SeiLut := do
  let num_val_minus1 ← u 8
  let entries ← opt (num_val_minus1 > 0) (rep (num_val_minus1 + 1) (parseSeiLutEntry bits)) []
  return { num_val_minus1, entries }

/-- `H265SeiColourRemappingInfoParser::parse_payload`, src/h265_sei_parser.cc:427-620 (nested conditions flattened) -/
def parseSeiColourRemapping : Prog SeiColourRemapping := do
  let colour_remap_id ← uev
  let colour_remap_cancel_flag ← u 1
  let colour_remap_persistence_flag ← opt (colour_remap_cancel_flag = 0) (u 1) 0
  let colour_remap_video_signal_info_present_flag ← opt (colour_remap_cancel_flag = 0) (u 1) 0
  let colour_remap_full_range_flag ← opt ((colour_remap_cancel_flag = 0 ∧ colour_remap_video_signal_info_present_flag ≠ 0)) (u 1) 0
  let colour_remap_primaries ← opt ((colour_remap_cancel_flag = 0 ∧ colour_remap_video_signal_info_present_flag ≠ 0)) (u 8) 0
  let colour_remap_transfer_function ← opt ((colour_remap_cancel_flag = 0 ∧ colour_remap_video_signal_info_present_flag ≠ 0)) (u 8) 0
  let colour_remap_matrix_coefficients ← opt ((colour_remap_cancel_flag = 0 ∧ colour_remap_video_signal_info_present_flag ≠ 0)) (u 8) 0
  let colour_remap_input_bit_depth ← opt (colour_remap_cancel_flag = 0) (u 8) 0
  let colour_remap_output_bit_depth ← opt (colour_remap_cancel_flag = 0) (u 8) 0
  check ((colour_remap_cancel_flag = 0 → colour_remap_input_bit_depth ≠ 0 ∧ colour_remap_output_bit_depth ≠ 0))
  let pre_lut ← opt (colour_remap_cancel_flag = 0) (rep 3 (parseSeiLut ((colour_remap_input_bit_depth + 7) / 8 * 8))) []
  let colour_remap_matrix_present_flag ← opt (colour_remap_cancel_flag = 0) (u 1) 0
  let log2_matrix_denom ← opt ((colour_remap_cancel_flag = 0 ∧ colour_remap_matrix_present_flag ≠ 0)) (u 4) 0
  let colour_remap_coeffs ← opt ((colour_remap_cancel_flag = 0 ∧ colour_remap_matrix_present_flag ≠ 0)) (rep 3 (rep 3 sev)) []
  let post_lut ← opt (colour_remap_cancel_flag = 0) (rep 3 (parseSeiLut ((colour_remap_output_bit_depth + 7) / 8 * 8))) []
  return { colour_remap_id, colour_remap_cancel_flag, colour_remap_persistence_flag, colour_remap_video_signal_info_present_flag, colour_remap_full_range_flag, colour_remap_primaries, colour_remap_transfer_function, colour_remap_matrix_coefficients, colour_remap_input_bit_depth, colour_remap_output_bit_depth, pre_lut, colour_remap_matrix_present_flag, log2_matrix_denom, colour_remap_coeffs, post_lut }

/-- loop body, src/h265_sei_parser.cc:673-687 -/
def parseSeiCcvPrimaries : Prog SeiCcvPrimaries := do
  let x ← i32v
  let y ← i32v
  return { x, y }

/-- `H265SeiContentColourVolumeParser::parse_payload`, src/h265_sei_parser.cc:622-711 (nested conditions flattened) -/
def parseSeiContentColourVolume : Prog SeiContentColourVolume := do
  let ccv_cancel_flag ← u 1
  let ccv_persistence_flag ← opt (ccv_cancel_flag = 0) (u 1) 0
  let ccv_primaries_present_flag ← opt (ccv_cancel_flag = 0) (u 1) 0
  let ccv_min_luminance_value_present_flag ← opt (ccv_cancel_flag = 0) (u 1) 0
  let ccv_max_luminance_value_present_flag ← opt (ccv_cancel_flag = 0) (u 1) 0
  let ccv_avg_luminance_value_present_flag ← opt (ccv_cancel_flag = 0) (u 1) 0
  let ccv_reserved_zero_2bits ← opt (ccv_cancel_flag = 0) (u 2) 0
  let ccv_primaries ← opt ((ccv_cancel_flag = 0 ∧ ccv_primaries_present_flag ≠ 0)) (rep 3 parseSeiCcvPrimaries) [⟨0, 0⟩, ⟨0, 0⟩, ⟨0, 0⟩]
  let ccv_min_luminance_value ← opt ((ccv_cancel_flag = 0 ∧ ccv_min_luminance_value_present_flag ≠ 0)) (u 32) 0
  let ccv_max_luminance_value ← opt ((ccv_cancel_flag = 0 ∧ ccv_max_luminance_value_present_flag ≠ 0)) (u 32) 0
  let ccv_avg_luminance_value ← opt ((ccv_cancel_flag = 0 ∧ ccv_avg_luminance_value_present_flag ≠ 0)) (u 32) 0
  return { ccv_cancel_flag, ccv_persistence_flag, ccv_primaries_present_flag, ccv_min_luminance_value_present_flag, ccv_max_luminance_value_present_flag, ccv_avg_luminance_value_present_flag, ccv_reserved_zero_2bits, ccv_primaries, ccv_min_luminance_value, ccv_max_luminance_value, ccv_avg_luminance_value }

/-- `H265SeiAlternativeTransferCharacteristicsParser::parse_payload`, src/h265_sei_parser.cc:713-733 -/
def parseSeiAlternativeTransfer : Prog SeiAlternativeTransfer := do
  let preferred_transfer_characteristics ← u 8
  return { preferred_transfer_characteristics }

/-- `H265SeiAmbientViewingEnvironmentParser::parse_payload`, src/h265_sei_parser.cc:735-768 -/
def parseSeiAmbientViewing : Prog SeiAmbientViewing := do
  let ambient_illuminance ← u 32
  let ambient_light_x ← u 16
  let ambient_light_y ← u 16
  return { ambient_illuminance, ambient_light_x, ambient_light_y }

/-- `H265SeiUnknownParser::parse_payload`, src/h265_sei_parser.cc:770-787 -/
def parseSeiUnknown (payload_size : Nat) : Prog SeiUnknown := do
  check (payload_size ≠ 0)
  let payload ← rep payload_size (u 8)
  return { payload }

/-- `while (ff_byte == 0xff) { read 8 bits; overflow check; add }`, src/h265_sei_parser.cc:44-53 and 57-65; `fuel` bounds the number of iterations -/
def ffLoop : Nat → Nat → Prog Nat
  | 0, _ => bad .hang
  | fuel + 1, acc => (u 8).bind fun b =>
      if acc > 2 ^ 32 - 1 - b then fail else if b = 255 then ffLoop fuel (acc + b) else ret (acc + b)

/-- The same with enough fuel (each iteration reads 8 bits), src/h265_sei_parser.cc:44-53 and 57-65 -/
def ffCodedNumber : Prog Nat := remaining fun n => ffLoop (n + 1) 0

/-- The dispatch on the payload type, src/h265_sei_parser.cc:68-113 -/
def parseSeiPayload (payload_type payload_size : Nat) : Prog SeiPayload :=
  if payload_type = 4 then (parseSeiUserDataRegistered payload_size).bind fun s => ret (.userDataRegistered s)
  else if payload_type = 5 then (parseSeiUserDataUnregistered payload_size).bind fun s => ret (.userDataUnregistered s)
  else if payload_type = 137 then (parseSeiMasteringDisplay).bind fun s => ret (.masteringDisplay s)
  else if payload_type = 144 then (parseSeiContentLightLevel).bind fun s => ret (.contentLightLevel s)
  else if payload_type = 141 then (parseSeiKneeFunction).bind fun s => ret (.kneeFunction s)
  else if payload_type = 142 then (parseSeiColourRemapping).bind fun s => ret (.colourRemapping s)
  else if payload_type = 149 then (parseSeiContentColourVolume).bind fun s => ret (.contentColourVolume s)
  else if payload_type = 147 then (parseSeiAlternativeTransfer).bind fun s => ret (.alternativeTransfer s)
  else if payload_type = 148 then (parseSeiAmbientViewing).bind fun s => ret (.ambientViewing s)
  else if payload_type = 165 then (parseSeiAlphaChannelInfo).bind fun s => ret (.alphaChannelInfo s)
  else (parseSeiUnknown payload_size).bind fun s => ret (.unknown s)

/-- `ParseSei`, src/h265_sei_parser.cc:32-115: a payload that cannot be parsed leaves `payload_state` null -/
def parseSei : Prog SeiMessage := do
  let payload_type ← ffCodedNumber
  let payload_size ← ffCodedNumber
  let payload_state ← (parseSeiPayload payload_type payload_size).attempt
  return { payload_type, payload_size, payload_state }

end H265
