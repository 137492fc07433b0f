/-
`fdump` of SEI messages.
The definitions `dumpX.items` and `dumpX` are generated from a transcription of the statements of each `fdump`.
-/
import Verif.Model.Dump
import Verif.Spec.Sei

set_option autoImplicit false

namespace H265
open Spec

/-- the UUID of `user_data_unregistered`, src/h265_sei_parser.cc:847-852 -/
def putUuid (a b : Nat) : List Char :=
  putX0 8 (a / 2 ^ 32) ++ '-' :: (putX0 4 (a / 2 ^ 16 % 2 ^ 16) ++ '-' :: (putX0 4 (a % 2 ^ 16) ++ '-' ::
    (putX0 4 (b / 2 ^ 48) ++ '-' :: putX0 12 (b % 2 ^ 48))))

/-- `"%u (%.5f)", v, v * 0.00002`, src/h265_sei_parser.cc:917-931: the value is `2 * v / 10 ^ 5` -/
def putChroma (v : Nat) : List Char := putU v ++ " (".toList ++ putF 5 (2 * v) ++ ")".toList

/-- `"%u (%.4f cd/m^2)", v, v * 0.0001`, src/h265_sei_parser.cc:933-941: the value is `v / 10 ^ 4` -/
def putCandela (v : Nat) : List Char := putU v ++ " (".toList ++ putF 4 v ++ " cd/m^2)".toList

/-- the statements between the braces of `user_data_registered_itu_t_t35 { … }`, src/h265_sei_parser.cc:812-838 -/
def dumpSeiUserDataRegistered.items (s : SeiUserDataRegistered) : List Dump :=
  [
    .fld "itu_t_t35_country_code" (putI s.itu_t_t35_country_code),
    .fld "itu_t_t35_country_code_extension_byte" (putI s.itu_t_t35_country_code_extension_byte),
    .fld "payload_size" (putU s.payload.length),
    .lst "payload" (Dump.item putU) s.payload]

/-- `fdump` of `user_data_registered_itu_t_t35`, src/h265_sei_parser.cc:812-838 -/
def dumpSeiUserDataRegistered (s : SeiUserDataRegistered) : Dump := .blk "user_data_registered_itu_t_t35" (dumpSeiUserDataRegistered.items s)

/-- the statements between the braces of `user_data_unregistered { … }`, src/h265_sei_parser.cc:840-867 -/
def dumpSeiUserDataUnregistered.items (s : SeiUserDataUnregistered) : List Dump :=
  [
    .fld "uuid_iso_iec_11578" (putUuid s.uuid_iso_iec_11578_1 s.uuid_iso_iec_11578_2),
    .fld "payload_size" (putU s.payload.length),
    .lst "payload" (Dump.item putU) s.payload]

/-- `fdump` of `user_data_unregistered`, src/h265_sei_parser.cc:840-867 -/
def dumpSeiUserDataUnregistered (s : SeiUserDataUnregistered) : Dump := .blk "user_data_unregistered" (dumpSeiUserDataUnregistered.items s)

/-- the statements between the braces of `alpha_channel_info { … }`, src/h265_sei_parser.cc:869-907 -/
def dumpSeiAlphaChannelInfo.items (s : SeiAlphaChannelInfo) : List Dump :=
  [
    .fld "alpha_channel_cancel_flag" (putI s.alpha_channel_cancel_flag),
    .cond (s.alpha_channel_cancel_flag = 0) [
      .fld "alpha_channel_use_idc" (putI s.alpha_channel_use_idc),
      .fld "alpha_channel_bit_depth_minus8" (putI s.alpha_channel_bit_depth_minus8),
      .fld "alpha_transparent_value" (putI s.alpha_transparent_value),
      .fld "alpha_opaque_value" (putI s.alpha_opaque_value),
      .fld "alpha_channel_incr_flag" (putI s.alpha_channel_incr_flag),
      .fld "alpha_channel_clip_flag" (putI s.alpha_channel_clip_flag),
      .cond (s.alpha_channel_clip_flag ≠ 0) [
        .fld "alpha_channel_clip_type_flag" (putI s.alpha_channel_clip_type_flag)]]]

/-- `fdump` of `alpha_channel_info`, src/h265_sei_parser.cc:869-907 -/
def dumpSeiAlphaChannelInfo (s : SeiAlphaChannelInfo) : Dump := .blk "alpha_channel_info" (dumpSeiAlphaChannelInfo.items s)

/-- the statements between the braces of `mastering_display_colour_volume { … }`, src/h265_sei_parser.cc:909-941 (the loop over three colours is written out) -/
def dumpSeiMasteringDisplay.items (s : SeiMasteringDisplay) : List Dump :=
  [
    .elem s.display_primaries 0 fun p => .seq [
      .fld "display_primaries[0]_x" (putChroma p.x),
      .fld "display_primaries[0]_y" (putChroma p.y)],
    .elem s.display_primaries 1 fun p => .seq [
      .fld "display_primaries[1]_x" (putChroma p.x),
      .fld "display_primaries[1]_y" (putChroma p.y)],
    .elem s.display_primaries 2 fun p => .seq [
      .fld "display_primaries[2]_x" (putChroma p.x),
      .fld "display_primaries[2]_y" (putChroma p.y)],
    .fld "white_point_x" (putChroma s.white_point_x),
    .fld "white_point_y" (putChroma s.white_point_y),
    .fld "max_display_mastering_luminance" (putCandela s.max_display_mastering_luminance),
    .fld "min_display_mastering_luminance" (putCandela s.min_display_mastering_luminance)]

/-- `fdump` of `mastering_display_colour_volume`, src/h265_sei_parser.cc:909-941 -/
def dumpSeiMasteringDisplay (s : SeiMasteringDisplay) : Dump := .blk "mastering_display_colour_volume" (dumpSeiMasteringDisplay.items s)

/-- the statements between the braces of `content_light_level_info { … }`, src/h265_sei_parser.cc:944-960 -/
def dumpSeiContentLightLevel.items (s : SeiContentLightLevel) : List Dump :=
  [
    .fld "max_content_light_level" (putU s.max_content_light_level ++ " cd/m^2".toList),
    .fld "max_pic_average_light_level" (putU s.max_pic_average_light_level ++ " cd/m^2".toList)]

/-- `fdump` of `content_light_level_info`, src/h265_sei_parser.cc:944-960 -/
def dumpSeiContentLightLevel (s : SeiContentLightLevel) : Dump := .blk "content_light_level_info" (dumpSeiContentLightLevel.items s)

/-- the statements between the braces of `knee_function_info { … }`, src/h265_sei_parser.cc:964-1015 -/
def dumpSeiKneeFunction.items (s : SeiKneeFunction) : List Dump :=
  [
    .fld "knee_function_id" (putU s.knee_function_id),
    .fld "knee_function_cancel_flag" (putU s.knee_function_cancel_flag),
    .cond (s.knee_function_cancel_flag = 0) [
      .fld "knee_function_persistence_flag" (putU s.knee_function_persistence_flag),
      .fld "input_d_range" (putU s.input_d_range),
      .fld "input_disp_luminance" (putU s.input_disp_luminance),
      .fld "output_d_range" (putU s.output_d_range),
      .fld "output_disp_luminance" (putU s.output_disp_luminance),
      .fld "num_knee_points_minus1" (putU s.num_knee_points_minus1),
      .cond (s.knee_points ≠ []) [
        .lst "input_knee_point:" (Dump.item putU) (s.knee_points.map (·.input_knee_point)),
        .lst "output_knee_point:" (Dump.item putU) (s.knee_points.map (·.output_knee_point))]]]

/-- `fdump` of `knee_function_info`, src/h265_sei_parser.cc:964-1015 -/
def dumpSeiKneeFunction (s : SeiKneeFunction) : Dump := .blk "knee_function_info" (dumpSeiKneeFunction.items s)

/-- the statements between the braces of `colour_remapping_info { … }`, src/h265_sei_parser.cc:1017-1134 (the loops over three components are written out; the vectors have three entries when they are accessed) -/
def dumpSeiColourRemapping.items (s : SeiColourRemapping) : List Dump :=
  [
    .fld "colour_remap_id" (putU s.colour_remap_id),
    .fld "colour_remap_cancel_flag" (putU s.colour_remap_cancel_flag),
    .cond (s.colour_remap_cancel_flag = 0) [
      .fld "colour_remap_persistence_flag" (putU s.colour_remap_persistence_flag),
      .fld "colour_remap_video_signal_info_present_flag" (putU s.colour_remap_video_signal_info_present_flag),
      .cond (s.colour_remap_video_signal_info_present_flag ≠ 0) [
        .fld "colour_remap_full_range_flag" (putU s.colour_remap_full_range_flag),
        .fld "colour_remap_primaries" (putU s.colour_remap_primaries),
        .fld "colour_remap_transfer_function" (putU s.colour_remap_transfer_function),
        .fld "colour_remap_matrix_coefficients" (putU s.colour_remap_matrix_coefficients)],
      .fld "colour_remap_input_bit_depth" (putU s.colour_remap_input_bit_depth),
      .fld "colour_remap_output_bit_depth" (putU s.colour_remap_output_bit_depth),
      .elem s.pre_lut 0 fun l => .seq [
        .fld "pre_lut_num_val_minus1[0]" (putU l.num_val_minus1),
        .cond (l.num_val_minus1 > 0) [
          .lst "pre_lut_coded_value[0]:" (Dump.item putU) (l.entries.map (·.coded_value)),
          .lst "pre_lut_target_value[0]:" (Dump.item putU) (l.entries.map (·.target_value))]],
      .elem s.pre_lut 1 fun l => .seq [
        .fld "pre_lut_num_val_minus1[1]" (putU l.num_val_minus1),
        .cond (l.num_val_minus1 > 0) [
          .lst "pre_lut_coded_value[1]:" (Dump.item putU) (l.entries.map (·.coded_value)),
          .lst "pre_lut_target_value[1]:" (Dump.item putU) (l.entries.map (·.target_value))]],
      .elem s.pre_lut 2 fun l => .seq [
        .fld "pre_lut_num_val_minus1[2]" (putU l.num_val_minus1),
        .cond (l.num_val_minus1 > 0) [
          .lst "pre_lut_coded_value[2]:" (Dump.item putU) (l.entries.map (·.coded_value)),
          .lst "pre_lut_target_value[2]:" (Dump.item putU) (l.entries.map (·.target_value))]],
      .fld "colour_remap_matrix_present_flag" (putU s.colour_remap_matrix_present_flag),
      .cond (s.colour_remap_matrix_present_flag ≠ 0) [
        .fld "log2_matrix_denom" (putU s.log2_matrix_denom),
        .cond (s.colour_remap_coeffs ≠ []) [
          .ifSome (s.colour_remap_coeffs[0]?) fun v => .seq [
            .lst "colour_remap_coeffs[0]:" (Dump.item putD) v],
          .ifSome (s.colour_remap_coeffs[1]?) fun v => .seq [
            .lst "colour_remap_coeffs[1]:" (Dump.item putD) v],
          .ifSome (s.colour_remap_coeffs[2]?) fun v => .seq [
            .lst "colour_remap_coeffs[2]:" (Dump.item putD) v]]],
      .elem s.post_lut 0 fun l => .seq [
        .fld "post_lut_num_val_minus1[0]" (putU l.num_val_minus1),
        .cond (l.num_val_minus1 > 0) [
          .lst "post_lut_coded_value[0]:" (Dump.item putU) (l.entries.map (·.coded_value)),
          .lst "post_lut_target_value[0]:" (Dump.item putU) (l.entries.map (·.target_value))]],
      .elem s.post_lut 1 fun l => .seq [
        .fld "post_lut_num_val_minus1[1]" (putU l.num_val_minus1),
        .cond (l.num_val_minus1 > 0) [
          .lst "post_lut_coded_value[1]:" (Dump.item putU) (l.entries.map (·.coded_value)),
          .lst "post_lut_target_value[1]:" (Dump.item putU) (l.entries.map (·.target_value))]],
      .elem s.post_lut 2 fun l => .seq [
        .fld "post_lut_num_val_minus1[2]" (putU l.num_val_minus1),
        .cond (l.num_val_minus1 > 0) [
          .lst "post_lut_coded_value[2]:" (Dump.item putU) (l.entries.map (·.coded_value)),
          .lst "post_lut_target_value[2]:" (Dump.item putU) (l.entries.map (·.target_value))]]]]

/-- `fdump` of `colour_remapping_info`, src/h265_sei_parser.cc:1017-1134 -/
def dumpSeiColourRemapping (s : SeiColourRemapping) : Dump := .blk "colour_remapping_info" (dumpSeiColourRemapping.items s)

/-- the statements between the braces of `content_colour_volume { … }`, src/h265_sei_parser.cc:1136-1196 (the loop over three colours is written out) -/
def dumpSeiContentColourVolume.items (s : SeiContentColourVolume) : List Dump :=
  [
    .fld "ccv_cancel_flag" (putU s.ccv_cancel_flag),
    .cond (s.ccv_cancel_flag = 0) [
      .fld "ccv_persistence_flag" (putU s.ccv_persistence_flag),
      .fld "ccv_primaries_present_flag" (putU s.ccv_primaries_present_flag),
      .fld "ccv_min_luminance_value_present_flag" (putU s.ccv_min_luminance_value_present_flag),
      .fld "ccv_max_luminance_value_present_flag" (putU s.ccv_max_luminance_value_present_flag),
      .fld "ccv_avg_luminance_value_present_flag" (putU s.ccv_avg_luminance_value_present_flag),
      .fld "ccv_reserved_zero_2bits" (putU s.ccv_reserved_zero_2bits),
      .cond (s.ccv_primaries_present_flag ≠ 0) [
        .elem s.ccv_primaries 0 fun p => .seq [
          .fld "ccv_primaries_x[0]" (putD p.x),
          .fld "ccv_primaries_y[0]" (putD p.y)],
        .elem s.ccv_primaries 1 fun p => .seq [
          .fld "ccv_primaries_x[1]" (putD p.x),
          .fld "ccv_primaries_y[1]" (putD p.y)],
        .elem s.ccv_primaries 2 fun p => .seq [
          .fld "ccv_primaries_x[2]" (putD p.x),
          .fld "ccv_primaries_y[2]" (putD p.y)]],
      .cond (s.ccv_min_luminance_value_present_flag ≠ 0) [
        .fld "ccv_min_luminance_value" (putU s.ccv_min_luminance_value)],
      .cond (s.ccv_max_luminance_value_present_flag ≠ 0) [
        .fld "ccv_max_luminance_value" (putU s.ccv_max_luminance_value)],
      .cond (s.ccv_avg_luminance_value_present_flag ≠ 0) [
        .fld "ccv_avg_luminance_value" (putU s.ccv_avg_luminance_value)]]]

/-- `fdump` of `content_colour_volume`, src/h265_sei_parser.cc:1136-1196 -/
def dumpSeiContentColourVolume (s : SeiContentColourVolume) : Dump := .blk "content_colour_volume" (dumpSeiContentColourVolume.items s)

/-- the statements between the braces of `alternative_transfer_characteristics { … }`, src/h265_sei_parser.cc:1198-1211 -/
def dumpSeiAlternativeTransfer.items (s : SeiAlternativeTransfer) : List Dump :=
  [
    .fld "preferred_transfer_characteristics" (putU s.preferred_transfer_characteristics)]

/-- `fdump` of `alternative_transfer_characteristics`, src/h265_sei_parser.cc:1198-1211 -/
def dumpSeiAlternativeTransfer (s : SeiAlternativeTransfer) : Dump := .blk "alternative_transfer_characteristics" (dumpSeiAlternativeTransfer.items s)

/-- the statements between the braces of `ambient_viewing_environment { … }`, src/h265_sei_parser.cc:1213-1231 -/
def dumpSeiAmbientViewing.items (s : SeiAmbientViewing) : List Dump :=
  [
    .fld "ambient_illuminance" (putU s.ambient_illuminance),
    .fld "ambient_light_x" (putU s.ambient_light_x),
    .fld "ambient_light_y" (putU s.ambient_light_y)]

/-- `fdump` of `ambient_viewing_environment`, src/h265_sei_parser.cc:1213-1231 -/
def dumpSeiAmbientViewing (s : SeiAmbientViewing) : Dump := .blk "ambient_viewing_environment" (dumpSeiAmbientViewing.items s)

/-- the statements between the braces of `unimplemented { … }`, src/h265_sei_parser.cc:1233-1251 -/
def dumpSeiUnknown.items (s : SeiUnknown) : List Dump :=
  [
    .fld "payload_size" (putU s.payload.length ++ [' ']),
    .lst "payload" (Dump.item putU) s.payload]

/-- `fdump` of `unimplemented`, src/h265_sei_parser.cc:1233-1251 -/
def dumpSeiUnknown (s : SeiUnknown) : Dump := .blk "unimplemented" (dumpSeiUnknown.items s)

/-- `payload_state->fdump` (a virtual function), src/h265_sei_parser.cc:803 -/
def dumpSeiPayload : SeiPayload → Dump
  | .userDataRegistered s => dumpSeiUserDataRegistered s
  | .userDataUnregistered s => dumpSeiUserDataUnregistered s
  | .masteringDisplay s => dumpSeiMasteringDisplay s
  | .contentLightLevel s => dumpSeiContentLightLevel s
  | .kneeFunction s => dumpSeiKneeFunction s
  | .colourRemapping s => dumpSeiColourRemapping s
  | .contentColourVolume s => dumpSeiContentColourVolume s
  | .alternativeTransfer s => dumpSeiAlternativeTransfer s
  | .ambientViewing s => dumpSeiAmbientViewing s
  | .alphaChannelInfo s => dumpSeiAlphaChannelInfo s
  | .unknown s => dumpSeiUnknown s

/-- the statements of `SeiMessageState::fdump`, src/h265_sei_parser.cc:791-810 (`payload_type` is an enum printed with `%i`; `SeiType` has the
32 bits of an unsigned number) -/
def dumpSei.items (s : SeiMessage) : List Dump :=
  [
    .fld "payload_type" (putI s.payload_type),
    .fld "payload_size" (putU s.payload_size),
    .ifSome s.payload_state fun p => .on (dumpSeiPayload p)]

/-- `SeiMessageState::fdump`, src/h265_sei_parser.cc:791-810 -/
def dumpSei (s : SeiMessage) : Dump := .blk "sei message" (dumpSei.items s)

end H265
