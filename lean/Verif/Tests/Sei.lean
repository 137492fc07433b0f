import Verif.Model.Fuzz
import Verif.Model.Printable

/-! The assertions of `/repo/test/h265_sei_parser_unittest.cc` run on the model by the kernel. This is
validation of the transcription, not proof: each `example` is one unit test, its bytes and its
expectations copied from the test file. -/

set_option autoImplicit false
set_option maxRecDepth 100000
set_option maxHeartbeats 0
set_option linter.unusedVariables false

namespace H265.Tests

open H265

/-- `test/h265_sei_parser_unittest.cc:21` `TestUserDataRegisteredItuTT35Sei` (6 expectations). -/
example : (
  match parseSeiBytes [4, 71, 181, 0, 49, 71, 65, 57, 52, 3, 84, 0, 252, 128, 128, 253, 128, 128, 250, 0, 0, 250, 0, 0, 250, 0, 0, 250, 0, 0, 250, 0, 0, 250, 0, 0, 250, 0, 0, 250, 0, 0, 250, 0, 0, 250, 0, 0, 250, 0, 0, 250, 0, 0, 250, 0, 0, 250, 0, 0, 250, 0, 0, 250, 0, 0, 250, 0, 0, 250, 0, 0, 255] with
  | .ok v1 _ =>
    [true, v1.payload_type == 4, v1.payload_size == 71,
      (v1.payload_state.bind fun x => match x with | .userDataRegistered y => some y | _ => none).isSome,
      ((v1.payload_state.bind fun x => match x with | .userDataRegistered y => some y | _ => none).map fun x => x.itu_t_t35_country_code) == some 181,
      ((v1.payload_state.bind fun x => match x with | .userDataRegistered y => some y | _ => none).map fun x => x.itu_t_t35_country_code_extension_byte) == some 0].all id
  | _ => false) = true := by
  decide +kernel

/-- `test/h265_sei_parser_unittest.cc:50` `TestUserDataUnregisteredSei` (6 expectations). -/
example : (
  match parseSeiBytes [5, 56, 44, 162, 222, 9, 181, 23, 71, 219, 187, 85, 164, 254, 127, 194, 252, 78, 120, 50, 54, 53, 32, 40, 98, 117, 105, 108, 100, 32, 51, 49, 41, 32, 45, 32, 49, 46, 51, 43, 50, 48, 45, 54, 101, 54, 55, 53, 54, 102, 57, 52, 98, 50, 55, 58, 91, 87, 105] with
  | .ok v1 _ =>
    [true, v1.payload_type == 5, v1.payload_size == 56,
      (v1.payload_state.bind fun x => match x with | .userDataUnregistered y => some y | _ => none).isSome,
      ((v1.payload_state.bind fun x => match x with | .userDataUnregistered y => some y | _ => none).map fun x => x.uuid_iso_iec_11578_1) == some 3216377217170229211,
      ((v1.payload_state.bind fun x => match x with | .userDataUnregistered y => some y | _ => none).map fun x => x.uuid_iso_iec_11578_2) == some 13498876871085063246].all id
  | _ => false) = true := by
  decide +kernel

/-- `test/h265_sei_parser_unittest.cc:76` `TestAlphaChannelInfoSei` (9 expectations). -/
example : (
  match parseSeiBytes [165, 4, 0, 0, 127, 144, 128] with
  | .ok v1 _ =>
    [true, (v1.payload_state.bind fun x => match x with | .alphaChannelInfo y => some y | _ => none).isSome,
      ((v1.payload_state.bind fun x => match x with | .alphaChannelInfo y => some y | _ => none).map fun x => x.alpha_channel_cancel_flag) == some 0,
      ((v1.payload_state.bind fun x => match x with | .alphaChannelInfo y => some y | _ => none).map fun x => x.alpha_channel_use_idc) == some 0,
      ((v1.payload_state.bind fun x => match x with | .alphaChannelInfo y => some y | _ => none).map fun x => x.alpha_channel_bit_depth_minus8) == some 0,
      ((v1.payload_state.bind fun x => match x with | .alphaChannelInfo y => some y | _ => none).map fun x => x.alpha_transparent_value) == some 0,
      ((v1.payload_state.bind fun x => match x with | .alphaChannelInfo y => some y | _ => none).map fun x => x.alpha_opaque_value) == some 255,
      ((v1.payload_state.bind fun x => match x with | .alphaChannelInfo y => some y | _ => none).map fun x => x.alpha_channel_incr_flag) == some 0,
      ((v1.payload_state.bind fun x => match x with | .alphaChannelInfo y => some y | _ => none).map fun x => x.alpha_channel_clip_flag) == some 0].all id
  | _ => false) = true := by
  decide +kernel

/-- `test/h265_sei_parser_unittest.cc:96` `TestMasteringDisplayColourVolumeSei` (14 expectations). -/
example : (
  match parseSeiBytes [137, 24, 132, 73, 125, 0, 51, 92, 169, 194, 29, 76, 11, 184, 62, 128, 70, 80, 0, 152, 150, 128, 0, 0, 0, 50] with
  | .ok v1 _ =>
    [true, v1.payload_type == 137, v1.payload_size == 24,
      (v1.payload_state.bind fun x => match x with | .masteringDisplay y => some y | _ => none).isSome,
      (((v1.payload_state.bind fun x => match x with | .masteringDisplay y => some y | _ => none).map fun x => x.display_primaries.map (·.x)).bind fun x => x[0]?) == some 33865,
      (((v1.payload_state.bind fun x => match x with | .masteringDisplay y => some y | _ => none).map fun x => x.display_primaries.map (·.y)).bind fun x => x[0]?) == some 32000,
      (((v1.payload_state.bind fun x => match x with | .masteringDisplay y => some y | _ => none).map fun x => x.display_primaries.map (·.x)).bind fun x => x[1]?) == some 13148,
      (((v1.payload_state.bind fun x => match x with | .masteringDisplay y => some y | _ => none).map fun x => x.display_primaries.map (·.y)).bind fun x => x[1]?) == some 43458,
      (((v1.payload_state.bind fun x => match x with | .masteringDisplay y => some y | _ => none).map fun x => x.display_primaries.map (·.x)).bind fun x => x[2]?) == some 7500,
      (((v1.payload_state.bind fun x => match x with | .masteringDisplay y => some y | _ => none).map fun x => x.display_primaries.map (·.y)).bind fun x => x[2]?) == some 3000,
      ((v1.payload_state.bind fun x => match x with | .masteringDisplay y => some y | _ => none).map fun x => x.white_point_x) == some 16000,
      ((v1.payload_state.bind fun x => match x with | .masteringDisplay y => some y | _ => none).map fun x => x.white_point_y) == some 18000,
      ((v1.payload_state.bind fun x => match x with | .masteringDisplay y => some y | _ => none).map fun x => x.max_display_mastering_luminance) == some 10000000,
      ((v1.payload_state.bind fun x => match x with | .masteringDisplay y => some y | _ => none).map fun x => x.min_display_mastering_luminance) == some 50].all id
  | _ => false) = true := by
  decide +kernel

/-- `test/h265_sei_parser_unittest.cc:143` `TestContentLightLevelInfoSei` (6 expectations). -/
example : (
  match parseSeiBytes [144, 4, 3, 232, 1, 144] with
  | .ok v1 _ =>
    [true, v1.payload_type == 144, v1.payload_size == 4,
      (v1.payload_state.bind fun x => match x with | .contentLightLevel y => some y | _ => none).isSome,
      ((v1.payload_state.bind fun x => match x with | .contentLightLevel y => some y | _ => none).map fun x => x.max_content_light_level) == some 1000,
      ((v1.payload_state.bind fun x => match x with | .contentLightLevel y => some y | _ => none).map fun x => x.max_pic_average_light_level) == some 400].all id
  | _ => false) = true := by
  decide +kernel

/-- `test/h265_sei_parser_unittest.cc:167` `TestAlternativeTransferCharacteristicsSei` (5 expectations). -/
example : (
  match parseSeiBytes [147, 1, 18] with
  | .ok v1 _ =>
    [true, v1.payload_type == 147, v1.payload_size == 1,
      (v1.payload_state.bind fun x => match x with | .alternativeTransfer y => some y | _ => none).isSome,
      ((v1.payload_state.bind fun x => match x with | .alternativeTransfer y => some y | _ => none).map fun x => x.preferred_transfer_characteristics) == some 18].all id
  | _ => false) = true := by
  decide +kernel

/-- `test/h265_sei_parser_unittest.cc:191` `TestAmbientViewingEnvironmentSei` (7 expectations). -/
example : (
  match parseSeiBytes [148, 8, 0, 1, 134, 160, 61, 19, 64, 133] with
  | .ok v1 _ =>
    [true, v1.payload_type == 148, v1.payload_size == 8,
      (v1.payload_state.bind fun x => match x with | .ambientViewing y => some y | _ => none).isSome,
      ((v1.payload_state.bind fun x => match x with | .ambientViewing y => some y | _ => none).map fun x => x.ambient_illuminance) == some 100000,
      ((v1.payload_state.bind fun x => match x with | .ambientViewing y => some y | _ => none).map fun x => x.ambient_light_x) == some 15635,
      ((v1.payload_state.bind fun x => match x with | .ambientViewing y => some y | _ => none).map fun x => x.ambient_light_y) == some 16517].all id
  | _ => false) = true := by
  decide +kernel

/-- `test/h265_sei_parser_unittest.cc:219` `TestKneeFunctionInfoSei` (6 expectations). -/
example : (
  match parseSeiBytes [141, 1, 192] with
  | .ok v1 _ =>
    [true, v1.payload_type == 141, v1.payload_size == 1,
      (v1.payload_state.bind fun x => match x with | .kneeFunction y => some y | _ => none).isSome,
      ((v1.payload_state.bind fun x => match x with | .kneeFunction y => some y | _ => none).map fun x => x.knee_function_id) == some 0,
      ((v1.payload_state.bind fun x => match x with | .kneeFunction y => some y | _ => none).map fun x => x.knee_function_cancel_flag) == some 1].all id
  | _ => false) = true := by
  decide +kernel

/-- `test/h265_sei_parser_unittest.cc:244` `TestContentColourVolumeSei` (5 expectations). -/
example : (
  match parseSeiBytes [149, 1, 128] with
  | .ok v1 _ =>
    [true, v1.payload_type == 149, v1.payload_size == 1,
      (v1.payload_state.bind fun x => match x with | .contentColourVolume y => some y | _ => none).isSome,
      ((v1.payload_state.bind fun x => match x with | .contentColourVolume y => some y | _ => none).map fun x => x.ccv_cancel_flag) == some 1].all id
  | _ => false) = true := by
  decide +kernel

/-- `test/h265_sei_parser_unittest.cc:267` `TestContentColourVolumeComplexSei` (20 expectations). -/
example : (
  match parseSeiBytes [149, 37, 124, 18, 52, 0, 0, 86, 120, 0, 0, 170, 187, 204, 221, 17, 34, 51, 68, 85, 102, 119, 136, 153, 170, 187, 204, 16, 32, 48, 64, 80, 96, 112, 128, 160, 176, 192, 208] with
  | .ok v1 _ =>
    [true, v1.payload_type == 149, v1.payload_size == 37,
      (v1.payload_state.bind fun x => match x with | .contentColourVolume y => some y | _ => none).isSome,
      ((v1.payload_state.bind fun x => match x with | .contentColourVolume y => some y | _ => none).map fun x => x.ccv_cancel_flag) == some 0,
      ((v1.payload_state.bind fun x => match x with | .contentColourVolume y => some y | _ => none).map fun x => x.ccv_persistence_flag) == some 1,
      ((v1.payload_state.bind fun x => match x with | .contentColourVolume y => some y | _ => none).map fun x => x.ccv_primaries_present_flag) == some 1,
      ((v1.payload_state.bind fun x => match x with | .contentColourVolume y => some y | _ => none).map fun x => x.ccv_min_luminance_value_present_flag) == some 1,
      ((v1.payload_state.bind fun x => match x with | .contentColourVolume y => some y | _ => none).map fun x => x.ccv_max_luminance_value_present_flag) == some 1,
      ((v1.payload_state.bind fun x => match x with | .contentColourVolume y => some y | _ => none).map fun x => x.ccv_avg_luminance_value_present_flag) == some 1,
      ((v1.payload_state.bind fun x => match x with | .contentColourVolume y => some y | _ => none).map fun x => x.ccv_reserved_zero_2bits) == some 0,
      (((v1.payload_state.bind fun x => match x with | .contentColourVolume y => some y | _ => none).map fun x => x.ccv_primaries.map (·.x)).bind fun x => x[0]?) == some 305397760,
      (((v1.payload_state.bind fun x => match x with | .contentColourVolume y => some y | _ => none).map fun x => x.ccv_primaries.map (·.y)).bind fun x => x[0]?) == some 1450704896,
      (((v1.payload_state.bind fun x => match x with | .contentColourVolume y => some y | _ => none).map fun x => x.ccv_primaries.map (·.x)).bind fun x => x[1]?) == some (-1430532899),
      (((v1.payload_state.bind fun x => match x with | .contentColourVolume y => some y | _ => none).map fun x => x.ccv_primaries.map (·.y)).bind fun x => x[1]?) == some 287454020,
      (((v1.payload_state.bind fun x => match x with | .contentColourVolume y => some y | _ => none).map fun x => x.ccv_primaries.map (·.x)).bind fun x => x[2]?) == some 1432778632,
      (((v1.payload_state.bind fun x => match x with | .contentColourVolume y => some y | _ => none).map fun x => x.ccv_primaries.map (·.y)).bind fun x => x[2]?) == some (-1716864052),
      ((v1.payload_state.bind fun x => match x with | .contentColourVolume y => some y | _ => none).map fun x => x.ccv_min_luminance_value) == some 270544960,
      ((v1.payload_state.bind fun x => match x with | .contentColourVolume y => some y | _ => none).map fun x => x.ccv_max_luminance_value) == some 1348497536,
      ((v1.payload_state.bind fun x => match x with | .contentColourVolume y => some y | _ => none).map fun x => x.ccv_avg_luminance_value) == some 2695938256].all id
  | _ => false) = true := by
  decide +kernel

/-- `test/h265_sei_parser_unittest.cc:337` `TestColourRemappingInfoSei` (6 expectations). -/
example : (
  match parseSeiBytes [142, 1, 192] with
  | .ok v1 _ =>
    [true, v1.payload_type == 142, v1.payload_size == 1,
      (v1.payload_state.bind fun x => match x with | .colourRemapping y => some y | _ => none).isSome,
      ((v1.payload_state.bind fun x => match x with | .colourRemapping y => some y | _ => none).map fun x => x.colour_remap_id) == some 0,
      ((v1.payload_state.bind fun x => match x with | .colourRemapping y => some y | _ => none).map fun x => x.colour_remap_cancel_flag) == some 1].all id
  | _ => false) = true := by
  decide +kernel

end H265.Tests
