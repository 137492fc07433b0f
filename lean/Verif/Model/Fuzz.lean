/-
Model of the fuzz targets of the project (fuzz/*.cc): the function `LLVMFuzzerTestOneInput(data, size)` of each of them, as the undefined behaviour it
runs into (`none` = it returns).
-/
import Verif.Model.EntryPoints

set_option autoImplicit false

namespace H265

/-- the undefined behaviour of a parse, if any: what a fuzz target reports, e.g. fuzz/h265_aud_parser_fuzzer.cc:15-18 -/
def Res.fault {α : Type} : Res α → Option Bad
  | .bad k => some k
  | _ => none

/-- the same for the entry points that return no reader, e.g. fuzz/h265_bitstream_parser_fuzzer.cc:17-28 -/
def Except.fault {α : Type} : Except Bad α → Option Bad
  | .error k => some k
  | .ok _ => none

/-- fuzz/h265_aud_parser_fuzzer.cc:15-18 -/
def fuzzAud (data : List UInt8) : Option Bad := (parseAudBytes data).fault

/-- fuzz/h265_bitstream_parser_fuzzer.cc:17-28: `add_checksum = true`, a default parser state -/
def fuzzBitstream (data : List UInt8) : Option Bad := Except.fault (parseBitstream true .empty data)

/-- fuzz/h265_configuration_box_parser_fuzzer.cc:15-23: default options (include/h265_common.h: `add_checksum = true`), a default parser state -/
def fuzzConfigurationBox (data : List UInt8) : Option Bad := (parseConfigurationBoxBytes true .empty data).fault

/-- fuzz/h265_hrd_parameters_parser_fuzzer.cc:15-23 -/
def fuzzHrdParameters (data : List UInt8) : Option Bad := (parseHrdParametersBytes data 1 0).fault

/-- fuzz/h265_nal_unit_parser_fuzzer.cc:16-26 -/
def fuzzNalUnit (data : List UInt8) : Option Bad := (parseNalUnit true .empty data).fault

/-- fuzz/h265_pps_multilayer_extension_parser_fuzzer.cc:15-22 -/
def fuzzPpsMultilayerExtension (data : List UInt8) : Option Bad := (parsePpsMultilayerExtensionBytes data).fault

/-- fuzz/h265_pps_parser_fuzzer.cc:15-20 -/
def fuzzPps (data : List UInt8) : Option Bad := (parsePpsBytes data).fault

/-- fuzz/h265_pps_scc_extension_parser_fuzzer.cc:15-21 -/
def fuzzPpsSccExtension (data : List UInt8) : Option Bad := (parsePpsSccExtensionBytes data).fault

/-- fuzz/h265_pred_weight_table_parser_fuzzer.cc:15-25: two calls -/
def fuzzPredWeightTable (data : List UInt8) : Option Bad :=
  (parsePredWeightTableBytes data 1 0).fault.or (parsePredWeightTableBytes data 1 2).fault

/-- fuzz/h265_profile_tier_level_parser_fuzzer.cc:14-24: two calls -/
def fuzzProfileTierLevel (data : List UInt8) : Option Bad :=
  (parseProfileTierLevelBytes data true 0).fault.or (parseProfileTierLevelBytes data true 0).fault

/-- fuzz/h265_rtp_ap_parser_fuzzer.cc:15-20 -/
def fuzzRtpAp (data : List UInt8) : Option Bad := (parseRtpApBytes data .empty).fault

deriving instance Inhabited for VpsBody, Vps

/-- The mock state of fuzz/h265_slice_parser_fuzzer.cc:22-31, fuzz/h265_rtp_fu_parser_fuzzer.cc:17-27 and fuzz/h265_utils_fuzzer.cc:21-31: a
default VPS, SPS and PPS under id 0; all members of a default-constructed SPS and PPS are 0, empty or null (include/h265_sps_parser.h:78-145,
include/h265_pps_parser.h:40-92), two members of the SPS are set to 1.  (The profile_tier_level of a default SPS is null; the model has a
default object there, which no parser reads.) -/
def mockSps : Sps := ⟨{ (default : SpsBody) with sample_adaptive_offset_enabled_flag := 1, chroma_format_idc := 1 }, 0⟩

/-- the mock state, see `mockSps` (fuzz/h265_slice_parser_fuzzer.cc:22-31) -/
def mockState : ParserState :=
  ⟨mapSet (fun _ => none) 0 default, mapSet (fun _ => none) 0 mockSps, mapSet (fun _ => none) 0 default⟩

/-- fuzz/h265_rtp_fu_parser_fuzzer.cc:15-31 -/
def fuzzRtpFu (data : List UInt8) : Option Bad := (parseRtpFuBytes data mockState).fault

/-- fuzz/h265_rtp_parser_fuzzer.cc:16-23 -/
def fuzzRtp (data : List UInt8) : Option Bad := Except.fault (parseRtp .empty data)

/-- fuzz/h265_rtp_single_parser_fuzzer.cc:17-24 -/
def fuzzRtpSingle (data : List UInt8) : Option Bad := (parseRtpSingleBytes data .empty).fault

/-- fuzz/h265_scaling_list_data_parser_fuzzer.cc:15-21 -/
def fuzzScalingListData (data : List UInt8) : Option Bad := (parseScalingListDataBytes data).fault

/-- fuzz/h265_sei_parser_fuzzer.cc:15-20 -/
def fuzzSei (data : List UInt8) : Option Bad := (parseSeiBytes data).fault

/-- fuzz/h265_slice_parser_fuzzer.cc:20-38; IDR_W_RADL = 19 -/
def fuzzSlice (data : List UInt8) : Option Bad := (parseSliceSegmentLayerBytes data 19 mockState).fault

/-- fuzz/h265_sps_3d_extension_parser_fuzzer.cc:15-21 -/
def fuzzSps3dExtension (data : List UInt8) : Option Bad := (parseSps3dExtensionBytes data).fault

/-- fuzz/h265_sps_multilayer_extension_parser_fuzzer.cc:15-20 -/
def fuzzSpsMultilayerExtension (data : List UInt8) : Option Bad := (parseSpsMultilayerExtensionBytes data).fault

/-- fuzz/h265_sps_parser_fuzzer.cc:15-20 -/
def fuzzSps (data : List UInt8) : Option Bad := (parseSpsBytes data).fault

/-- fuzz/h265_sps_range_extension_parser_fuzzer.cc:15-20 -/
def fuzzSpsRangeExtension (data : List UInt8) : Option Bad := (parseSpsRangeExtensionBytes data).fault

/-- fuzz/h265_sps_scc_extension_parser_fuzzer.cc:15-22 -/
def fuzzSpsSccExtension (data : List UInt8) : Option Bad := (parseSpsSccExtensionBytes data 1 0 0).fault

/-- fuzz/h265_st_ref_pic_set_parser_fuzzer.cc:16-25: index 0 of 1 set, no previous sets, at most one picture -/
def fuzzStRefPicSet (data : List UInt8) : Option Bad := (parseStRefPicSetBytes data 0 1 [] 1).fault

/-- fuzz/h265_sub_layer_hrd_parameters_parser_fuzzer.cc:15-26 -/
def fuzzSubLayerHrdParameters (data : List UInt8) : Option Bad := (parseSubLayerHrdParametersBytes data 1 0).fault

/-- fuzz/h265_utils_fuzzer.cc:19-38 -/
def fuzzUtils (data : List UInt8) : Option Bad := Except.fault (getSliceQpY mockState data)

/-- fuzz/h265_vps_parser_fuzzer.cc:15-20 -/
def fuzzVps (data : List UInt8) : Option Bad := (parseVpsBytes data).fault

/-- fuzz/h265_vui_parameters_parser_fuzzer.cc:15-32: three calls -/
def fuzzVuiParameters (data : List UInt8) : Option Bad :=
  (parseVuiParametersBytes data 0).fault.or ((parseVuiParametersBytes data 0).fault.or (parseVuiParametersBytes data 0).fault)

end H265
