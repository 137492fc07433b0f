/-
Model of the `(data, length)` entry points of the parsers: each one unescapes the bytes (`UnescapeRbsp`), makes a `BitBuffer` on the result and
calls the overload for bit buffers.  The overloads of `ParseNalUnit`, `ParseBitstream`, `ParseRtp`, `ParseConfigurationBox` and `GetNalUnitType` are
modelled with their files.
-/
import Verif.Model.ConfigBox
import Verif.Model.Utils

set_option autoImplicit false

namespace H265
open Prog

/-- `ParseAud(data, length)`, src/h265_aud_parser.cc:22-27 -/
def parseAudBytes (data : List UInt8) : Res Aud := parseAud.parseEscaped data

/-- `ParseHrdParameters(data, length, commonInfPresentFlag, maxNumSubLayersMinus1)`, src/h265_hrd_parameters_parser.cc:23-31 -/
def parseHrdParametersBytes (data : List UInt8) (commonInfPresentFlag maxNumSubLayersMinus1 : Nat) : Res HrdParameters :=
  (parseHrdParameters commonInfPresentFlag maxNumSubLayersMinus1).parseEscaped data

/-- `ParseNalUnitHeader(data, length)`, src/h265_nal_unit_header_parser.cc:22-29 -/
def parseNalUnitHeaderBytes (data : List UInt8) : Res NalUnitHeader := parseNalUnitHeader.parseEscaped data

/-- `ParseNalUnitPayload(data, length, nal_unit_type, bitstream_parser_state)`, src/h265_nal_unit_payload_parser.cc:27-36 -/
def parseNalUnitPayloadBytes (data : List UInt8) (nal_unit_type : Nat) (st : ParserState) : Res (NalUnitPayload × ParserState) :=
  (parseNalUnitPayload nal_unit_type st).parseEscaped data

/-- `ParsePpsMultilayerExtension(data, length)`, src/h265_pps_multilayer_extension_parser.cc:24-30 -/
def parsePpsMultilayerExtensionBytes (data : List UInt8) : Res PpsMultilayerExtension := parsePpsMultilayerExtension.parseEscaped data

/-- `ParsePps(data, length)`, src/h265_pps_parser.cc:26-31 -/
def parsePpsBytes (data : List UInt8) : Res Pps := parsePps.parseEscaped data

/-- `ParsePpsSccExtension(data, length)`, src/h265_pps_scc_extension_parser.cc:23-29 -/
def parsePpsSccExtensionBytes (data : List UInt8) : Res PpsSccExtension := parsePpsSccExtension.parseEscaped data

/-- `ParsePredWeightTable(data, length, ChromaArrayType, num_ref_idx_l0_active_minus1)`, src/h265_pred_weight_table_parser.cc:23-31 -/
def parsePredWeightTableBytes (data : List UInt8) (ChromaArrayType num_ref_idx_l0_active_minus1 : Nat) : Res PredWeightTable :=
  (parsePredWeightTable ChromaArrayType num_ref_idx_l0_active_minus1).parseEscaped data

/-- `ParseProfileTierLevel(data, length, profilePresentFlag, maxNumSubLayersMinus1)`, src/h265_profile_tier_level_parser.cc:23-32 -/
def parseProfileTierLevelBytes (data : List UInt8) (profilePresentFlag : Bool) (maxNumSubLayersMinus1 : Nat) : Res ProfileTierLevel :=
  (parseProfileTierLevel profilePresentFlag maxNumSubLayersMinus1).parseEscaped data

/-- `ParseProfileInfo(data, length)`, src/h265_profile_tier_level_parser.cc:107-113 -/
def parseProfileInfoBytes (data : List UInt8) : Res ProfileInfo := parseProfileInfo.parseEscaped data

/-- `ParseRtpAp(data, length, bitstream_parser_state)`, src/h265_rtp_ap_parser.cc:25-31; `none` = null -/
def parseRtpApBytes (data : List UInt8) (st : ParserState) : Res (Option RtpAp × ParserState) := (parseRtpAp st).parseEscaped data

/-- `ParseRtpFu(data, length, bitstream_parser_state)`, src/h265_rtp_fu_parser.cc:24-30 -/
def parseRtpFuBytes (data : List UInt8) (st : ParserState) : Res (RtpFu × ParserState) := (parseRtpFu st).parseEscaped data

/-- `ParseRtpSingle(data, length, bitstream_parser_state)`, src/h265_rtp_single_parser.cc:23-30 -/
def parseRtpSingleBytes (data : List UInt8) (st : ParserState) : Res (RtpSingle × ParserState) := (parseRtpSingle st).parseEscaped data

/-- `ParseScalingListData(data, length)`, src/h265_scaling_list_data_parser.cc:24-30 -/
def parseScalingListDataBytes (data : List UInt8) : Res ScalingListData := parseScalingListData.parseEscaped data

/-- `ParseSei(data, length)`, src/h265_sei_parser.cc:23-28 -/
def parseSeiBytes (data : List UInt8) : Res SeiMessage := parseSei.parseEscaped data

/-- `ParseSliceSegmentLayer(data, length, nal_unit_type, bitstream_parser_state)`, src/h265_slice_parser.cc:26-34 -/
def parseSliceSegmentLayerBytes (data : List UInt8) (nal_unit_type : Nat) (st : ParserState) : Res SliceSegmentHeader :=
  (parseSliceSegmentLayer nal_unit_type st.pps st.sps).parseEscaped data

/-- `ParseSliceSegmentHeader(data, length, nal_unit_type, bitstream_parser_state)`, src/h265_slice_parser.cc:83-91 -/
def parseSliceSegmentHeaderBytes (data : List UInt8) (nal_unit_type : Nat) (st : ParserState) : Res SliceSegmentHeader :=
  (parseSliceSegmentHeader nal_unit_type st.pps st.sps).parseEscaped data

/-- `ParseSps3dExtension(data, length)`, src/h265_sps_3d_extension_parser.cc:24-30 -/
def parseSps3dExtensionBytes (data : List UInt8) : Res Sps3dExtension := parseSps3dExtension.parseEscaped data

/-- `ParseSpsMultilayerExtension(data, length)`, src/h265_sps_multilayer_extension_parser.cc:24-30 -/
def parseSpsMultilayerExtensionBytes (data : List UInt8) : Res SpsMultilayerExtension := parseSpsMultilayerExtension.parseEscaped data

/-- `ParseSps(data, length)`, src/h265_sps_parser.cc:31-36 -/
def parseSpsBytes (data : List UInt8) : Res Sps := parseSps.parseEscaped data

/-- `ParseSpsRangeExtension(data, length)`, src/h265_sps_range_extension_parser.cc:23-29 -/
def parseSpsRangeExtensionBytes (data : List UInt8) : Res SpsRangeExtension := parseSpsRangeExtension.parseEscaped data

/-- `ParseSpsSccExtension(data, length, chroma_format_idc, bit_depth_luma_minus8, bit_depth_chroma_minus8)`,
src/h265_sps_scc_extension_parser.cc:23-31 -/
def parseSpsSccExtensionBytes (data : List UInt8) (chroma_format_idc bit_depth_luma_minus8 bit_depth_chroma_minus8 : Nat) : Res SpsSccExtension :=
  (parseSpsSccExtension chroma_format_idc bit_depth_luma_minus8 bit_depth_chroma_minus8).parseEscaped data

/-- `ParseStRefPicSet(data, length, stRpsIdx, num_short_term_ref_pic_sets, st_ref_pic_set_state_vector, max_num_pics)`,
src/h265_st_ref_pic_set_parser.cc:23-34 -/
def parseStRefPicSetBytes (data : List UInt8) (stRpsIdx num_short_term_ref_pic_sets : Nat) (prev : List StRefPicSet) (max_num_pics : Nat) :
    Res StRefPicSet :=
  (parseStRefPicSet stRpsIdx num_short_term_ref_pic_sets prev max_num_pics).parseEscaped data

/-- `ParseSubLayerHrdParameters(bit_buffer, subLayerId, CpbCnt, sub_pic_hrd_params_present_flag)`,
src/h265_sub_layer_hrd_parameters_parser.cc:33-90; `subLayerId` is only recorded -/
def parseSubLayerHrdParameters (CpbCnt sub_pic_hrd_params_present_flag : Nat) : Prog (List SubLayerHrdEntry) :=
  rep CpbCnt (parseSubLayerHrdEntry sub_pic_hrd_params_present_flag)

/-- `ParseSubLayerHrdParameters(data, length, ...)`, src/h265_sub_layer_hrd_parameters_parser.cc:23-31 -/
def parseSubLayerHrdParametersBytes (data : List UInt8) (CpbCnt sub_pic_hrd_params_present_flag : Nat) : Res (List SubLayerHrdEntry) :=
  (parseSubLayerHrdParameters CpbCnt sub_pic_hrd_params_present_flag).parseEscaped data

/-- `ParseVps(data, length)`, src/h265_vps_parser.cc:24-29 -/
def parseVpsBytes (data : List UInt8) : Res Vps := parseVps.parseEscaped data

/-- `ParseVuiParameters(data, length, sps_max_sub_layers_minus1)`, src/h265_vui_parameters_parser.cc:24-31 -/
def parseVuiParametersBytes (data : List UInt8) (sps_max_sub_layers_minus1 : Nat) : Res VuiParameters :=
  (parseVuiParameters sps_max_sub_layers_minus1).parseEscaped data

end H265
