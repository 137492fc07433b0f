/-
`fdump` of NAL unit payloads, NAL units, bitstreams, configuration boxes and RTP payloads.
-/
import Verif.Model.ConfigBox
import Verif.Model.DumpSei
import Verif.Model.DumpSlice
import Verif.Model.Rtp

set_option autoImplicit false

namespace H265
open Spec

/-- The parser state after a payload was parsed in state `st`: a parameter set that was returned is stored under its id,
src/h265_nal_unit_payload_parser.cc:99-125.  (`stored_payload` in Proof/DumpNalSays.lean: this is what the parser does.) -/
def ParserState.stored (st : ParserState) (p : NalUnitPayload) : ParserState where
  vps := match p.vps with | some x => mapSet st.vps x.body.vps_video_parameter_set_id x | none => st.vps
  sps := match p.sps with | some x => mapSet st.sps x.body.sps_seq_parameter_set_id x | none => st.sps
  pps := match p.pps with | some x => mapSet st.pps x.body.head.pps_pic_parameter_set_id x | none => st.pps

/-- A list of objects that were parsed one after the other beginning with state `st`, each with the state before it.  (The loop that parsed them: src/h265_bitstream_parser.cc:143-162, src/h265_configuration_box_parser.cc:242-259.) -/
def withStates {α : Type} (pay : α → Option NalUnitPayload) : ParserState → List α → List (ParserState × α)
  | _, [] => []
  | st, a :: l => (st, a) :: withStates pay (match pay a with | some p => st.stored p | none => st) l

/-- `slice_segment_layer->fdump`, src/h265_nal_unit_payload_parser.cc:183-185, 201-203.  The object holds copies of the values of its PPS and SPS, taken
when it was parsed (src/h265_slice_parser.cc:135-246): they are looked up in the parser state `st` in which it was parsed. -/
def dumpSlice (st : ParserState) (h : SliceSegmentHeader) : Dump :=
  .deref (st.pps h.head.slice_pic_parameter_set_id) fun P =>
    .deref (st.sps P.body.head.pps_seq_parameter_set_id) fun S => dumpSliceSegmentLayer P.body S.body h

/-- the statements of `NalUnitPayloadState::fdump`, src/h265_nal_unit_payload_parser.cc:165-272: the indentation before the `switch` is printed
in any case -/
def dumpNalUnitPayload.items (o : ParsingOptions) (st : ParserState) (nal_unit_type : Nat) (p : NalUnitPayload) : List Dump :=
  [.on (
    if nal_unit_type ≤ 9 ∨ (16 ≤ nal_unit_type ∧ nal_unit_type ≤ 21) then .ifSome p.slice_segment_layer (dumpSlice st)
    else if nal_unit_type = 32 then .ifSome p.vps dumpVps
    else if nal_unit_type = 33 then .ifSome p.sps (dumpSps o.add_resolution)
    else if nal_unit_type = 34 then .ifSome p.pps dumpPps
    else if nal_unit_type = 35 then .deref p.aud dumpAud
    else if nal_unit_type = 39 ∨ nal_unit_type = 40 then .ifSome p.sei dumpSei
    else .ok .nil)]

/-- `NalUnitPayloadState::fdump`, src/h265_nal_unit_payload_parser.cc:165-272 -/
def dumpNalUnitPayload (o : ParsingOptions) (st : ParserState) (nal_unit_type : Nat) (p : NalUnitPayload) : Dump :=
  .blk "nal_unit_payload" (dumpNalUnitPayload.items o st nal_unit_type p)

/-- `NaluChecksum::fdump`, src/h265_common.cc:721-734, into a buffer of 64 characters: two hexadecimal digits per byte, as long as three
characters are left in the buffer -/
def dumpChecksum (l : List UInt8) : List Char := (l.take 31).flatMap fun b => putX0 2 b.toNat

/-- the statements of `NalUnitState::fdump`, src/h265_nal_unit_parser.cc:87-130 -/
def dumpNalUnit.items (o : ParsingOptions) (st : ParserState) (n : NalUnit) : List Dump :=
  [
    .cond (o.add_offset = true) [.fld "offset" ("0x".toList ++ putX0 8 n.offset)],
    .cond (o.add_length = true) [.fld "length" (putU n.length)],
    .cond (o.add_parsed_length = true) [.fld "parsed_length" (putU n.parsed_length)],
    .cond (o.add_checksum = true) [.deref n.checksum fun c => .fld "checksum" ("0x".toList ++ dumpChecksum c)],
    .on (dumpNalUnitHeader n.nal_unit_header),
    .on (dumpNalUnitPayload o st n.nal_unit_header.nal_unit_type n.nal_unit_payload)]

/-- `NalUnitState::fdump`, src/h265_nal_unit_parser.cc:87-130 -/
def dumpNalUnit (o : ParsingOptions) (st : ParserState) (n : NalUnit) : Dump := .blk "nal_unit" (dumpNalUnit.items o st n)

/-- `BitstreamState::fdump`, src/h265_bitstream_parser.cc:274-280, of units that were parsed one after the other beginning with state `st` -/
def dumpBitstream (o : ParsingOptions) (st : ParserState) (units : List NalUnit) : Dump :=
  .each (withStates (fun n => some n.nal_unit_payload) st units) fun x => .seq [dumpNalUnit o x.1 x.2, .ok (.put ['\n'])]

/-- `BitstreamState`, include/h265_bitstream_parser.h:24-40 -/
structure BitstreamObject where
  nal_units : List NalUnit
  parsing_options : ParsingOptions

/-- `ParseBitstream(data, length, bitstream_parser_state, parsing_options)`, src/h265_bitstream_parser.cc:127-164: the options are used for parsing but not
stored in the object, which keeps the default options -/
def parseBitstreamObject (o : ParsingOptions) (st : ParserState) (data : List UInt8) : Except Bad (BitstreamObject × ParserState) :=
  match parseBitstream o.add_checksum st data with
  | .error k => .error k
  | .ok (ns, st') => .ok (⟨ns, {}⟩, st')

/-- `ParseBitstream(data, length, parsing_options)`, src/h265_bitstream_parser.cc:166-184 -/
def parseBitstreamFreshObject (o : ParsingOptions) (data : List UInt8) : Except Bad BitstreamObject :=
  match parseBitstreamFresh o.add_checksum data with
  | .error k => .error k
  | .ok ns => .ok ⟨ns, o⟩

/-- `ParseBitstreamNALULength(data, length, nalu_length_bytes, bitstream_parser_state, parsing_options)`, src/h265_bitstream_parser.cc:192-248; default
options in the object as above -/
def parseNaluLengthObject (o : ParsingOptions) (n : Nat) (st : ParserState) (data : List UInt8) : Except Bad (BitstreamObject × ParserState) :=
  match parseBitstreamNaluLength o.add_checksum n st data with
  | .error k => .error k
  | .ok (ns, st') => .ok (⟨ns, {}⟩, st')

/-- `ParseBitstreamNALULength(data, length, nalu_length_bytes, parsing_options)`, src/h265_bitstream_parser.cc:250-271 -/
def parseNaluLengthFreshObject (o : ParsingOptions) (n : Nat) (data : List UInt8) : Except Bad BitstreamObject :=
  match parseBitstreamNaluLengthFresh o.add_checksum n data with
  | .error k => .error k
  | .ok ns => .ok ⟨ns, o⟩

/-- `BitstreamState::fdump`, src/h265_bitstream_parser.cc:274-280, of an object that was parsed beginning with state `st` -/
def dumpBitstreamObject (st : ParserState) (b : BitstreamObject) : Dump := dumpBitstream b.parsing_options st b.nal_units

/-- the statements before the loop of `ConfigurationBoxState::fdump`, src/h265_configuration_box_parser.cc:268-343 -/
def dumpHvccHeader.items (s : HvccHeader) : List Dump :=
  [
    .fld "configurationVersion" (putI s.configurationVersion),
    .fld "general_profile_space" (putI s.general_profile_space),
    .fld "general_tier_flag" (putI s.general_tier_flag),
    .fld "general_profile_idc" (putI s.general_profile_idc),
    .lst "general_profile_compatibility_flags" (Dump.item putI) s.general_profile_compatibility_flags,
    .fld "general_constraint_indicator_flags" (putU s.general_constraint_indicator_flags),
    .fld "general_level_idc" (putI s.general_level_idc),
    .fld "reserved1" (putI s.reserved1),
    .fld "min_spatial_segmentation_idc" (putI s.min_spatial_segmentation_idc),
    .fld "reserved2" (putI s.reserved2),
    .fld "parallelismType" (putI s.parallelismType),
    .fld "reserved3" (putI s.reserved3),
    .fld "chroma_format_idc" (putI s.chroma_format_idc),
    .fld "reserved4" (putI s.reserved4),
    .fld "bit_depth_luma_minus8" (putI s.bit_depth_luma_minus8),
    .fld "reserved5" (putI s.reserved5),
    .fld "bit_depth_chroma_minus8" (putI s.bit_depth_chroma_minus8),
    .fld "avgFrameRate" (putI s.avgFrameRate),
    .fld "constantFrameRate" (putI s.constantFrameRate),
    .fld "numTemporalLayers" (putI s.numTemporalLayers),
    .fld "temporalIdNested" (putI s.temporalIdNested),
    .fld "lengthSizeMinusOne" (putI s.lengthSizeMinusOne),
    .fld "numOfArrays" (putI s.numOfArrays)]

/-- `name[j]`, the names printed by src/h265_configuration_box_parser.cc:347-360 -/
def indexed (name : String) (j : Nat) : String := name ++ "[" ++ String.ofList (putI j) ++ "]"

/-- the units of array `j`, src/h265_configuration_box_parser.cc:358-364 -/
def dumpHvccUnit (o : ParsingOptions) (j i : Nat) (x : ParserState × HvccUnit) : Dump :=
  .seq [
    .fld (indexed (indexed "nalUnitLength" j) i) (putI x.2.nalUnitLength),
    .on (.deref x.2.nalUnit (dumpNalUnit o x.1))]

/-- the parser state after the units of an array (the loop that parsed them: src/h265_configuration_box_parser.cc:242-259) -/
def statesAfter {α : Type} (pay : α → Option NalUnitPayload) : ParserState → List α → ParserState
  | st, [] => st
  | st, a :: l => statesAfter pay (match pay a with | some p => st.stored p | none => st) l

/-- the payload of a unit of a configuration box, include/h265_configuration_box_parser.h: member `nalUnit`, dumped at src/h265_configuration_box_parser.cc:363 -/
def HvccUnit.payload (u : HvccUnit) : Option NalUnitPayload := u.nalUnit.map (·.nal_unit_payload)

/-- the arrays, each with the state before it (the loop that parsed them: src/h265_configuration_box_parser.cc:208-260) -/
def arrayStates : ParserState → List HvccArray → List (ParserState × HvccArray)
  | _, [] => []
  | st, a :: l => (st, a) :: arrayStates (statesAfter HvccUnit.payload st a.units) l

/-- one iteration of the loop over the arrays, src/h265_configuration_box_parser.cc:345-365 -/
def dumpHvccArray (o : ParsingOptions) (j : Nat) (x : ParserState × HvccArray) : Dump :=
  .seq [
    .fld (indexed "array_completeness" j) (putI x.2.head.array_completeness),
    .fld (indexed "reserved6" j) (putI x.2.head.reserved6),
    .fld (indexed "NAL_unit_type" j) (putI x.2.head.NAL_unit_type),
    .fld (indexed "numNalus" j) (putI x.2.head.numNalus),
    .upTo x.2.head.numNalus (withStates HvccUnit.payload x.1 x.2.units) (dumpHvccUnit o j)]

/-- `ConfigurationBoxState::fdump`, src/h265_configuration_box_parser.cc:265-370, of a box that was parsed in state `st` -/
def dumpConfigurationBox (o : ParsingOptions) (st : ParserState) (b : ConfigurationBox) : Dump :=
  .blk "configuration_box" (dumpHvccHeader.items b.head ++ [.upTo b.head.numOfArrays (arrayStates st b.arrays) (dumpHvccArray o)])

/-- `RtpSingleState::fdump`, src/h265_rtp_single_parser.cc:61-78 -/
def dumpRtpSingle (o : ParsingOptions) (st : ParserState) (r : RtpSingle) : Dump :=
  .blk "rtp_single" [
    .on (dumpNalUnitHeader r.nal_unit_header),
    .on (dumpNalUnitPayload o st r.nal_unit_header.nal_unit_type r.nal_unit_payload)]

/-- one iteration of the loop of `RtpApState::fdump`, src/h265_rtp_ap_parser.cc:91-102 -/
def dumpRtpApUnit (o : ParsingOptions) (x : ParserState × RtpApUnit) : Dump :=
  .seq [
    .fld "nal_unit_size" (putU x.2.nal_unit_size),
    .on (dumpNalUnitHeader x.2.nal_unit_header),
    .on (dumpNalUnitPayload o x.1 x.2.nal_unit_header.nal_unit_type x.2.nal_unit_payload)]

/-- `RtpApState::fdump`, src/h265_rtp_ap_parser.cc:83-107 -/
def dumpRtpAp (o : ParsingOptions) (st : ParserState) (r : RtpAp) : Dump :=
  .blk "rtp_ap" [
    .on (dumpNalUnitHeader r.header),
    .each (withStates (fun u => some u.nal_unit_payload) st r.units) (dumpRtpApUnit o)]

/-- `RtpFuState::fdump`, src/h265_rtp_fu_parser.cc:71-97 -/
def dumpRtpFu (o : ParsingOptions) (st : ParserState) (r : RtpFu) : Dump :=
  .blk "rtp_fu" [
    .on (dumpNalUnitHeader r.header),
    .fld "s_bit" (putI r.s_bit),
    .fld "e_bit" (putI r.e_bit),
    .fld "fu_type" (putI r.fu_type),
    .cond (r.s_bit = 1) [.on (.deref r.nal_unit_payload (dumpNalUnitPayload o st r.fu_type))]]

/-- `RtpState::fdump`, src/h265_rtp_parser.cc:77-99: no indentation before `rtp_single`, `rtp_ap` and `rtp_fu` -/
def dumpRtp (o : ParsingOptions) (st : ParserState) (r : Rtp) : Dump :=
  .blk "rtp" [
    .on (dumpNalUnitHeader r.nal_unit_header),
    if r.nal_unit_header.nal_unit_type ≤ 47 then .deref r.rtp_single (dumpRtpSingle o st)
    else if r.nal_unit_header.nal_unit_type = 48 then .deref r.rtp_ap (dumpRtpAp o st)
    else if r.nal_unit_header.nal_unit_type = 49 then .deref r.rtp_fu (dumpRtpFu o st)
    else .ok .nil]

end H265
