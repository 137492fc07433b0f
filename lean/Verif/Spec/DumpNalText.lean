/-
The text form of NAL units, bitstreams, configuration boxes and RTP payloads, as lists of words.
-/
import Verif.Model.ConfigBox
import Verif.Model.Dump
import Verif.Model.Rtp
import Verif.Spec.DumpTables
import Verif.Spec.State

set_option autoImplicit false

namespace H265.Spec

/-- The parameter sets known after the payloads `ps`, if `st` was known before: of each id the latest one. -/
def known (st : ParserState) (ps : List NalUnitPayload) : ParserState where
  vps i := (latest (·.vps) (·.body.vps_video_parameter_set_id) i ps).or (st.vps i)
  sps i := (latest (·.sps) (·.body.sps_seq_parameter_set_id) i ps).or (st.sps i)
  pps i := (latest (·.pps) (·.body.head.pps_pic_parameter_set_id) i ps).or (st.pps i)

/-- a slice, with the parameter sets it refers to -/
def textSlice (st : ParserState) (h : SliceSegmentHeader) : Text :=
  some? (st.pps h.head.slice_pic_parameter_set_id) fun P =>
    some? (st.sps P.body.head.pps_seq_parameter_set_id) fun S => textSliceSegmentLayer P.body S.body h

/-- `nal_unit_payload { … }`: whatever was parsed of the payload (at most one of these is there) -/
def textNalUnitPayload (o : ParsingOptions) (st : ParserState) (p : NalUnitPayload) : Text :=
  block "nal_unit_payload" [
    some? p.slice_segment_layer (textSlice st),
    some? p.vps textVps,
    some? p.sps (textSps o.add_resolution),
    some? p.pps textPps,
    some? p.aud textAud,
    some? p.sei textSei]

/-- `nal_unit { … }`; each part of the first line is printed if the option is on -/
def textNalUnit (o : ParsingOptions) (st : ParserState) (n : NalUnit) : Text :=
  block "nal_unit" [
    opt (o.add_offset = true) [entry "offset" ["0x".toList ++ hexadecimal 8 n.offset]],
    opt (o.add_length = true) [num "length" n.length],
    opt (o.add_parsed_length = true) [num "parsed_length" n.parsed_length],
    opt (o.add_checksum = true) [some? n.checksum fun c => entry "checksum" ["0x".toList ++ c.flatMap fun b => hexadecimal 2 b.toNat]],
    textNalUnitHeader n.nal_unit_header,
    textNalUnitPayload o st n.nal_unit_payload]

/-- the NAL units of a stream; each with the parameter sets known before it -/
def textBitstream (o : ParsingOptions) (st : ParserState) (ns : List NalUnit) : List Text :=
  ns.mapIdx fun k n => textNalUnit o (known st ((ns.take k).map (·.nal_unit_payload))) n

/-- `name[j]` -/
def indexedName (name : String) (j : Nat) : String := name ++ "[" ++ toString j ++ "]"

/-- the header of a configuration box -/
def textHvccHeader (s : HvccHeader) : List Text :=
  [
    u32 "configurationVersion" s.configurationVersion,
    u32 "general_profile_space" s.general_profile_space,
    u32 "general_tier_flag" s.general_tier_flag,
    u32 "general_profile_idc" s.general_profile_idc,
    listed "general_profile_compatibility_flags" one32 s.general_profile_compatibility_flags,
    num "general_constraint_indicator_flags" s.general_constraint_indicator_flags,
    u32 "general_level_idc" s.general_level_idc,
    u32 "reserved1" s.reserved1,
    u32 "min_spatial_segmentation_idc" s.min_spatial_segmentation_idc,
    u32 "reserved2" s.reserved2,
    u32 "parallelismType" s.parallelismType,
    u32 "reserved3" s.reserved3,
    u32 "chroma_format_idc" s.chroma_format_idc,
    u32 "reserved4" s.reserved4,
    u32 "bit_depth_luma_minus8" s.bit_depth_luma_minus8,
    u32 "reserved5" s.reserved5,
    u32 "bit_depth_chroma_minus8" s.bit_depth_chroma_minus8,
    u32 "avgFrameRate" s.avgFrameRate,
    u32 "constantFrameRate" s.constantFrameRate,
    u32 "numTemporalLayers" s.numTemporalLayers,
    u32 "temporalIdNested" s.temporalIdNested,
    u32 "lengthSizeMinusOne" s.lengthSizeMinusOne,
    u32 "numOfArrays" s.numOfArrays]

/-- the payloads of units of a configuration box; a unit may have none -/
def payloadsOf (us : List HvccUnit) : List NalUnitPayload := us.filterMap fun u => u.nalUnit.map (·.nal_unit_payload)

/-- array `j` of a configuration box -/
def textHvccArray (o : ParsingOptions) (st : ParserState) (j : Nat) (a : HvccArray) : Text :=
  List.flatten [
    u32 (indexedName "array_completeness" j) a.head.array_completeness,
    u32 (indexedName "reserved6" j) a.head.reserved6,
    u32 (indexedName "NAL_unit_type" j) a.head.NAL_unit_type,
    u32 (indexedName "numNalus" j) a.head.numNalus,
    List.flatten (a.units.mapIdx fun i u =>
      u32 (indexedName (indexedName "nalUnitLength" j) i) u.nalUnitLength ++
        some? u.nalUnit (textNalUnit o (known st (payloadsOf (a.units.take i)))))]

/-- `configuration_box { … }` -/
def textConfigurationBox (o : ParsingOptions) (st : ParserState) (b : ConfigurationBox) : Text :=
  block "configuration_box" (textHvccHeader b.head ++
    b.arrays.mapIdx fun j a => textHvccArray o (known st (payloadsOf ((b.arrays.take j).flatMap (·.units)))) j a)

/-- `rtp_single { … }` -/
def textRtpSingle (o : ParsingOptions) (st : ParserState) (r : RtpSingle) : Text :=
  block "rtp_single" [textNalUnitHeader r.nal_unit_header, textNalUnitPayload o st r.nal_unit_payload]

/-- `rtp_ap { … }` -/
def textRtpAp (o : ParsingOptions) (st : ParserState) (r : RtpAp) : Text :=
  block "rtp_ap" [
    textNalUnitHeader r.header,
    List.flatten (r.units.mapIdx fun i u => List.flatten [
      num "nal_unit_size" u.nal_unit_size,
      textNalUnitHeader u.nal_unit_header,
      textNalUnitPayload o (known st ((r.units.take i).map (·.nal_unit_payload))) u.nal_unit_payload])]

/-- `rtp_fu { … }` -/
def textRtpFu (o : ParsingOptions) (st : ParserState) (r : RtpFu) : Text :=
  block "rtp_fu" [
    textNalUnitHeader r.header,
    u32 "s_bit" r.s_bit,
    u32 "e_bit" r.e_bit,
    u32 "fu_type" r.fu_type,
    some? r.nal_unit_payload (textNalUnitPayload o st)]

/-- Two texts written without a blank in between: the last word of the first and the first word of the second run together. -/
def glued (a b : Text) : Text := a.dropLast ++ [a.getLastD [] ++ b.headD []] ++ b.tail

/-- `rtp { … }`.  There is no blank after the header: `nal_unit_header { … }rtp_single { … }`. -/
def textRtp (o : ParsingOptions) (st : ParserState) (r : Rtp) : Text :=
  block "rtp" [
    match r.rtp_single, r.rtp_ap, r.rtp_fu with
    | some s, _, _ => glued (textNalUnitHeader r.nal_unit_header) (textRtpSingle o st s)
    | _, some s, _ => glued (textNalUnitHeader r.nal_unit_header) (textRtpAp o st s)
    | _, _, some s => glued (textNalUnitHeader r.nal_unit_header) (textRtpFu o st s)
    | _, _, _ => textNalUnitHeader r.nal_unit_header]

example : glued (block "h" [num "a" 1]) (block "r" [num "b" 2]) = words "h { a: 1 }r { b: 2 }".toList := by decide +kernel

/-! ### Objects that cannot be dumped -/

/-- A payload that cannot be dumped: an access unit delimiter that could not be parsed, or a PPS whose multilayer extension could not be parsed. -/
def NoPayload (t : Nat) (p : NalUnitPayload) : Prop := (t = 35 ∧ p.aud = none) ∨ ∃ s, p.pps = some s ∧ MultilayerLost s.body

/-- A NAL unit that cannot be dumped: its payload cannot, or the checksum is asked for but was not computed. -/
def NoText (o : ParsingOptions) (n : NalUnit) : Prop :=
  (o.add_checksum = true ∧ n.checksum = none) ∨ NoPayload n.nal_unit_header.nal_unit_type n.nal_unit_payload

/-- a configuration box that cannot be dumped: a NAL unit is missing or cannot be dumped -/
def NoBoxText (o : ParsingOptions) (b : ConfigurationBox) : Prop :=
  ∃ a ∈ b.arrays, ∃ u ∈ a.units, ∀ n, u.nalUnit = some n → NoText o n

/-- a payload of the packet has no text -/
def NoRtpText (r : Rtp) : Prop :=
  (∃ x, r.rtp_single = some x ∧ NoPayload x.nal_unit_header.nal_unit_type x.nal_unit_payload) ∨
  (∃ x, r.rtp_ap = some x ∧ ∃ u ∈ x.units, NoPayload u.nal_unit_header.nal_unit_type u.nal_unit_payload) ∨
  (∃ x, r.rtp_fu = some x ∧ ∃ p, x.nal_unit_payload = some p ∧ NoPayload x.fu_type p)

end H265.Spec
