/-
Syntax of the hvcC configuration record (ISO/IEC 14496-15).
-/
import Verif.Spec.Bits
import Verif.Spec.Headers

namespace H265
open Spec

/-- the scalar members of `ConfigurationBoxState`, include/h265_configuration_box_parser.h:38-60 -/
structure HvccHeader where
  configurationVersion : Nat
  general_profile_space : Nat
  general_tier_flag : Nat
  general_profile_idc : Nat
  general_profile_compatibility_flags : List Nat
  general_constraint_indicator_flags : Nat
  general_level_idc : Nat
  reserved1 : Nat
  min_spatial_segmentation_idc : Nat
  reserved2 : Nat
  parallelismType : Nat
  reserved3 : Nat
  chroma_format_idc : Nat
  reserved4 : Nat
  bit_depth_luma_minus8 : Nat
  reserved5 : Nat
  bit_depth_chroma_minus8 : Nat
  avgFrameRate : Nat
  constantFrameRate : Nat
  numTemporalLayers : Nat
  temporalIdNested : Nat
  lengthSizeMinusOne : Nat
  numOfArrays : Nat
  deriving DecidableEq, Repr, Inhabited

namespace Spec
/-- HEVCDecoderConfigurationRecord, ISO/IEC 14496-15 clause 8.3.2.1.2, up to numOfArrays -/
def hvccHeader (s : HvccHeader) : List Bool :=
  seq [u 8 s.configurationVersion,
    u 2 s.general_profile_space,
    u 1 s.general_tier_flag,
    u 5 s.general_profile_idc,
    list (u 1) s.general_profile_compatibility_flags,
    u 48 s.general_constraint_indicator_flags,
    u 8 s.general_level_idc,
    u 4 s.reserved1,
    u 12 s.min_spatial_segmentation_idc,
    u 6 s.reserved2,
    u 2 s.parallelismType,
    u 6 s.reserved3,
    u 2 s.chroma_format_idc,
    u 5 s.reserved4,
    u 3 s.bit_depth_luma_minus8,
    u 5 s.reserved5,
    u 3 s.bit_depth_chroma_minus8,
    u 16 s.avgFrameRate,
    u 2 s.constantFrameRate,
    u 3 s.numTemporalLayers,
    u 1 s.temporalIdNested,
    u 2 s.lengthSizeMinusOne,
    u 8 s.numOfArrays]

/-- ranges -/
structure ValidHvccHeader (s : HvccHeader) : Prop where
  configurationVersion : s.configurationVersion < 2 ^ 8
  version : s.configurationVersion = 1
  general_profile_space : s.general_profile_space < 2 ^ 2
  general_tier_flag : s.general_tier_flag < 2 ^ 1
  general_profile_idc : s.general_profile_idc < 2 ^ 5
  general_profile_compatibility_flags : Each 32 (· < 2 ^ 1) s.general_profile_compatibility_flags
  general_constraint_indicator_flags : s.general_constraint_indicator_flags < 2 ^ 48
  general_level_idc : s.general_level_idc < 2 ^ 8
  reserved1 : s.reserved1 < 2 ^ 4
  reserved1_ones : s.reserved1 = 15
  min_spatial_segmentation_idc : s.min_spatial_segmentation_idc < 2 ^ 12
  reserved2 : s.reserved2 < 2 ^ 6
  reserved2_ones : s.reserved2 = 63
  parallelismType : s.parallelismType < 2 ^ 2
  reserved3 : s.reserved3 < 2 ^ 6
  reserved3_ones : s.reserved3 = 63
  chroma_format_idc : s.chroma_format_idc < 2 ^ 2
  reserved4 : s.reserved4 < 2 ^ 5
  reserved4_ones : s.reserved4 = 31
  bit_depth_luma_minus8 : s.bit_depth_luma_minus8 < 2 ^ 3
  reserved5 : s.reserved5 < 2 ^ 5
  reserved5_ones : s.reserved5 = 31
  bit_depth_chroma_minus8 : s.bit_depth_chroma_minus8 < 2 ^ 3
  avgFrameRate : s.avgFrameRate < 2 ^ 16
  constantFrameRate : s.constantFrameRate < 2 ^ 2
  numTemporalLayers : s.numTemporalLayers < 2 ^ 3
  temporalIdNested : s.temporalIdNested < 2 ^ 1
  lengthSizeMinusOne : s.lengthSizeMinusOne < 2 ^ 2
  numOfArrays : s.numOfArrays < 2 ^ 8
end Spec

/-- one element of each of array_completeness, reserved6, NAL_unit_type, numNalus, include/h265_configuration_box_parser.h:61-64 -/
structure HvccArrayHead where
  array_completeness : Nat
  reserved6 : Nat
  NAL_unit_type : Nat
  numNalus : Nat
  deriving DecidableEq, Repr, Inhabited

namespace Spec
/-- the fields of an array before its NAL units -/
def hvccArrayHead (s : HvccArrayHead) : List Bool :=
  seq [u 1 s.array_completeness,
    u 1 s.reserved6,
    u 6 s.NAL_unit_type,
    u 16 s.numNalus]

/-- ranges -/
structure ValidHvccArrayHead (s : HvccArrayHead) : Prop where
  array_completeness : s.array_completeness < 2 ^ 1
  reserved6 : s.reserved6 < 2 ^ 1
  reserved6_zero : s.reserved6 = 0
  NAL_unit_type : s.NAL_unit_type < 2 ^ 6
  numNalus : s.numNalus < 2 ^ 16
end Spec

end H265
