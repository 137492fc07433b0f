/-
Model of src/h265_configuration_box_parser.cc: the fixed-size parts.
-/
import Verif.Model.Prog
import Verif.Spec.Hvcc

namespace H265
open Prog

/-- the fields before the arrays, src/h265_configuration_box_parser.cc:46-206 -/
def parseHvccHeader : Prog HvccHeader := do
  let configurationVersion ← u 8
  check (configurationVersion = 1)
  let general_profile_space ← u 2
  let general_tier_flag ← u 1
  let general_profile_idc ← u 5
  let general_profile_compatibility_flags ← rep 32 (u 1)
  let general_constraint_indicator_flags ← u64 48
  let general_level_idc ← u 8
  let reserved1 ← u 4
  check (reserved1 = 15)
  let min_spatial_segmentation_idc ← u 12
  let reserved2 ← u 6
  check (reserved2 = 63)
  let parallelismType ← u 2
  let reserved3 ← u 6
  check (reserved3 = 63)
  let chroma_format_idc ← u 2
  let reserved4 ← u 5
  check (reserved4 = 31)
  let bit_depth_luma_minus8 ← u 3
  let reserved5 ← u 5
  check (reserved5 = 31)
  let bit_depth_chroma_minus8 ← u 3
  let avgFrameRate ← u 16
  let constantFrameRate ← u 2
  let numTemporalLayers ← u 3
  let temporalIdNested ← u 1
  let lengthSizeMinusOne ← u 2
  let numOfArrays ← u 8
  return { configurationVersion, general_profile_space, general_tier_flag, general_profile_idc, general_profile_compatibility_flags, general_constraint_indicator_flags, general_level_idc, reserved1, min_spatial_segmentation_idc, reserved2, parallelismType, reserved3, chroma_format_idc, reserved4, bit_depth_luma_minus8, reserved5, bit_depth_chroma_minus8, avgFrameRate, constantFrameRate, numTemporalLayers, temporalIdNested, lengthSizeMinusOne, numOfArrays }

/-- src/h265_configuration_box_parser.cc:209-238 -/
def parseHvccArrayHead : Prog HvccArrayHead := do
  let array_completeness ← u 1
  let reserved6 ← u 1
  check (reserved6 = 0)
  let NAL_unit_type ← u 6
  let numNalus ← u 16
  return { array_completeness, reserved6, NAL_unit_type, numNalus }

end H265
