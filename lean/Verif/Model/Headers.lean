/-
Model of src/h265_nal_unit_header_parser.cc, src/h265_aud_parser.cc and
src/h265_profile_tier_level_parser.cc.
-/
import Verif.Model.Common
import Verif.Spec.Headers

namespace H265
open Prog

/-- `ParseNalUnitHeader`, src/h265_nal_unit_header_parser.cc:44-71 -/
def parseNalUnitHeader : Prog NalUnitHeader := do
  let forbidden_zero_bit ← u 1
  let nal_unit_type ← u 6
  let nuh_layer_id ← u 6
  let nuh_temporal_id_plus1 ← u 3
  return { forbidden_zero_bit, nal_unit_type, nuh_layer_id, nuh_temporal_id_plus1 }

/-- `GetNalUnitType`, src/h265_nal_unit_header_parser.cc:31-41: `none` = returns false -/
def getNalUnitType (data : List UInt8) : Except Bad (Option Nat) :=
  match parseNalUnitHeader.runBytes data with
  | .ok h _ => .ok (some h.nal_unit_type)
  | .fail _ => .ok none
  | .bad k => .error k

/-- `ParseAud`, src/h265_aud_parser.cc:29-44; the result of `rbsp_trailing_bits` is ignored -/
def parseAud : Prog Aud := do
  let pic_type ← u 3
  let _ ← rbspTrailingBits
  return { pic_type }

/-! ### profile_tier_level -/

/-- `GetProfileType`, case 4, src/h265_profile_tier_level_parser.cc:340-627 -/
def profileTypeFrext (c : ProfileConstraints) : ProfileType :=
  if c.max_12bit_constraint_flag = 1 ∧ c.max_10bit_constraint_flag = 1 ∧
     c.max_8bit_constraint_flag = 1 ∧ c.max_422chroma_constraint_flag = 1 ∧
     c.max_420chroma_constraint_flag = 1 ∧ c.max_monochrome_constraint_flag = 1 ∧
     c.intra_constraint_flag = 0 ∧ c.one_picture_only_constraint_flag = 0 ∧
     c.lower_bit_rate_constraint_flag = 1 then .MONOCHROME
  else
  if c.max_12bit_constraint_flag = 1 ∧ c.max_10bit_constraint_flag = 1 ∧
     c.max_8bit_constraint_flag = 0 ∧ c.max_422chroma_constraint_flag = 1 ∧
     c.max_420chroma_constraint_flag = 1 ∧ c.max_monochrome_constraint_flag = 1 ∧
     c.intra_constraint_flag = 0 ∧ c.one_picture_only_constraint_flag = 0 ∧
     c.lower_bit_rate_constraint_flag = 1 then .MONOCHROME_10
  else
  if c.max_12bit_constraint_flag = 1 ∧ c.max_10bit_constraint_flag = 0 ∧
     c.max_8bit_constraint_flag = 0 ∧ c.max_422chroma_constraint_flag = 1 ∧
     c.max_420chroma_constraint_flag = 1 ∧ c.max_monochrome_constraint_flag = 1 ∧
     c.intra_constraint_flag = 0 ∧ c.one_picture_only_constraint_flag = 0 ∧
     c.lower_bit_rate_constraint_flag = 1 then .MONOCHROME_12
  else
  if c.max_12bit_constraint_flag = 0 ∧ c.max_10bit_constraint_flag = 0 ∧
     c.max_8bit_constraint_flag = 0 ∧ c.max_422chroma_constraint_flag = 1 ∧
     c.max_420chroma_constraint_flag = 1 ∧ c.max_monochrome_constraint_flag = 1 ∧
     c.intra_constraint_flag = 0 ∧ c.one_picture_only_constraint_flag = 0 ∧
     c.lower_bit_rate_constraint_flag = 1 then .MONOCHROME_16
  else
  if c.max_12bit_constraint_flag = 1 ∧ c.max_10bit_constraint_flag = 0 ∧
     c.max_8bit_constraint_flag = 0 ∧ c.max_422chroma_constraint_flag = 1 ∧
     c.max_420chroma_constraint_flag = 1 ∧ c.max_monochrome_constraint_flag = 0 ∧
     c.intra_constraint_flag = 0 ∧ c.one_picture_only_constraint_flag = 0 ∧
     c.lower_bit_rate_constraint_flag = 1 then .MAIN_12
  else
  if c.max_12bit_constraint_flag = 1 ∧ c.max_10bit_constraint_flag = 1 ∧
     c.max_8bit_constraint_flag = 0 ∧ c.max_422chroma_constraint_flag = 1 ∧
     c.max_420chroma_constraint_flag = 0 ∧ c.max_monochrome_constraint_flag = 0 ∧
     c.intra_constraint_flag = 0 ∧ c.one_picture_only_constraint_flag = 0 ∧
     c.lower_bit_rate_constraint_flag = 1 then .MAIN_422_10
  else
  if c.max_12bit_constraint_flag = 1 ∧ c.max_10bit_constraint_flag = 0 ∧
     c.max_8bit_constraint_flag = 0 ∧ c.max_422chroma_constraint_flag = 1 ∧
     c.max_420chroma_constraint_flag = 0 ∧ c.max_monochrome_constraint_flag = 0 ∧
     c.intra_constraint_flag = 0 ∧ c.one_picture_only_constraint_flag = 0 ∧
     c.lower_bit_rate_constraint_flag = 1 then .MAIN_422_12
  else
  if c.max_12bit_constraint_flag = 1 ∧ c.max_10bit_constraint_flag = 1 ∧
     c.max_8bit_constraint_flag = 1 ∧ c.max_422chroma_constraint_flag = 0 ∧
     c.max_420chroma_constraint_flag = 0 ∧ c.max_monochrome_constraint_flag = 0 ∧
     c.intra_constraint_flag = 0 ∧ c.one_picture_only_constraint_flag = 0 ∧
     c.lower_bit_rate_constraint_flag = 1 then .MAIN_444
  else
  if c.max_12bit_constraint_flag = 1 ∧ c.max_10bit_constraint_flag = 1 ∧
     c.max_8bit_constraint_flag = 0 ∧ c.max_422chroma_constraint_flag = 0 ∧
     c.max_420chroma_constraint_flag = 0 ∧ c.max_monochrome_constraint_flag = 0 ∧
     c.intra_constraint_flag = 0 ∧ c.one_picture_only_constraint_flag = 0 ∧
     c.lower_bit_rate_constraint_flag = 1 then .MAIN_444_10
  else
  if c.max_12bit_constraint_flag = 1 ∧ c.max_10bit_constraint_flag = 0 ∧
     c.max_8bit_constraint_flag = 0 ∧ c.max_422chroma_constraint_flag = 0 ∧
     c.max_420chroma_constraint_flag = 0 ∧ c.max_monochrome_constraint_flag = 0 ∧
     c.intra_constraint_flag = 0 ∧ c.one_picture_only_constraint_flag = 0 ∧
     c.lower_bit_rate_constraint_flag = 1 then .MAIN_444_12
  else
  if c.max_12bit_constraint_flag = 1 ∧ c.max_10bit_constraint_flag = 1 ∧
     c.max_8bit_constraint_flag = 1 ∧ c.max_422chroma_constraint_flag = 1 ∧
     c.max_420chroma_constraint_flag = 1 ∧ c.max_monochrome_constraint_flag = 0 ∧
     c.intra_constraint_flag = 1 ∧ c.one_picture_only_constraint_flag = 0 then .MAIN_INTRA
  else
  if c.max_12bit_constraint_flag = 1 ∧ c.max_10bit_constraint_flag = 1 ∧
     c.max_8bit_constraint_flag = 0 ∧ c.max_422chroma_constraint_flag = 1 ∧
     c.max_420chroma_constraint_flag = 1 ∧ c.max_monochrome_constraint_flag = 0 ∧
     c.intra_constraint_flag = 1 ∧ c.one_picture_only_constraint_flag = 0 then .MAIN_10_INTRA
  else
  if c.max_12bit_constraint_flag = 1 ∧ c.max_10bit_constraint_flag = 0 ∧
     c.max_8bit_constraint_flag = 0 ∧ c.max_422chroma_constraint_flag = 1 ∧
     c.max_420chroma_constraint_flag = 1 ∧ c.max_monochrome_constraint_flag = 0 ∧
     c.intra_constraint_flag = 1 ∧ c.one_picture_only_constraint_flag = 0 then .MAIN_12_INTRA
  else
  if c.max_12bit_constraint_flag = 1 ∧ c.max_10bit_constraint_flag = 1 ∧
     c.max_8bit_constraint_flag = 0 ∧ c.max_422chroma_constraint_flag = 1 ∧
     c.max_420chroma_constraint_flag = 0 ∧ c.max_monochrome_constraint_flag = 0 ∧
     c.intra_constraint_flag = 1 ∧ c.one_picture_only_constraint_flag = 0 then .MAIN_422_10_INTRA
  else
  if c.max_12bit_constraint_flag = 1 ∧ c.max_10bit_constraint_flag = 0 ∧
     c.max_8bit_constraint_flag = 0 ∧ c.max_422chroma_constraint_flag = 1 ∧
     c.max_420chroma_constraint_flag = 0 ∧ c.max_monochrome_constraint_flag = 0 ∧
     c.intra_constraint_flag = 1 ∧ c.one_picture_only_constraint_flag = 0 then .MAIN_422_12_INTRA
  else
  if c.max_12bit_constraint_flag = 1 ∧ c.max_10bit_constraint_flag = 1 ∧
     c.max_8bit_constraint_flag = 1 ∧ c.max_422chroma_constraint_flag = 0 ∧
     c.max_420chroma_constraint_flag = 0 ∧ c.max_monochrome_constraint_flag = 0 ∧
     c.intra_constraint_flag = 1 ∧ c.one_picture_only_constraint_flag = 0 then .MAIN_444_INTRA
  else
  if c.max_12bit_constraint_flag = 1 ∧ c.max_10bit_constraint_flag = 1 ∧
     c.max_8bit_constraint_flag = 0 ∧ c.max_422chroma_constraint_flag = 0 ∧
     c.max_420chroma_constraint_flag = 0 ∧ c.max_monochrome_constraint_flag = 0 ∧
     c.intra_constraint_flag = 1 ∧ c.one_picture_only_constraint_flag = 0 then .MAIN_444_10_INTRA
  else
  if c.max_12bit_constraint_flag = 1 ∧ c.max_10bit_constraint_flag = 0 ∧
     c.max_8bit_constraint_flag = 0 ∧ c.max_422chroma_constraint_flag = 0 ∧
     c.max_420chroma_constraint_flag = 0 ∧ c.max_monochrome_constraint_flag = 0 ∧
     c.intra_constraint_flag = 1 ∧ c.one_picture_only_constraint_flag = 0 then .MAIN_444_12_INTRA
  else
  if c.max_12bit_constraint_flag = 0 ∧ c.max_10bit_constraint_flag = 0 ∧
     c.max_8bit_constraint_flag = 0 ∧ c.max_422chroma_constraint_flag = 0 ∧
     c.max_420chroma_constraint_flag = 0 ∧ c.max_monochrome_constraint_flag = 0 ∧
     c.intra_constraint_flag = 1 ∧ c.one_picture_only_constraint_flag = 0 then .MAIN_444_16_INTRA
  else
  if c.max_12bit_constraint_flag = 1 ∧ c.max_10bit_constraint_flag = 1 ∧
     c.max_8bit_constraint_flag = 1 ∧ c.max_422chroma_constraint_flag = 0 ∧
     c.max_420chroma_constraint_flag = 0 ∧ c.max_monochrome_constraint_flag = 0 ∧
     c.intra_constraint_flag = 1 ∧
     c.one_picture_only_constraint_flag = 1 then .MAIN_444_STILL_PICTURE
  else
  if c.max_12bit_constraint_flag = 0 ∧ c.max_10bit_constraint_flag = 0 ∧
     c.max_8bit_constraint_flag = 0 ∧ c.max_422chroma_constraint_flag = 0 ∧
     c.max_420chroma_constraint_flag = 0 ∧ c.max_monochrome_constraint_flag = 0 ∧
     c.intra_constraint_flag = 1 ∧
     c.one_picture_only_constraint_flag = 1 then .MAIN_444_16_STILL_PICTURE
  else
  if c.max_12bit_constraint_flag = 1 ∧ c.max_10bit_constraint_flag = 1 ∧
     c.max_8bit_constraint_flag = 1 ∧ c.max_422chroma_constraint_flag = 1 ∧
     c.max_420chroma_constraint_flag = 1 ∧ c.max_monochrome_constraint_flag = 1 ∧
     c.intra_constraint_flag = 1 ∧
     c.one_picture_only_constraint_flag = 1 then .MONOCHROME_STILL_PICTURE
  else
  if c.max_12bit_constraint_flag = 1 ∧ c.max_10bit_constraint_flag = 1 ∧
     c.max_8bit_constraint_flag = 0 ∧ c.max_422chroma_constraint_flag = 1 ∧
     c.max_420chroma_constraint_flag = 1 ∧ c.max_monochrome_constraint_flag = 1 ∧
     c.intra_constraint_flag = 1 ∧
     c.one_picture_only_constraint_flag = 1 then .MONOCHROME_10_STILL_PICTURE
  else
  if c.max_12bit_constraint_flag = 1 ∧ c.max_10bit_constraint_flag = 1 ∧
     c.max_8bit_constraint_flag = 1 ∧ c.max_422chroma_constraint_flag = 1 ∧
     c.max_420chroma_constraint_flag = 1 ∧ c.max_monochrome_constraint_flag = 0 ∧
     c.intra_constraint_flag = 1 ∧ c.one_picture_only_constraint_flag = 1 then .MAIN_STILL_PICTURE
  else
  if c.max_12bit_constraint_flag = 1 ∧ c.max_10bit_constraint_flag = 1 ∧
     c.max_8bit_constraint_flag = 0 ∧ c.max_422chroma_constraint_flag = 1 ∧
     c.max_420chroma_constraint_flag = 1 ∧ c.max_monochrome_constraint_flag = 0 ∧
     c.intra_constraint_flag = 1 ∧
     c.one_picture_only_constraint_flag = 1 then .MAIN_10_STILL_PICTURE
  else
  if c.max_12bit_constraint_flag = 1 ∧ c.max_10bit_constraint_flag = 1 ∧
     c.max_8bit_constraint_flag = 0 ∧ c.max_422chroma_constraint_flag = 0 ∧
     c.max_420chroma_constraint_flag = 0 ∧ c.max_monochrome_constraint_flag = 0 ∧
     c.intra_constraint_flag = 1 ∧
     c.one_picture_only_constraint_flag = 1 then .MAIN_444_10_STILL_PICTURE
  else
  .FREXT

/-- `GetProfileType`, case 5, src/h265_profile_tier_level_parser.cc:628-675 -/
def profileTypeHighThroughput (c : ProfileConstraints) : ProfileType :=
  if c.max_14bit_constraint_flag = 1 ∧ c.max_12bit_constraint_flag = 1 ∧
     c.max_10bit_constraint_flag = 1 ∧ c.max_8bit_constraint_flag = 1 ∧
     c.max_422chroma_constraint_flag = 0 ∧ c.max_420chroma_constraint_flag = 0 ∧
     c.max_monochrome_constraint_flag = 0 ∧ c.intra_constraint_flag = 0 ∧
     c.one_picture_only_constraint_flag = 0 ∧
     c.lower_bit_rate_constraint_flag = 1 then .HIGH_THROUGHPUT_444
  else
  if c.max_14bit_constraint_flag = 1 ∧ c.max_12bit_constraint_flag = 1 ∧
     c.max_10bit_constraint_flag = 1 ∧ c.max_8bit_constraint_flag = 0 ∧
     c.max_422chroma_constraint_flag = 0 ∧ c.max_420chroma_constraint_flag = 0 ∧
     c.max_monochrome_constraint_flag = 0 ∧ c.intra_constraint_flag = 0 ∧
     c.one_picture_only_constraint_flag = 0 ∧
     c.lower_bit_rate_constraint_flag = 1 then .HIGH_THROUGHPUT_444_10
  else
  if c.max_14bit_constraint_flag = 1 ∧ c.max_12bit_constraint_flag = 0 ∧
     c.max_10bit_constraint_flag = 0 ∧ c.max_8bit_constraint_flag = 0 ∧
     c.max_422chroma_constraint_flag = 0 ∧ c.max_420chroma_constraint_flag = 0 ∧
     c.max_monochrome_constraint_flag = 0 ∧ c.intra_constraint_flag = 0 ∧
     c.one_picture_only_constraint_flag = 0 ∧
     c.lower_bit_rate_constraint_flag = 1 then .HIGH_THROUGHPUT_444_14
  else
  if c.max_14bit_constraint_flag = 0 ∧ c.max_12bit_constraint_flag = 0 ∧
     c.max_10bit_constraint_flag = 0 ∧ c.max_8bit_constraint_flag = 0 ∧
     c.max_422chroma_constraint_flag = 0 ∧ c.max_420chroma_constraint_flag = 0 ∧
     c.max_monochrome_constraint_flag = 0 ∧ c.intra_constraint_flag = 1 ∧
     c.one_picture_only_constraint_flag = 0 then .HIGH_THROUGHPUT_444_16_INTRA
  else
  .HIGH_THROUGHPUT

/-- `GetProfileType`, case 7, src/h265_profile_tier_level_parser.cc:680-704 -/
def profileTypeScalable (c : ProfileConstraints) : ProfileType :=
  if c.max_12bit_constraint_flag = 1 ∧ c.max_10bit_constraint_flag = 1 ∧
     c.max_8bit_constraint_flag = 1 ∧ c.max_422chroma_constraint_flag = 1 ∧
     c.max_420chroma_constraint_flag = 1 ∧ c.max_monochrome_constraint_flag = 0 ∧
     c.intra_constraint_flag = 0 ∧ c.one_picture_only_constraint_flag = 0 ∧
     c.lower_bit_rate_constraint_flag = 1 then .SCALABLE_MAIN
  else
  if c.max_12bit_constraint_flag = 1 ∧ c.max_10bit_constraint_flag = 1 ∧
     c.max_8bit_constraint_flag = 0 ∧ c.max_422chroma_constraint_flag = 1 ∧
     c.max_420chroma_constraint_flag = 1 ∧ c.max_monochrome_constraint_flag = 0 ∧
     c.intra_constraint_flag = 0 ∧ c.one_picture_only_constraint_flag = 0 ∧
     c.lower_bit_rate_constraint_flag = 1 then .SCALABLE_MAIN_10
  else
  .SCALABLE

/-- `GetProfileType`, case 9, src/h265_profile_tier_level_parser.cc:709-757 -/
def profileTypeScreenExtended (c : ProfileConstraints) : ProfileType :=
  if c.max_14bit_constraint_flag = 1 ∧ c.max_12bit_constraint_flag = 1 ∧
     c.max_10bit_constraint_flag = 1 ∧ c.max_8bit_constraint_flag = 1 ∧
     c.max_422chroma_constraint_flag = 1 ∧ c.max_420chroma_constraint_flag = 1 ∧
     c.max_monochrome_constraint_flag = 0 ∧ c.intra_constraint_flag = 0 ∧
     c.one_picture_only_constraint_flag = 0 ∧
     c.lower_bit_rate_constraint_flag = 1 then .SCREEN_EXTENDED_MAIN
  else
  if c.max_14bit_constraint_flag = 1 ∧ c.max_12bit_constraint_flag = 1 ∧
     c.max_10bit_constraint_flag = 1 ∧ c.max_8bit_constraint_flag = 0 ∧
     c.max_422chroma_constraint_flag = 1 ∧ c.max_420chroma_constraint_flag = 1 ∧
     c.max_monochrome_constraint_flag = 0 ∧ c.intra_constraint_flag = 0 ∧
     c.one_picture_only_constraint_flag = 0 ∧
     c.lower_bit_rate_constraint_flag = 1 then .SCREEN_EXTENDED_MAIN_10
  else
  if c.max_14bit_constraint_flag = 1 ∧ c.max_12bit_constraint_flag = 1 ∧
     c.max_10bit_constraint_flag = 1 ∧ c.max_8bit_constraint_flag = 1 ∧
     c.max_422chroma_constraint_flag = 0 ∧ c.max_420chroma_constraint_flag = 0 ∧
     c.max_monochrome_constraint_flag = 0 ∧ c.intra_constraint_flag = 0 ∧
     c.one_picture_only_constraint_flag = 0 ∧
     c.lower_bit_rate_constraint_flag = 1 then .SCREEN_EXTENDED_MAIN_444
  else
  if c.max_14bit_constraint_flag = 1 ∧ c.max_12bit_constraint_flag = 1 ∧
     c.max_10bit_constraint_flag = 1 ∧ c.max_8bit_constraint_flag = 0 ∧
     c.max_422chroma_constraint_flag = 0 ∧ c.max_420chroma_constraint_flag = 0 ∧
     c.max_monochrome_constraint_flag = 0 ∧ c.intra_constraint_flag = 0 ∧
     c.one_picture_only_constraint_flag = 0 ∧
     c.lower_bit_rate_constraint_flag = 1 then .SCREEN_EXTENDED_MAIN_444_10
  else
  .SCREEN_EXTENDED

/-- `GetProfileType`, case 11, src/h265_profile_tier_level_parser.cc:762-799 -/
def profileTypeScreenHighThroughput (c : ProfileConstraints) : ProfileType :=
  if c.max_14bit_constraint_flag = 1 ∧ c.max_12bit_constraint_flag = 1 ∧
     c.max_10bit_constraint_flag = 1 ∧ c.max_8bit_constraint_flag = 1 ∧
     c.max_422chroma_constraint_flag = 0 ∧ c.max_420chroma_constraint_flag = 0 ∧
     c.max_monochrome_constraint_flag = 0 ∧ c.intra_constraint_flag = 0 ∧
     c.one_picture_only_constraint_flag = 0 ∧
     c.lower_bit_rate_constraint_flag = 1 then .SCREEN_EXTENDED_HIGH_THROUGHPUT_444
  else
  if c.max_14bit_constraint_flag = 1 ∧ c.max_12bit_constraint_flag = 1 ∧
     c.max_10bit_constraint_flag = 1 ∧ c.max_8bit_constraint_flag = 0 ∧
     c.max_422chroma_constraint_flag = 0 ∧ c.max_420chroma_constraint_flag = 0 ∧
     c.max_monochrome_constraint_flag = 0 ∧ c.intra_constraint_flag = 0 ∧
     c.one_picture_only_constraint_flag = 0 ∧
     c.lower_bit_rate_constraint_flag = 1 then .SCREEN_EXTENDED_HIGH_THROUGHPUT_444_10
  else
  if c.max_14bit_constraint_flag = 1 ∧ c.max_12bit_constraint_flag = 0 ∧
     c.max_10bit_constraint_flag = 0 ∧ c.max_8bit_constraint_flag = 0 ∧
     c.max_422chroma_constraint_flag = 0 ∧ c.max_420chroma_constraint_flag = 0 ∧
     c.max_monochrome_constraint_flag = 0 ∧ c.intra_constraint_flag = 0 ∧
     c.one_picture_only_constraint_flag = 0 ∧
     c.lower_bit_rate_constraint_flag = 1 then .SCREEN_EXTENDED_HIGH_THROUGHPUT_444_14
  else
  .SCREEN_EXTENDED_HIGH_THROUGHPUT

/-- `GetProfileType`, src/h265_profile_tier_level_parser.cc:308-813 -/
def getProfileType (profile_space profile_idc : Nat) (c : ProfileConstraints) : ProfileType :=
  if profile_space ≠ 0 then .UNSPECIFIED
  else if profile_idc = 1 then .MAIN
  else if profile_idc = 2 then
    (if c.one_picture_only_constraint_flag = 1 then .MAIN_10_STILL_PICTURE else .MAIN_10)
  else if profile_idc = 3 then .MAIN_STILL_PICTURE
  else if profile_idc = 4 then profileTypeFrext c
  else if profile_idc = 5 then profileTypeHighThroughput c
  else if profile_idc = 6 then .MULTIVIEW_MAIN
  else if profile_idc = 7 then profileTypeScalable c
  else if profile_idc = 8 then ._3D_MAIN
  else if profile_idc = 9 then profileTypeScreenExtended c
  else if profile_idc = 10 then .MULTILAYER
  else if profile_idc = 11 then profileTypeScreenHighThroughput c
  else if profile_idc = 12 then .MULTIVIEW_EXTENDED
  else if profile_idc = 13 then .MULTIVIEW_EXTENDED_10
  else .UNSPECIFIED

/-- `profile_idc == j || profile_compatibility_flag[j] == 1` (j is a constant below the array size
32), e.g. src/h265_profile_tier_level_parser.cc:156-157 -/
def isProfile (idc : Nat) (flags : List Nat) (j : Nat) : Prop := idc = j ∨ flags.getD j 0 = 1

instance (idc : Nat) (flags : List Nat) (j : Nat) : Decidable (isProfile idc flags j) := by
  unfold isProfile; exact inferInstance

/-- The reads of a `k + 32`-bit reserved field:
`ReadBits(k, hi); ReadBits(32, lo); x = ((uint64_t)hi << 32) | lo`,
e.g. src/h265_profile_tier_level_parser.cc:226-233 -/
def wide (k : Nat) : Prog Nat := do
  let hi ← u k
  let lo ← u 32
  return (hi <<< 32) ||| lo

/-- src/h265_profile_tier_level_parser.cc:174-244 (first branch) -/
def parseConstraintsExt (idc : Nat) (flags : List Nat) : Prog ProfileConstraints := do
  let max_12bit_constraint_flag ← u 1
  let max_10bit_constraint_flag ← u 1
  let max_8bit_constraint_flag ← u 1
  let max_422chroma_constraint_flag ← u 1
  let max_420chroma_constraint_flag ← u 1
  let max_monochrome_constraint_flag ← u 1
  let intra_constraint_flag ← u 1
  let one_picture_only_constraint_flag ← u 1
  let lower_bit_rate_constraint_flag ← u 1
  let max_14bit_constraint_flag ← opt (isProfile idc flags 5 ∨ isProfile idc flags 9 ∨ isProfile idc flags 10 ∨ isProfile idc flags 11) (u 1) 0
  let reserved_zero_33bits ← opt (isProfile idc flags 5 ∨ isProfile idc flags 9 ∨ isProfile idc flags 10 ∨ isProfile idc flags 11) (wide 1) 0
  let reserved_zero_34bits ← opt (¬ (isProfile idc flags 5 ∨ isProfile idc flags 9 ∨ isProfile idc flags 10 ∨ isProfile idc flags 11)) (wide 2) 0
  return { max_12bit_constraint_flag, max_10bit_constraint_flag, max_8bit_constraint_flag,
           max_422chroma_constraint_flag, max_420chroma_constraint_flag, max_monochrome_constraint_flag,
           intra_constraint_flag, reserved_zero_7bits := 0, one_picture_only_constraint_flag,
           lower_bit_rate_constraint_flag, max_14bit_constraint_flag, reserved_zero_33bits,
           reserved_zero_34bits, reserved_zero_35bits := 0, reserved_zero_43bits := 0 }

/-- src/h265_profile_tier_level_parser.cc:247-264 (Main 10 branch) -/
def parseConstraintsMain10 : Prog ProfileConstraints := do
  let r7 ← u 7
  let one ← u 1
  let r35 ← wide 3
  return ⟨0, 0, 0, 0, 0, 0, 0, r7, one, 0, 0, 0, 0, r35, 0⟩

/-- src/h265_profile_tier_level_parser.cc:266-274 (else branch) -/
def parseConstraintsOther : Prog ProfileConstraints := do
  let r43 ← wide 11
  return ⟨0, 0, 0, 0, 0, 0, 0, 0, 0, 0, 0, 0, 0, 0, r43⟩

/-- src/h265_profile_tier_level_parser.cc:156-275 -/
def parseConstraints (idc : Nat) (flags : List Nat) : Prog ProfileConstraints :=
  if isProfile idc flags 4 ∨ isProfile idc flags 5 ∨ isProfile idc flags 6 ∨ isProfile idc flags 7 ∨
     isProfile idc flags 8 ∨ isProfile idc flags 9 ∨ isProfile idc flags 10 ∨ isProfile idc flags 11 then
    parseConstraintsExt idc flags
  else if isProfile idc flags 2 then parseConstraintsMain10
  else parseConstraintsOther

/-- `ParseProfileInfo`, src/h265_profile_tier_level_parser.cc:115-306 -/
def parseProfileInfo : Prog ProfileInfo := do
  let profile_space ← u 2
  let tier_flag ← u 1
  let profile_idc ← u 5
  let profile_compatibility_flag ← rep 32 (u 1)
  let progressive_source_flag ← u 1
  let interlaced_source_flag ← u 1
  let non_packed_constraint_flag ← u 1
  let frame_only_constraint_flag ← u 1
  let constraints ← parseConstraints profile_idc profile_compatibility_flag
  let inbld_flag ← opt (isProfile profile_idc profile_compatibility_flag 1 ∨ isProfile profile_idc profile_compatibility_flag 2 ∨
    isProfile profile_idc profile_compatibility_flag 3 ∨ isProfile profile_idc profile_compatibility_flag 4 ∨
    isProfile profile_idc profile_compatibility_flag 5 ∨ isProfile profile_idc profile_compatibility_flag 9 ∨
    isProfile profile_idc profile_compatibility_flag 11) (u 1) 0
  let reserved_zero_bit ← opt (¬ (isProfile profile_idc profile_compatibility_flag 1 ∨ isProfile profile_idc profile_compatibility_flag 2 ∨
    isProfile profile_idc profile_compatibility_flag 3 ∨ isProfile profile_idc profile_compatibility_flag 4 ∨
    isProfile profile_idc profile_compatibility_flag 5 ∨ isProfile profile_idc profile_compatibility_flag 9 ∨
    isProfile profile_idc profile_compatibility_flag 11)) (u 1) 0
  return { profile_space, tier_flag, profile_idc, profile_compatibility_flag, progressive_source_flag,
           interlaced_source_flag, non_packed_constraint_flag, frame_only_constraint_flag, constraints,
           profile_type := getProfileType profile_space profile_idc constraints, inbld_flag, reserved_zero_bit }

/-- body of the first loop, src/h265_profile_tier_level_parser.cc:62-74 -/
def parseSubLayerFlags : Prog (Nat × Nat) := do
  let p ← u 1
  let l ← u 1
  return (p, l)

/-- the two conditional reads for a sub-layer (both under `sub_layer_profile_present_flag[i]`),
src/h265_profile_tier_level_parser.cc:87-101 -/
def parseSubLayerProfile : Prog (ProfileInfo × Nat) := do
  let p ← parseProfileInfo
  let l ← u 8
  return (p, l)

/-- `ParseProfileTierLevel`, src/h265_profile_tier_level_parser.cc:35-105 -/
def parseProfileTierLevel (profilePresentFlag : Bool) (maxNumSubLayersMinus1 : Nat) : Prog ProfileTierLevel := do
  let general ← maybe (profilePresentFlag = true) parseProfileInfo
  let general_level_idc ← u 8
  let sub_layer_flags ← rep maxNumSubLayersMinus1 parseSubLayerFlags
  let reserved_zero_2bits ← rep (if maxNumSubLayersMinus1 > 0 then 8 - maxNumSubLayersMinus1 else 0) (u 2)
  let sub_layers ← repI 0 maxNumSubLayersMinus1 fun i => do
    let f ← at' sub_layer_flags i
    maybe (f.1 ≠ 0) parseSubLayerProfile
  return { general, general_level_idc, sub_layer_flags, reserved_zero_2bits, sub_layers }

end H265
