/-
Syntax of NAL unit headers, access unit delimiters and profile_tier_level: the records of syntax
element values, their serialisation (clauses 7.3.1.2, 7.3.2.5, 7.3.3) and the value ranges.
-/
import Verif.Spec.Bits

namespace H265
open Spec

/-- nal_unit_header() (include/h265_nal_unit_header_parser.h: NalUnitHeaderState) -/
structure NalUnitHeader where
  forbidden_zero_bit : Nat
  nal_unit_type : Nat
  nuh_layer_id : Nat
  nuh_temporal_id_plus1 : Nat
  deriving DecidableEq, Repr, Inhabited

namespace Spec

/-- clause 7.3.1.2 -/
def nalUnitHeader (h : NalUnitHeader) : List Bool :=
  seq [u 1 h.forbidden_zero_bit, u 6 h.nal_unit_type, u 6 h.nuh_layer_id, u 3 h.nuh_temporal_id_plus1]

structure ValidNalUnitHeader (h : NalUnitHeader) : Prop where
  forbidden_zero_bit : h.forbidden_zero_bit < 2 ^ 1
  nal_unit_type : h.nal_unit_type < 2 ^ 6
  nuh_layer_id : h.nuh_layer_id < 2 ^ 6
  nuh_temporal_id_plus1 : h.nuh_temporal_id_plus1 < 2 ^ 3

end Spec

/-- access_unit_delimiter_rbsp() (include/h265_aud_parser.h: AudState) -/
structure Aud where
  pic_type : Nat
  deriving DecidableEq, Repr, Inhabited

namespace Spec
/-- clause 7.3.2.5, without the trailing bits -/
def aud (a : Aud) : List Bool := seq [u 3 a.pic_type]
structure ValidAud (a : Aud) : Prop where
  pic_type : a.pic_type < 2 ^ 3
end Spec

/-- Profile types (include/h265_common.h: ProfileType) -/
inductive ProfileType where
  | UNSPECIFIED | MAIN | MAIN_10 | MAIN_STILL_PICTURE | FREXT | HIGH_THROUGHPUT | MULTIVIEW_MAIN | SCALABLE
  | _3D_MAIN | SCREEN_EXTENDED | MULTILAYER | SCREEN_EXTENDED_HIGH_THROUGHPUT | MULTIVIEW_EXTENDED
  | MULTIVIEW_EXTENDED_10 | MAIN_10_STILL_PICTURE | MONOCHROME | MONOCHROME_10 | MONOCHROME_12 | MONOCHROME_16
  | MAIN_12 | MAIN_422_10 | MAIN_422_12 | MAIN_444 | MAIN_444_10 | MAIN_444_12 | MAIN_INTRA | MAIN_10_INTRA
  | MAIN_12_INTRA | MAIN_422_10_INTRA | MAIN_422_12_INTRA | MAIN_444_INTRA | MAIN_444_10_INTRA
  | MAIN_444_12_INTRA | MAIN_444_16_INTRA | MAIN_444_STILL_PICTURE | MAIN_444_16_STILL_PICTURE
  | HIGH_THROUGHPUT_444 | HIGH_THROUGHPUT_444_10 | HIGH_THROUGHPUT_444_14 | HIGH_THROUGHPUT_444_16_INTRA
  | SCALABLE_MAIN | SCALABLE_MAIN_10 | SCREEN_EXTENDED_MAIN | SCREEN_EXTENDED_MAIN_10 | SCREEN_EXTENDED_MAIN_444
  | SCREEN_EXTENDED_MAIN_444_10 | SCREEN_EXTENDED_HIGH_THROUGHPUT_444 | SCREEN_EXTENDED_HIGH_THROUGHPUT_444_10
  | SCREEN_EXTENDED_HIGH_THROUGHPUT_444_14 | MONOCHROME_STILL_PICTURE | MONOCHROME_10_STILL_PICTURE
  | MAIN_444_10_STILL_PICTURE
  deriving DecidableEq, Repr, Inhabited

/-- The 43 bits after frame_only_constraint_flag (clause 7.3.3): constraint flags and reserved
bits; a field that is not present is 0. -/
structure ProfileConstraints where
  max_12bit_constraint_flag : Nat
  max_10bit_constraint_flag : Nat
  max_8bit_constraint_flag : Nat
  max_422chroma_constraint_flag : Nat
  max_420chroma_constraint_flag : Nat
  max_monochrome_constraint_flag : Nat
  intra_constraint_flag : Nat
  reserved_zero_7bits : Nat
  one_picture_only_constraint_flag : Nat
  lower_bit_rate_constraint_flag : Nat
  max_14bit_constraint_flag : Nat
  reserved_zero_33bits : Nat
  reserved_zero_34bits : Nat
  reserved_zero_35bits : Nat
  reserved_zero_43bits : Nat
  deriving DecidableEq, Repr, Inhabited

/-- ProfileInfoState, include/h265_profile_tier_level_parser.h:22-65.  The constraint fields are
grouped in `constraints`; `profile_type` is the stored result of `GetProfileType`. -/
structure ProfileInfo where
  profile_space : Nat
  tier_flag : Nat
  profile_idc : Nat
  profile_compatibility_flag : List Nat
  progressive_source_flag : Nat
  interlaced_source_flag : Nat
  non_packed_constraint_flag : Nat
  frame_only_constraint_flag : Nat
  constraints : ProfileConstraints
  profile_type : ProfileType
  inbld_flag : Nat
  reserved_zero_bit : Nat
  deriving DecidableEq, Repr, Inhabited

namespace Spec

/-- `profile_idc` or a compatibility flag names profile `j` -/
def compat (idc : Nat) (flags : List Nat) (j : Nat) : Prop := idc = j ∨ flags.getD j 0 = 1

instance (idc : Nat) (flags : List Nat) (j : Nat) : Decidable (compat idc flags j) := by
  unfold compat; exact inferInstance

/-- one of the profiles in `l` -/
def compatAny (idc : Nat) (flags : List Nat) (l : List Nat) : Prop := ∃ j ∈ l, compat idc flags j

instance (idc : Nat) (flags : List Nat) (l : List Nat) : Decidable (compatAny idc flags l) := by
  unfold compatAny; exact inferInstance

/-- clause 7.3.3, the 43 bits that depend on the profile -/
def profileConstraints (idc : Nat) (flags : List Nat) (c : ProfileConstraints) : List Bool :=
  if compatAny idc flags [4, 5, 6, 7, 8, 9, 10, 11] then
    seq [u 1 c.max_12bit_constraint_flag, u 1 c.max_10bit_constraint_flag, u 1 c.max_8bit_constraint_flag,
      u 1 c.max_422chroma_constraint_flag, u 1 c.max_420chroma_constraint_flag, u 1 c.max_monochrome_constraint_flag,
      u 1 c.intra_constraint_flag, u 1 c.one_picture_only_constraint_flag, u 1 c.lower_bit_rate_constraint_flag,
      cond (compatAny idc flags [5, 9, 10, 11]) (u 1 c.max_14bit_constraint_flag),
      cond (compatAny idc flags [5, 9, 10, 11]) (u 33 c.reserved_zero_33bits),
      cond (¬ compatAny idc flags [5, 9, 10, 11]) (u 34 c.reserved_zero_34bits)]
  else if compatAny idc flags [2] then
    seq [u 7 c.reserved_zero_7bits, u 1 c.one_picture_only_constraint_flag, u 35 c.reserved_zero_35bits]
  else seq [u 43 c.reserved_zero_43bits]

/-- Present fields fit in their bits, absent fields are 0. -/
structure ValidConstraints (idc : Nat) (flags : List Nat) (c : ProfileConstraints) : Prop where
  ext : compatAny idc flags [4, 5, 6, 7, 8, 9, 10, 11] →
    c.max_12bit_constraint_flag < 2 ^ 1 ∧ c.max_10bit_constraint_flag < 2 ^ 1 ∧ c.max_8bit_constraint_flag < 2 ^ 1 ∧
    c.max_422chroma_constraint_flag < 2 ^ 1 ∧ c.max_420chroma_constraint_flag < 2 ^ 1 ∧
    c.max_monochrome_constraint_flag < 2 ^ 1 ∧ c.intra_constraint_flag < 2 ^ 1 ∧
    c.one_picture_only_constraint_flag < 2 ^ 1 ∧ c.lower_bit_rate_constraint_flag < 2 ^ 1 ∧
    Opt (compatAny idc flags [5, 9, 10, 11]) (c.max_14bit_constraint_flag < 2 ^ 1) (c.max_14bit_constraint_flag = 0) ∧
    Opt (compatAny idc flags [5, 9, 10, 11]) (c.reserved_zero_33bits < 2 ^ 33) (c.reserved_zero_33bits = 0) ∧
    Opt (¬ compatAny idc flags [5, 9, 10, 11]) (c.reserved_zero_34bits < 2 ^ 34) (c.reserved_zero_34bits = 0) ∧
    c.reserved_zero_7bits = 0 ∧ c.reserved_zero_35bits = 0 ∧ c.reserved_zero_43bits = 0
  main10 : ¬ compatAny idc flags [4, 5, 6, 7, 8, 9, 10, 11] → compatAny idc flags [2] →
    ∃ r o p, r < 2 ^ 7 ∧ o < 2 ^ 1 ∧ p < 2 ^ 35 ∧ c = ⟨0, 0, 0, 0, 0, 0, 0, r, o, 0, 0, 0, 0, p, 0⟩
  other : ¬ compatAny idc flags [4, 5, 6, 7, 8, 9, 10, 11] → ¬ compatAny idc flags [2] →
    ∃ p, p < 2 ^ 43 ∧ c = ⟨0, 0, 0, 0, 0, 0, 0, 0, 0, 0, 0, 0, 0, 0, p⟩

/-- clause 7.3.3, the 88 bits describing one profile -/
def profileInfo (p : ProfileInfo) : List Bool :=
  seq [u 2 p.profile_space, u 1 p.tier_flag, u 5 p.profile_idc, list (u 1) p.profile_compatibility_flag,
    u 1 p.progressive_source_flag, u 1 p.interlaced_source_flag, u 1 p.non_packed_constraint_flag,
    u 1 p.frame_only_constraint_flag,
    profileConstraints p.profile_idc p.profile_compatibility_flag p.constraints,
    cond (compatAny p.profile_idc p.profile_compatibility_flag [1, 2, 3, 4, 5, 9, 11]) (u 1 p.inbld_flag),
    cond (¬ compatAny p.profile_idc p.profile_compatibility_flag [1, 2, 3, 4, 5, 9, 11]) (u 1 p.reserved_zero_bit)]

/-! ### Annex A profile types -/

inductive Chroma where | mono | c420 | c422 | c444
  deriving DecidableEq, Repr, Inhabited
/-- general profile, intra profile, still picture profile -/
inductive Kind where | inter | intra | still
  deriving DecidableEq, Repr, Inhabited

/-- The constraint flags of a format range extensions profile (Tables A.2, A.3, A.5): maximum bit
depth, chroma format, kind.  `lower_bit_rate_constraint_flag` must be 1 for the inter profiles only. -/
def rowMatches (depth : Nat) (ch : Chroma) (k : Kind) (c : ProfileConstraints) : Bool :=
  c.max_12bit_constraint_flag == (if depth ≤ 12 then 1 else 0) &&
  c.max_10bit_constraint_flag == (if depth ≤ 10 then 1 else 0) &&
  c.max_8bit_constraint_flag == (if depth ≤ 8 then 1 else 0) &&
  c.max_422chroma_constraint_flag == (if ch = .c444 then 0 else 1) &&
  c.max_420chroma_constraint_flag == (if ch = .c420 ∨ ch = .mono then 1 else 0) &&
  c.max_monochrome_constraint_flag == (if ch = .mono then 1 else 0) &&
  c.intra_constraint_flag == (if k = .inter then 0 else 1) &&
  c.one_picture_only_constraint_flag == (if k = .still then 1 else 0) &&
  (k != .inter || c.lower_bit_rate_constraint_flag == 1)

/-- and the additional flag of the profiles with idc 5, 9, 11 -/
def rowMatches14 (depth : Nat) (ch : Chroma) (k : Kind) (c : ProfileConstraints) : Bool :=
  rowMatches depth ch k c && c.max_14bit_constraint_flag == (if depth ≤ 14 then 1 else 0)

/-- Table A.2 (profile_idc 4), plus the still picture combinations the library also names -/
def rangeExtensionsTable : List (Nat × Chroma × Kind × ProfileType) :=
  [(8, .mono, .inter, .MONOCHROME), (10, .mono, .inter, .MONOCHROME_10), (12, .mono, .inter, .MONOCHROME_12),
   (16, .mono, .inter, .MONOCHROME_16), (12, .c420, .inter, .MAIN_12), (10, .c422, .inter, .MAIN_422_10),
   (12, .c422, .inter, .MAIN_422_12), (8, .c444, .inter, .MAIN_444), (10, .c444, .inter, .MAIN_444_10),
   (12, .c444, .inter, .MAIN_444_12), (8, .c420, .intra, .MAIN_INTRA), (10, .c420, .intra, .MAIN_10_INTRA),
   (12, .c420, .intra, .MAIN_12_INTRA), (10, .c422, .intra, .MAIN_422_10_INTRA),
   (12, .c422, .intra, .MAIN_422_12_INTRA), (8, .c444, .intra, .MAIN_444_INTRA),
   (10, .c444, .intra, .MAIN_444_10_INTRA), (12, .c444, .intra, .MAIN_444_12_INTRA),
   (16, .c444, .intra, .MAIN_444_16_INTRA), (8, .c444, .still, .MAIN_444_STILL_PICTURE),
   (16, .c444, .still, .MAIN_444_16_STILL_PICTURE), (8, .mono, .still, .MONOCHROME_STILL_PICTURE),
   (10, .mono, .still, .MONOCHROME_10_STILL_PICTURE), (8, .c420, .still, .MAIN_STILL_PICTURE),
   (10, .c420, .still, .MAIN_10_STILL_PICTURE), (10, .c444, .still, .MAIN_444_10_STILL_PICTURE)]

/-- Table A.3 (profile_idc 5) -/
def highThroughputTable : List (Nat × Chroma × Kind × ProfileType) :=
  [(8, .c444, .inter, .HIGH_THROUGHPUT_444), (10, .c444, .inter, .HIGH_THROUGHPUT_444_10),
   (14, .c444, .inter, .HIGH_THROUGHPUT_444_14), (16, .c444, .intra, .HIGH_THROUGHPUT_444_16_INTRA)]

/-- clause H.11.1.1 (profile_idc 7) -/
def scalableTable : List (Nat × Chroma × Kind × ProfileType) :=
  [(8, .c420, .inter, .SCALABLE_MAIN), (10, .c420, .inter, .SCALABLE_MAIN_10)]

/-- Table A.5 (profile_idc 9) -/
def screenExtendedTable : List (Nat × Chroma × Kind × ProfileType) :=
  [(8, .c420, .inter, .SCREEN_EXTENDED_MAIN), (10, .c420, .inter, .SCREEN_EXTENDED_MAIN_10),
   (8, .c444, .inter, .SCREEN_EXTENDED_MAIN_444), (10, .c444, .inter, .SCREEN_EXTENDED_MAIN_444_10)]

/-- Table A.7 (profile_idc 11) -/
def screenHighThroughputTable : List (Nat × Chroma × Kind × ProfileType) :=
  [(8, .c444, .inter, .SCREEN_EXTENDED_HIGH_THROUGHPUT_444), (10, .c444, .inter, .SCREEN_EXTENDED_HIGH_THROUGHPUT_444_10),
   (14, .c444, .inter, .SCREEN_EXTENDED_HIGH_THROUGHPUT_444_14)]

/-- The row of a table that matches, or the name of the profile family. -/
def lookupProfile (m : Nat → Chroma → Kind → ProfileConstraints → Bool) (table : List (Nat × Chroma × Kind × ProfileType))
    (family : ProfileType) (c : ProfileConstraints) : ProfileType :=
  match table.find? (fun r => m r.1 r.2.1 r.2.2.1 c) with
  | some r => r.2.2.2
  | none => family

/-- The profile type of a profile (Annex A, clauses G.11, H.11, I.11). -/
def profileType (space idc : Nat) (c : ProfileConstraints) : ProfileType :=
  if space ≠ 0 then .UNSPECIFIED
  else match idc with
    | 1 => .MAIN
    | 2 => if c.one_picture_only_constraint_flag = 1 then .MAIN_10_STILL_PICTURE else .MAIN_10
    | 3 => .MAIN_STILL_PICTURE
    | 4 => lookupProfile rowMatches rangeExtensionsTable .FREXT c
    | 5 => lookupProfile rowMatches14 highThroughputTable .HIGH_THROUGHPUT c
    | 6 => .MULTIVIEW_MAIN
    | 7 => lookupProfile rowMatches scalableTable .SCALABLE c
    | 8 => ._3D_MAIN
    | 9 => lookupProfile rowMatches14 screenExtendedTable .SCREEN_EXTENDED c
    | 10 => .MULTILAYER
    | 11 => lookupProfile rowMatches14 screenHighThroughputTable .SCREEN_EXTENDED_HIGH_THROUGHPUT c
    | 12 => .MULTIVIEW_EXTENDED
    | 13 => .MULTIVIEW_EXTENDED_10
    | _ => .UNSPECIFIED

structure ValidProfileInfo (p : ProfileInfo) : Prop where
  profile_space : p.profile_space < 2 ^ 2
  tier_flag : p.tier_flag < 2 ^ 1
  profile_idc : p.profile_idc < 2 ^ 5
  profile_compatibility_flag : Each 32 (· < 2 ^ 1) p.profile_compatibility_flag
  progressive_source_flag : p.progressive_source_flag < 2 ^ 1
  interlaced_source_flag : p.interlaced_source_flag < 2 ^ 1
  non_packed_constraint_flag : p.non_packed_constraint_flag < 2 ^ 1
  frame_only_constraint_flag : p.frame_only_constraint_flag < 2 ^ 1
  constraints : ValidConstraints p.profile_idc p.profile_compatibility_flag p.constraints
  profile_type : p.profile_type = profileType p.profile_space p.profile_idc p.constraints
  inbld_flag : Opt (compatAny p.profile_idc p.profile_compatibility_flag [1, 2, 3, 4, 5, 9, 11])
    (p.inbld_flag < 2 ^ 1) (p.inbld_flag = 0)
  reserved_zero_bit : Opt (¬ compatAny p.profile_idc p.profile_compatibility_flag [1, 2, 3, 4, 5, 9, 11])
    (p.reserved_zero_bit < 2 ^ 1) (p.reserved_zero_bit = 0)

end Spec

/-- ProfileTierLevelState, include/h265_profile_tier_level_parser.h:72-106, without the two input
parameters.  `sub_layers` has one entry per sub-layer: the profile and level if present (the C++
vectors `sub_layer` and `sub_layer_level_idc` are its present entries, in order). -/
structure ProfileTierLevel where
  general : Option ProfileInfo
  general_level_idc : Nat
  sub_layer_flags : List (Nat × Nat)
  reserved_zero_2bits : List Nat
  sub_layers : List (Option (ProfileInfo × Nat))
  deriving DecidableEq, Repr, Inhabited

namespace Spec

/-- profile and level of one sub-layer -/
def subLayerProfile (x : ProfileInfo × Nat) : List Bool := seq [profileInfo x.1, u 8 x.2]

/-- profile_tier_level( profilePresentFlag, maxNumSubLayersMinus1 ), clause 7.3.3.
Deviation of the library: sub_layer_level_idc is present when sub_layer_profile_present_flag is 1
(the standard says sub_layer_level_present_flag). -/
def profileTierLevel (p : ProfileTierLevel) : List Bool :=
  seq [optional profileInfo p.general, u 8 p.general_level_idc,
    list (fun f => u 1 f.1 ++ u 1 f.2) p.sub_layer_flags,
    list (u 2) p.reserved_zero_2bits,
    list (optional subLayerProfile) p.sub_layers]

structure ValidProfileTierLevel (present : Bool) (maxSub : Nat) (p : ProfileTierLevel) : Prop where
  general : Maybe (present = true) ValidProfileInfo p.general
  general_level_idc : p.general_level_idc < 2 ^ 8
  sub_layer_flags : Each maxSub (fun f => f.1 < 2 ^ 1 ∧ f.2 < 2 ^ 1) p.sub_layer_flags
  reserved_zero_2bits : Each (if maxSub > 0 then 8 - maxSub else 0) (· < 2 ^ 2) p.reserved_zero_2bits
  sub_layers : EachI maxSub (fun i => Maybe ((p.sub_layer_flags.getD i (0, 0)).1 ≠ 0)
    (fun x => ValidProfileInfo x.1 ∧ x.2 < 2 ^ 8)) p.sub_layers

end Spec
end H265
