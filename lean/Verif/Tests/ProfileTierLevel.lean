import Verif.Model.Fuzz
import Verif.Model.Printable

/-! The assertions of `/repo/test/h265_profile_tier_level_parser_unittest.cc` run on the model by the kernel. This is
validation of the transcription, not proof: each `example` is one unit test, its bytes and its
expectations copied from the test file. -/

set_option autoImplicit false
set_option maxRecDepth 100000
set_option maxHeartbeats 0
set_option linter.unusedVariables false

namespace H265.Tests

open H265

/-- `test/h265_profile_tier_level_parser_unittest.cc:20` `TestSampleValue` (29 expectations). -/
example : (
  match parseProfileTierLevelBytes [1, 96, 0, 0, 3, 0, 176, 0, 0, 3, 0, 0, 3, 0, 93, 172, 89] true 0 with
  | .ok v1 _ =>
    [true, (v1.general.map fun x => x.profile_space) == some 0, (v1.general.map fun x => x.tier_flag) == some 0,
      (v1.general.map fun x => x.profile_idc) == some 1,
      (v1.general.map fun x => x.profile_compatibility_flag) == some [0, 1, 1, 0, 0, 0, 0, 0, 0, 0, 0, 0, 0, 0, 0, 0, 0, 0, 0, 0, 0, 0, 0, 0, 0, 0, 0, 0, 0, 0, 0, 0],
      (v1.general.map fun x => x.progressive_source_flag) == some 1, (v1.general.map fun x => x.interlaced_source_flag) == some 0,
      (v1.general.map fun x => x.non_packed_constraint_flag) == some 1, (v1.general.map fun x => x.frame_only_constraint_flag) == some 1,
      (v1.general.map fun x => x.constraints.max_12bit_constraint_flag) == some 0,
      (v1.general.map fun x => x.constraints.max_10bit_constraint_flag) == some 0,
      (v1.general.map fun x => x.constraints.max_8bit_constraint_flag) == some 0,
      (v1.general.map fun x => x.constraints.max_422chroma_constraint_flag) == some 0,
      (v1.general.map fun x => x.constraints.max_420chroma_constraint_flag) == some 0,
      (v1.general.map fun x => x.constraints.max_monochrome_constraint_flag) == some 0,
      (v1.general.map fun x => x.constraints.intra_constraint_flag) == some 0,
      (v1.general.map fun x => x.constraints.one_picture_only_constraint_flag) == some 0,
      (v1.general.map fun x => x.constraints.lower_bit_rate_constraint_flag) == some 0,
      (v1.general.map fun x => x.constraints.max_14bit_constraint_flag) == some 0,
      (v1.general.map fun x => x.constraints.reserved_zero_33bits) == some 0, (v1.general.map fun x => x.constraints.reserved_zero_34bits) == some 0,
      (v1.general.map fun x => x.constraints.reserved_zero_43bits) == some 0, (v1.general.map fun x => x.inbld_flag) == some 0,
      (v1.general.map fun x => x.reserved_zero_bit) == some 0, v1.general_level_idc == 93, (v1.sub_layer_flags.map (·.1)).length == 0,
      (v1.sub_layer_flags.map (·.2)).length == 0, v1.reserved_zero_2bits.length == 0, v1.sub_layers.length == 0].all id
  | _ => false) = true := by
  decide +kernel

/-- `test/h265_profile_tier_level_parser_unittest.cc:69` `Test022018Standard` (29 expectations). -/
example : (
  match parseProfileTierLevelBytes [1, 96, 0, 0, 0, 128, 0, 0, 0, 0, 0, 186, 0, 0, 44, 9] true 0 with
  | .ok v1 _ =>
    [true, (v1.general.map fun x => x.profile_space) == some 0, (v1.general.map fun x => x.tier_flag) == some 0,
      (v1.general.map fun x => x.profile_idc) == some 1,
      (v1.general.map fun x => x.profile_compatibility_flag) == some [0, 1, 1, 0, 0, 0, 0, 0, 0, 0, 0, 0, 0, 0, 0, 0, 0, 0, 0, 0, 0, 0, 0, 0, 0, 0, 0, 0, 0, 0, 0, 0],
      (v1.general.map fun x => x.progressive_source_flag) == some 1, (v1.general.map fun x => x.interlaced_source_flag) == some 0,
      (v1.general.map fun x => x.non_packed_constraint_flag) == some 0, (v1.general.map fun x => x.frame_only_constraint_flag) == some 0,
      (v1.general.map fun x => x.constraints.max_12bit_constraint_flag) == some 0,
      (v1.general.map fun x => x.constraints.max_10bit_constraint_flag) == some 0,
      (v1.general.map fun x => x.constraints.max_8bit_constraint_flag) == some 0,
      (v1.general.map fun x => x.constraints.max_422chroma_constraint_flag) == some 0,
      (v1.general.map fun x => x.constraints.max_420chroma_constraint_flag) == some 0,
      (v1.general.map fun x => x.constraints.max_monochrome_constraint_flag) == some 0,
      (v1.general.map fun x => x.constraints.intra_constraint_flag) == some 0,
      (v1.general.map fun x => x.constraints.one_picture_only_constraint_flag) == some 0,
      (v1.general.map fun x => x.constraints.lower_bit_rate_constraint_flag) == some 0,
      (v1.general.map fun x => x.constraints.max_14bit_constraint_flag) == some 0,
      (v1.general.map fun x => x.constraints.reserved_zero_33bits) == some 0, (v1.general.map fun x => x.constraints.reserved_zero_34bits) == some 0,
      (v1.general.map fun x => x.constraints.reserved_zero_43bits) == some 0, (v1.general.map fun x => x.inbld_flag) == some 0,
      (v1.general.map fun x => x.reserved_zero_bit) == some 0, v1.general_level_idc == 186, (v1.sub_layer_flags.map (·.1)).length == 0,
      (v1.sub_layer_flags.map (·.2)).length == 0, v1.reserved_zero_2bits.length == 0, v1.sub_layers.length == 0].all id
  | _ => false) = true := by
  decide +kernel

end H265.Tests
