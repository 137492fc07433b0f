import Verif.Model.Fuzz
import Verif.Model.Printable

/-! The assertions of `/repo/test/h265_nal_unit_parser_unittest.cc` run on the model by the kernel. This is
validation of the transcription, not proof: each `example` is one unit test, its bytes and its
expectations copied from the test file. -/

set_option autoImplicit false
set_option maxRecDepth 100000
set_option maxHeartbeats 0
set_option linter.unusedVariables false

namespace H265.Tests

open H265

/-- `test/h265_nal_unit_parser_unittest.cc:22` `TestSampleNalUnit` (59 expectations). -/
example : (
  match parseNalUnit true ParserState.empty [64, 1, 12, 1, 255, 255, 1, 96, 0, 0, 3, 0, 176, 0, 0, 3, 0, 0, 3, 0, 93, 172, 89, 0] with
  | .ok (v1, st2) _ =>
    [true, v1.parsed_length == 20, v1.checksum == some [191, 162, 69, 148], v1.nal_unit_header.forbidden_zero_bit == 0,
      v1.nal_unit_header.nal_unit_type == 32, v1.nal_unit_header.nuh_layer_id == 0, v1.nal_unit_header.nuh_temporal_id_plus1 == 1].all id &&
    (
      match v1.nal_unit_payload.vps with
      | some vps_3 =>
        [vps_3.body.vps_video_parameter_set_id == 0, vps_3.body.vps_base_layer_internal_flag == 1, vps_3.body.vps_base_layer_available_flag == 1,
          vps_3.body.vps_max_layers_minus1 == 0, vps_3.body.vps_max_sub_layers_minus1 == 0, vps_3.body.vps_temporal_id_nesting_flag == 1,
          vps_3.body.vps_reserved_0xffff_16bits == 65535, (vps_3.body.profile_tier_level.general.map fun x => x.profile_space) == some 0,
          (vps_3.body.profile_tier_level.general.map fun x => x.tier_flag) == some 0,
          (vps_3.body.profile_tier_level.general.map fun x => x.profile_idc) == some 1,
          (vps_3.body.profile_tier_level.general.map fun x => x.profile_compatibility_flag) == some [0, 1, 1, 0, 0, 0, 0, 0, 0, 0, 0, 0, 0, 0, 0, 0, 0, 0, 0, 0, 0, 0, 0, 0, 0, 0, 0, 0, 0, 0, 0, 0],
          (vps_3.body.profile_tier_level.general.map fun x => x.progressive_source_flag) == some 1,
          (vps_3.body.profile_tier_level.general.map fun x => x.interlaced_source_flag) == some 0,
          (vps_3.body.profile_tier_level.general.map fun x => x.non_packed_constraint_flag) == some 1,
          (vps_3.body.profile_tier_level.general.map fun x => x.frame_only_constraint_flag) == some 1,
          (vps_3.body.profile_tier_level.general.map fun x => x.constraints.max_12bit_constraint_flag) == some 0,
          (vps_3.body.profile_tier_level.general.map fun x => x.constraints.max_10bit_constraint_flag) == some 0,
          (vps_3.body.profile_tier_level.general.map fun x => x.constraints.max_8bit_constraint_flag) == some 0,
          (vps_3.body.profile_tier_level.general.map fun x => x.constraints.max_422chroma_constraint_flag) == some 0,
          (vps_3.body.profile_tier_level.general.map fun x => x.constraints.max_420chroma_constraint_flag) == some 0,
          (vps_3.body.profile_tier_level.general.map fun x => x.constraints.max_monochrome_constraint_flag) == some 0,
          (vps_3.body.profile_tier_level.general.map fun x => x.constraints.intra_constraint_flag) == some 0,
          (vps_3.body.profile_tier_level.general.map fun x => x.constraints.one_picture_only_constraint_flag) == some 0,
          (vps_3.body.profile_tier_level.general.map fun x => x.constraints.lower_bit_rate_constraint_flag) == some 0,
          (vps_3.body.profile_tier_level.general.map fun x => x.constraints.max_14bit_constraint_flag) == some 0,
          (vps_3.body.profile_tier_level.general.map fun x => x.constraints.reserved_zero_33bits) == some 0,
          (vps_3.body.profile_tier_level.general.map fun x => x.constraints.reserved_zero_34bits) == some 0,
          (vps_3.body.profile_tier_level.general.map fun x => x.constraints.reserved_zero_43bits) == some 0,
          (vps_3.body.profile_tier_level.general.map fun x => x.inbld_flag) == some 0,
          (vps_3.body.profile_tier_level.general.map fun x => x.reserved_zero_bit) == some 0, vps_3.body.profile_tier_level.general_level_idc == 93,
          (vps_3.body.profile_tier_level.sub_layer_flags.map (·.1)).length == 0,
          (vps_3.body.profile_tier_level.sub_layer_flags.map (·.2)).length == 0, vps_3.body.profile_tier_level.reserved_zero_2bits.length == 0,
          vps_3.body.profile_tier_level.sub_layers.length == 0, vps_3.body.vps_sub_layer_ordering_info_present_flag == 1,
          (vps_3.body.sub_layer_ordering.map (·.max_dec_pic_buffering_minus1)) == [1],
          (vps_3.body.sub_layer_ordering.map (·.max_num_reorder_pics)) == [0],
          (vps_3.body.sub_layer_ordering.map (·.max_latency_increase_plus1)) == [0], vps_3.body.vps_max_layer_id == 5,
          vps_3.body.vps_num_layer_sets_minus1 == 0, vps_3.body.layer_id_included_flag.length == 0, vps_3.body.vps_timing_info_present_flag == 0,
          vps_3.body.vps_num_units_in_tick == 0, vps_3.body.vps_time_scale == 0, vps_3.body.vps_poc_proportional_to_timing_flag == 0,
          vps_3.body.vps_num_ticks_poc_diff_one_minus1 == 0, vps_3.body.vps_num_hrd_parameters == 0,
          (vps_3.body.hrds.map (·.hrd_layer_set_idx)).length == 0, (vps_3.body.hrds.map (·.cprms_present_flag)).length == 0,
          vps_3.body.vps_extension_flag == 0, vps_3.vps_extension_data_flag == 0].all id
      | _ => false)
  | _ => false) = true := by
  decide +kernel

/-- `test/h265_nal_unit_parser_unittest.cc:126` `TestEmptyNalUnit` (1 expectations). -/
example : (
  match parseNalUnit false ParserState.empty [] with
  | .fail _ =>
    true
  | _ => false) = true := by
  decide +kernel

/-- `test/h265_nal_unit_parser_unittest.cc:143` `VerifParseNaluType` (1 expectations). -/
example : (
  match getNalUnitType [32, 1, 12, 1, 255, 255, 1, 96, 0, 0, 3, 0, 176, 0, 0, 3, 0, 0, 3, 0, 93, 172, 89, 0] with
  | .ok (some v1) =>
    [v1 == 16].all id
  | _ => false) = true := by
  decide +kernel

/-- `test/h265_nal_unit_parser_unittest.cc:49-51`: the checksum of `TestSampleNalUnit` written into an array of 64 characters
(1 expectation, transcribed by hand). -/
example : (
  match checksumFdump [0xbf, 0xa2, 0x45, 0x94] (List.replicate 64 none) 64 with
  | .ok out => match out.toStdString with | .ok s => s == "bfa24594".toList | _ => false
  | _ => false) = true := by
  decide +kernel

end H265.Tests
