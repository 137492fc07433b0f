/-
Model of src/h265_vps_parser.cc.
-/
import Verif.Model.Hrd
import Verif.Model.Headers
import Verif.Spec.Vps

namespace H265
open Prog

/-- loop body, src/h265_vps_parser.cc:88-107 -/
def parseSubLayerOrdering : Prog SubLayerOrdering := do
  let max_dec_pic_buffering_minus1 ← uev
  let max_num_reorder_pics ← uev
  let max_latency_increase_plus1 ← uev
  return { max_dec_pic_buffering_minus1, max_num_reorder_pics, max_latency_increase_plus1 }

/-- loop body, src/h265_vps_parser.cc:219-243 -/
def parseVpsHrd (i max_sub : Nat) : Prog VpsHrd := do
  let hrd_layer_set_idx ← uev
  let cprms_present_flag ← opt (i > 0) uev 0
  let hrd_parameters ← parseHrdParameters cprms_present_flag max_sub
  return { hrd_layer_set_idx, cprms_present_flag, hrd_parameters }

/-- `ParseVps`, src/h265_vps_parser.cc:31-249; limits include/h265_vps_parser.h:22-37, include/h265_common.h (nested conditions
flattened; the HRD loop has vps_num_hrd_parameters = 0 iterations when there is no timing info) -/
def parseVpsBody : Prog VpsBody := do
  let vps_video_parameter_set_id ← u 4
  let vps_base_layer_internal_flag ← u 1
  let vps_base_layer_available_flag ← u 1
  let vps_max_layers_minus1 ← u 6
  let vps_max_sub_layers_minus1 ← u 3
  let vps_temporal_id_nesting_flag ← u 1
  let vps_reserved_0xffff_16bits ← u 16
  let profile_tier_level ← parseProfileTierLevel true vps_max_sub_layers_minus1
  let vps_sub_layer_ordering_info_present_flag ← u 1
  let sub_layer_ordering ← rep (if vps_sub_layer_ordering_info_present_flag ≠ 0 then vps_max_sub_layers_minus1 + 1 else 1) parseSubLayerOrdering
  let vps_max_layer_id ← u 6
  check (vps_max_layer_id ≤ 62)
  let vps_num_layer_sets_minus1 ← ueRange 0 1023
  let layer_id_included_flag ← rep vps_num_layer_sets_minus1 (rep (vps_max_layer_id + 1) (u 1))
  let vps_timing_info_present_flag ← u 1
  let vps_num_units_in_tick ← opt (vps_timing_info_present_flag ≠ 0) (u 32) 0
  let vps_time_scale ← opt (vps_timing_info_present_flag ≠ 0) (u 32) 0
  let vps_poc_proportional_to_timing_flag ← opt (vps_timing_info_present_flag ≠ 0) (u 1) 0
  let vps_num_ticks_poc_diff_one_minus1 ← opt (vps_timing_info_present_flag ≠ 0 ∧ vps_poc_proportional_to_timing_flag ≠ 0) (ueRange 0 (2 ^ 32 - 2)) 0
  let vps_num_hrd_parameters ← opt (vps_timing_info_present_flag ≠ 0) (ueRange 0 (vps_num_layer_sets_minus1 + 1)) 0
  let hrds ← repI 0 (vps_num_hrd_parameters) (fun i => parseVpsHrd i vps_max_sub_layers_minus1)
  let vps_extension_flag ← u 1
  return { vps_video_parameter_set_id, vps_base_layer_internal_flag, vps_base_layer_available_flag, vps_max_layers_minus1, vps_max_sub_layers_minus1, vps_temporal_id_nesting_flag, vps_reserved_0xffff_16bits, profile_tier_level, vps_sub_layer_ordering_info_present_flag, sub_layer_ordering, vps_max_layer_id, vps_num_layer_sets_minus1, layer_id_included_flag, vps_timing_info_present_flag, vps_num_units_in_tick, vps_time_scale, vps_poc_proportional_to_timing_flag, vps_num_ticks_poc_diff_one_minus1, vps_num_hrd_parameters, hrds, vps_extension_flag }

/-- `ParseVps`, src/h265_vps_parser.cc:31-262 -/
def parseVps : Prog Vps := do
  let body ← parseVpsBody
  let vps_extension_data_flag ← rbspTail body.vps_extension_flag
  return { body, vps_extension_data_flag }

end H265
