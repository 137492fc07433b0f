/-
Syntax of the video parameter set (clause 7.3.2.1).
-/
import Verif.Spec.Hrd
import Verif.Spec.Headers

namespace H265
open Spec

/-- One entry of the three vectors vps_max_dec_pic_buffering_minus1, vps_max_num_reorder_pics,
vps_max_latency_increase_plus1 (pushed in lockstep). -/
structure SubLayerOrdering where
  max_dec_pic_buffering_minus1 : Nat
  max_num_reorder_pics : Nat
  max_latency_increase_plus1 : Nat
  deriving DecidableEq, Repr, Inhabited

namespace Spec
/-- one entry of the sub-layer ordering info loop, clause 7.3.2.1 -/
def subLayerOrdering (s : SubLayerOrdering) : List Bool :=
  seq [ue s.max_dec_pic_buffering_minus1,
    ue s.max_num_reorder_pics,
    ue s.max_latency_increase_plus1]

/-- ranges -/
structure ValidSubLayerOrdering (s : SubLayerOrdering) : Prop where
  max_dec_pic_buffering_minus1 : s.max_dec_pic_buffering_minus1 < 2 ^ 32 - 1
  max_num_reorder_pics : s.max_num_reorder_pics < 2 ^ 32 - 1
  max_latency_increase_plus1 : s.max_latency_increase_plus1 < 2 ^ 32 - 1
end Spec

/-- One iteration of the HRD loop of the VPS: elements of the vectors hrd_layer_set_idx and cprms_present_flag and
the parsed hrd_parameters.  (`VpsState` keeps only the hrd_parameters of the last iteration, see
`VpsBody.hrd_parameters`; the model records all of them.) -/
structure VpsHrd where
  hrd_layer_set_idx : Nat
  cprms_present_flag : Nat
  hrd_parameters : HrdParameters
  deriving DecidableEq, Repr, Inhabited

namespace Spec
/-- one entry of the hrd_parameters loop, clause 7.3.2.1.  Deviations of the library: cprms_present_flag is
read as ue(v) (standard: u(1)) and is 0 for the first entry (standard: inferred to be 1). -/
def vpsHrd (i : Nat) (s : VpsHrd) : List Bool :=
  seq [ue s.hrd_layer_set_idx,
    cond (i > 0) (ue s.cprms_present_flag),
    hrdParameters s.cprms_present_flag s.hrd_parameters]

/-- ranges -/
structure ValidVpsHrd (i max_sub : Nat) (s : VpsHrd) : Prop where
  hrd_layer_set_idx : s.hrd_layer_set_idx < 2 ^ 32 - 1
  cprms_present_flag : Opt (i > 0) (s.cprms_present_flag < 2 ^ 32 - 1) (s.cprms_present_flag = 0)
  hrd_parameters : ValidHrdParameters s.cprms_present_flag max_sub s.hrd_parameters
end Spec

/-- `VpsState`, include/h265_vps_parser.h:49-76, without the extension data flag. -/
structure VpsBody where
  vps_video_parameter_set_id : Nat
  vps_base_layer_internal_flag : Nat
  vps_base_layer_available_flag : Nat
  vps_max_layers_minus1 : Nat
  vps_max_sub_layers_minus1 : Nat
  vps_temporal_id_nesting_flag : Nat
  vps_reserved_0xffff_16bits : Nat
  profile_tier_level : ProfileTierLevel
  vps_sub_layer_ordering_info_present_flag : Nat
  sub_layer_ordering : List SubLayerOrdering
  vps_max_layer_id : Nat
  vps_num_layer_sets_minus1 : Nat
  layer_id_included_flag : List (List Nat)
  vps_timing_info_present_flag : Nat
  vps_num_units_in_tick : Nat
  vps_time_scale : Nat
  vps_poc_proportional_to_timing_flag : Nat
  vps_num_ticks_poc_diff_one_minus1 : Nat
  vps_num_hrd_parameters : Nat
  hrds : List VpsHrd
  vps_extension_flag : Nat
  deriving DecidableEq, Repr, Inhabited

namespace Spec
/-- video_parameter_set_rbsp() up to vps_extension_flag, clause 7.3.2.1 -/
def vpsBody (s : VpsBody) : List Bool :=
  seq [u 4 s.vps_video_parameter_set_id,
    u 1 s.vps_base_layer_internal_flag,
    u 1 s.vps_base_layer_available_flag,
    u 6 s.vps_max_layers_minus1,
    u 3 s.vps_max_sub_layers_minus1,
    u 1 s.vps_temporal_id_nesting_flag,
    u 16 s.vps_reserved_0xffff_16bits,
    profileTierLevel s.profile_tier_level,
    u 1 s.vps_sub_layer_ordering_info_present_flag,
    list subLayerOrdering s.sub_layer_ordering,
    u 6 s.vps_max_layer_id,
    ue s.vps_num_layer_sets_minus1,
    list (list (u 1)) s.layer_id_included_flag,
    u 1 s.vps_timing_info_present_flag,
    cond (s.vps_timing_info_present_flag ≠ 0) (u 32 s.vps_num_units_in_tick),
    cond (s.vps_timing_info_present_flag ≠ 0) (u 32 s.vps_time_scale),
    cond (s.vps_timing_info_present_flag ≠ 0) (u 1 s.vps_poc_proportional_to_timing_flag),
    cond (s.vps_timing_info_present_flag ≠ 0 ∧ s.vps_poc_proportional_to_timing_flag ≠ 0) (ue s.vps_num_ticks_poc_diff_one_minus1),
    cond (s.vps_timing_info_present_flag ≠ 0) (ue s.vps_num_hrd_parameters),
    listI (fun i => vpsHrd i) 0 s.hrds,
    u 1 s.vps_extension_flag]

/-- ranges -/
structure ValidVpsBody (s : VpsBody) : Prop where
  vps_video_parameter_set_id : s.vps_video_parameter_set_id < 2 ^ 4
  vps_base_layer_internal_flag : s.vps_base_layer_internal_flag < 2 ^ 1
  vps_base_layer_available_flag : s.vps_base_layer_available_flag < 2 ^ 1
  vps_max_layers_minus1 : s.vps_max_layers_minus1 < 2 ^ 6
  vps_max_sub_layers_minus1 : s.vps_max_sub_layers_minus1 < 2 ^ 3
  vps_temporal_id_nesting_flag : s.vps_temporal_id_nesting_flag < 2 ^ 1
  vps_reserved_0xffff_16bits : s.vps_reserved_0xffff_16bits < 2 ^ 16
  profile_tier_level : ValidProfileTierLevel true s.vps_max_sub_layers_minus1 s.profile_tier_level
  vps_sub_layer_ordering_info_present_flag : s.vps_sub_layer_ordering_info_present_flag < 2 ^ 1
  sub_layer_ordering : Each (if s.vps_sub_layer_ordering_info_present_flag ≠ 0 then s.vps_max_sub_layers_minus1 + 1 else 1) ValidSubLayerOrdering s.sub_layer_ordering
  vps_max_layer_id : s.vps_max_layer_id < 2 ^ 6
  vps_max_layer_id_le : s.vps_max_layer_id ≤ 62
  vps_num_layer_sets_minus1 : 0 ≤ s.vps_num_layer_sets_minus1 ∧ s.vps_num_layer_sets_minus1 ≤ 1023
  layer_id_included_flag : Each (s.vps_num_layer_sets_minus1) (Each (s.vps_max_layer_id + 1) (· < 2 ^ 1)) s.layer_id_included_flag
  vps_timing_info_present_flag : s.vps_timing_info_present_flag < 2 ^ 1
  vps_num_units_in_tick : Opt (s.vps_timing_info_present_flag ≠ 0) (s.vps_num_units_in_tick < 2 ^ 32) (s.vps_num_units_in_tick = 0)
  vps_time_scale : Opt (s.vps_timing_info_present_flag ≠ 0) (s.vps_time_scale < 2 ^ 32) (s.vps_time_scale = 0)
  vps_poc_proportional_to_timing_flag : Opt (s.vps_timing_info_present_flag ≠ 0) (s.vps_poc_proportional_to_timing_flag < 2 ^ 1) (s.vps_poc_proportional_to_timing_flag = 0)
  vps_num_ticks_poc_diff_one_minus1 : Opt (s.vps_timing_info_present_flag ≠ 0 ∧ s.vps_poc_proportional_to_timing_flag ≠ 0) (0 ≤ s.vps_num_ticks_poc_diff_one_minus1 ∧ s.vps_num_ticks_poc_diff_one_minus1 ≤ 2 ^ 32 - 2) (s.vps_num_ticks_poc_diff_one_minus1 = 0)
  vps_num_hrd_parameters : Opt (s.vps_timing_info_present_flag ≠ 0) (0 ≤ s.vps_num_hrd_parameters ∧ s.vps_num_hrd_parameters ≤ s.vps_num_layer_sets_minus1 + 1) (s.vps_num_hrd_parameters = 0)
  hrds : EachI (s.vps_num_hrd_parameters) (fun i => ValidVpsHrd i s.vps_max_sub_layers_minus1) s.hrds
  vps_extension_flag : s.vps_extension_flag < 2 ^ 1
end Spec

/-- What the C++ object shows: the HRD parameters of the last iteration (src/h265_vps_parser.cc:237). -/
def VpsBody.hrd_parameters (s : VpsBody) : Option HrdParameters := s.hrds.getLast?.map (·.hrd_parameters)

/-- `VpsState`, include/h265_vps_parser.h:49-76 -/
structure Vps where
  body : VpsBody
  vps_extension_data_flag : Nat
  deriving DecidableEq, Repr

end H265
