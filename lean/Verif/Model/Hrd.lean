/-
Model of src/h265_hrd_parameters_parser.cc and src/h265_sub_layer_hrd_parameters_parser.cc.
-/
import Verif.Model.Common
import Verif.Spec.Hrd

namespace H265
open Prog

/-- loop body of `ParseSubLayerHrdParameters`, src/h265_sub_layer_hrd_parameters_parser.cc:52-87 -/
def parseSubLayerHrdEntry (sub_pic : Nat) : Prog SubLayerHrdEntry := do
  let bit_rate_value_minus1 ← uev
  let cpb_size_value_minus1 ← uev
  let cpb_size_du_value_minus1 ← opt (sub_pic ≠ 0) uev 0
  let bit_rate_du_value_minus1 ← opt (sub_pic ≠ 0) uev 0
  let cbr_flag ← u 1
  return { bit_rate_value_minus1, cpb_size_value_minus1, cpb_size_du_value_minus1, bit_rate_du_value_minus1, cbr_flag }

/-- loop body of `ParseHrdParameters`, src/h265_hrd_parameters_parser.cc:133-208 -/
def parseHrdSubLayer (nal vcl sub_pic : Nat) : Prog HrdSubLayer := do
  let fixed_pic_rate_general_flag ← u 1
  let fixed_pic_rate_within_cvs_flag ← opt (fixed_pic_rate_general_flag = 0) (u 1) 0
  let elemental_duration_in_tc_minus1 ← opt (fixed_pic_rate_within_cvs_flag ≠ 0) uev 0
  let low_delay_hrd_flag ← opt (¬ fixed_pic_rate_within_cvs_flag ≠ 0) (u 1) 0
  let cpb_cnt_minus1 ← opt (low_delay_hrd_flag = 0) uev 0
  let nal_hrd ← maybe (nal ≠ 0) (rep (cpb_cnt_minus1 + 1) (parseSubLayerHrdEntry sub_pic))
  let vcl_hrd ← maybe (vcl ≠ 0) (rep (cpb_cnt_minus1 + 1) (parseSubLayerHrdEntry sub_pic))
  return { fixed_pic_rate_general_flag, fixed_pic_rate_within_cvs_flag, elemental_duration_in_tc_minus1, low_delay_hrd_flag, cpb_cnt_minus1, nal_hrd, vcl_hrd }

/-- `ParseHrdParameters`, src/h265_hrd_parameters_parser.cc:33-211 (nested conditions flattened; the callers pass
maxNumSubLayersMinus1 ≤ 7, so the loop variable does not wrap) -/
def parseHrdParameters (common max_sub : Nat) : Prog HrdParameters := do
  let nal_hrd_parameters_present_flag ← opt (common ≠ 0) (u 1) 0
  let vcl_hrd_parameters_present_flag ← opt (common ≠ 0) (u 1) 0
  let sub_pic_hrd_params_present_flag ← opt (common ≠ 0 ∧ (nal_hrd_parameters_present_flag ≠ 0 ∨ vcl_hrd_parameters_present_flag ≠ 0)) (u 1) 0
  let tick_divisor_minus2 ← opt (common ≠ 0 ∧ (nal_hrd_parameters_present_flag ≠ 0 ∨ vcl_hrd_parameters_present_flag ≠ 0) ∧ sub_pic_hrd_params_present_flag ≠ 0) (u 8) 0
  let du_cpb_removal_delay_increment_length_minus1 ← opt (common ≠ 0 ∧ (nal_hrd_parameters_present_flag ≠ 0 ∨ vcl_hrd_parameters_present_flag ≠ 0) ∧ sub_pic_hrd_params_present_flag ≠ 0) (u 5) 0
  let sub_pic_cpb_params_in_pic_timing_sei_flag ← opt (common ≠ 0 ∧ (nal_hrd_parameters_present_flag ≠ 0 ∨ vcl_hrd_parameters_present_flag ≠ 0) ∧ sub_pic_hrd_params_present_flag ≠ 0) (u 1) 0
  let dpb_output_delay_du_length_minus1 ← opt (common ≠ 0 ∧ (nal_hrd_parameters_present_flag ≠ 0 ∨ vcl_hrd_parameters_present_flag ≠ 0) ∧ sub_pic_hrd_params_present_flag ≠ 0) (u 5) 0
  let bit_rate_scale ← opt (common ≠ 0 ∧ (nal_hrd_parameters_present_flag ≠ 0 ∨ vcl_hrd_parameters_present_flag ≠ 0)) (u 4) 0
  let cpb_size_scale ← opt (common ≠ 0 ∧ (nal_hrd_parameters_present_flag ≠ 0 ∨ vcl_hrd_parameters_present_flag ≠ 0)) (u 4) 0
  let cpb_size_du_scale ← opt (common ≠ 0 ∧ (nal_hrd_parameters_present_flag ≠ 0 ∨ vcl_hrd_parameters_present_flag ≠ 0) ∧ sub_pic_hrd_params_present_flag ≠ 0) (u 4) 0
  let initial_cpb_removal_delay_length_minus1 ← opt (common ≠ 0 ∧ (nal_hrd_parameters_present_flag ≠ 0 ∨ vcl_hrd_parameters_present_flag ≠ 0)) (u 5) 0
  let au_cpb_removal_delay_length_minus1 ← opt (common ≠ 0 ∧ (nal_hrd_parameters_present_flag ≠ 0 ∨ vcl_hrd_parameters_present_flag ≠ 0)) (u 5) 0
  let dpb_output_delay_length_minus1 ← opt (common ≠ 0 ∧ (nal_hrd_parameters_present_flag ≠ 0 ∨ vcl_hrd_parameters_present_flag ≠ 0)) (u 5) 0
  let sub_layers ← rep (max_sub + 1) (parseHrdSubLayer nal_hrd_parameters_present_flag vcl_hrd_parameters_present_flag sub_pic_hrd_params_present_flag)
  return { nal_hrd_parameters_present_flag, vcl_hrd_parameters_present_flag, sub_pic_hrd_params_present_flag, tick_divisor_minus2, du_cpb_removal_delay_increment_length_minus1, sub_pic_cpb_params_in_pic_timing_sei_flag, dpb_output_delay_du_length_minus1, bit_rate_scale, cpb_size_scale, cpb_size_du_scale, initial_cpb_removal_delay_length_minus1, au_cpb_removal_delay_length_minus1, dpb_output_delay_length_minus1, sub_layers }

end H265
