/-
Syntax of hrd_parameters() and sub_layer_hrd_parameters() (Annex E).
-/
import Verif.Spec.Bits

namespace H265
open Spec

/-- One CPB entry of `SubLayerHrdParametersState` (include/h265_sub_layer_hrd_parameters_parser.h:42-46): the
five C++ vectors are pushed in lockstep, here a list of records. -/
structure SubLayerHrdEntry where
  bit_rate_value_minus1 : Nat
  cpb_size_value_minus1 : Nat
  cpb_size_du_value_minus1 : Nat
  bit_rate_du_value_minus1 : Nat
  cbr_flag : Nat
  deriving DecidableEq, Repr, Inhabited

namespace Spec
/-- one CPB entry of sub_layer_hrd_parameters(), clause E.2.3 -/
def subLayerHrdEntry (sub_pic : Nat) (s : SubLayerHrdEntry) : List Bool :=
  seq [ue s.bit_rate_value_minus1,
    ue s.cpb_size_value_minus1,
    cond (sub_pic ≠ 0) (ue s.cpb_size_du_value_minus1),
    cond (sub_pic ≠ 0) (ue s.bit_rate_du_value_minus1),
    u 1 s.cbr_flag]

/-- ranges -/
structure ValidSubLayerHrdEntry (sub_pic : Nat) (s : SubLayerHrdEntry) : Prop where
  bit_rate_value_minus1 : s.bit_rate_value_minus1 < 2 ^ 32 - 1
  cpb_size_value_minus1 : s.cpb_size_value_minus1 < 2 ^ 32 - 1
  cpb_size_du_value_minus1 : Opt (sub_pic ≠ 0) (s.cpb_size_du_value_minus1 < 2 ^ 32 - 1) (s.cpb_size_du_value_minus1 = 0)
  bit_rate_du_value_minus1 : Opt (sub_pic ≠ 0) (s.bit_rate_du_value_minus1 < 2 ^ 32 - 1) (s.bit_rate_du_value_minus1 = 0)
  cbr_flag : s.cbr_flag < 2 ^ 1
end Spec

/-- One sub-layer of `HrdParametersState` (include/h265_hrd_parameters_parser.h:53-60): vectors pushed in
lockstep; `sub_layer_hrd_parameters_vector` is the concatenation of the present `nal_hrd`, `vcl_hrd`. -/
structure HrdSubLayer where
  fixed_pic_rate_general_flag : Nat
  fixed_pic_rate_within_cvs_flag : Nat
  elemental_duration_in_tc_minus1 : Nat
  low_delay_hrd_flag : Nat
  cpb_cnt_minus1 : Nat
  nal_hrd : Option (List SubLayerHrdEntry)
  vcl_hrd : Option (List SubLayerHrdEntry)
  deriving DecidableEq, Repr, Inhabited

namespace Spec
/-- one sub-layer of hrd_parameters(), clause E.2.2.  Deviation of the library: when
fixed_pic_rate_general_flag is 1 the standard infers fixed_pic_rate_within_cvs_flag = 1 (so that
elemental_duration_in_tc_minus1 follows and low_delay_hrd_flag is absent); the library takes 0. -/
def hrdSubLayer (sub_pic : Nat) (s : HrdSubLayer) : List Bool :=
  seq [u 1 s.fixed_pic_rate_general_flag,
    cond (s.fixed_pic_rate_general_flag = 0) (u 1 s.fixed_pic_rate_within_cvs_flag),
    cond (s.fixed_pic_rate_within_cvs_flag ≠ 0) (ue s.elemental_duration_in_tc_minus1),
    cond (¬ s.fixed_pic_rate_within_cvs_flag ≠ 0) (u 1 s.low_delay_hrd_flag),
    cond (s.low_delay_hrd_flag = 0) (ue s.cpb_cnt_minus1),
    optional (list (subLayerHrdEntry sub_pic)) s.nal_hrd,
    optional (list (subLayerHrdEntry sub_pic)) s.vcl_hrd]

/-- ranges -/
structure ValidHrdSubLayer (nal vcl sub_pic : Nat) (s : HrdSubLayer) : Prop where
  fixed_pic_rate_general_flag : s.fixed_pic_rate_general_flag < 2 ^ 1
  fixed_pic_rate_within_cvs_flag : Opt (s.fixed_pic_rate_general_flag = 0) (s.fixed_pic_rate_within_cvs_flag < 2 ^ 1) (s.fixed_pic_rate_within_cvs_flag = 0)
  elemental_duration_in_tc_minus1 : Opt (s.fixed_pic_rate_within_cvs_flag ≠ 0) (s.elemental_duration_in_tc_minus1 < 2 ^ 32 - 1) (s.elemental_duration_in_tc_minus1 = 0)
  low_delay_hrd_flag : Opt (¬ s.fixed_pic_rate_within_cvs_flag ≠ 0) (s.low_delay_hrd_flag < 2 ^ 1) (s.low_delay_hrd_flag = 0)
  cpb_cnt_minus1 : Opt (s.low_delay_hrd_flag = 0) (s.cpb_cnt_minus1 < 2 ^ 32 - 1) (s.cpb_cnt_minus1 = 0)
  nal_hrd : Maybe (nal ≠ 0) (Each (s.cpb_cnt_minus1 + 1) (ValidSubLayerHrdEntry sub_pic)) s.nal_hrd
  vcl_hrd : Maybe (vcl ≠ 0) (Each (s.cpb_cnt_minus1 + 1) (ValidSubLayerHrdEntry sub_pic)) s.vcl_hrd
end Spec

/-- `HrdParametersState`, include/h265_hrd_parameters_parser.h:35-60, without the two input parameters. -/
structure HrdParameters where
  nal_hrd_parameters_present_flag : Nat
  vcl_hrd_parameters_present_flag : Nat
  sub_pic_hrd_params_present_flag : Nat
  tick_divisor_minus2 : Nat
  du_cpb_removal_delay_increment_length_minus1 : Nat
  sub_pic_cpb_params_in_pic_timing_sei_flag : Nat
  dpb_output_delay_du_length_minus1 : Nat
  bit_rate_scale : Nat
  cpb_size_scale : Nat
  cpb_size_du_scale : Nat
  initial_cpb_removal_delay_length_minus1 : Nat
  au_cpb_removal_delay_length_minus1 : Nat
  dpb_output_delay_length_minus1 : Nat
  sub_layers : List HrdSubLayer
  deriving DecidableEq, Repr, Inhabited

namespace Spec
/-- hrd_parameters( commonInfPresentFlag, maxNumSubLayersMinus1 ), clause E.2.2 -/
def hrdParameters (common : Nat) (s : HrdParameters) : List Bool :=
  seq [cond (common ≠ 0) (u 1 s.nal_hrd_parameters_present_flag),
    cond (common ≠ 0) (u 1 s.vcl_hrd_parameters_present_flag),
    cond (common ≠ 0 ∧ (s.nal_hrd_parameters_present_flag ≠ 0 ∨ s.vcl_hrd_parameters_present_flag ≠ 0)) (u 1 s.sub_pic_hrd_params_present_flag),
    cond (common ≠ 0 ∧ (s.nal_hrd_parameters_present_flag ≠ 0 ∨ s.vcl_hrd_parameters_present_flag ≠ 0) ∧ s.sub_pic_hrd_params_present_flag ≠ 0) (u 8 s.tick_divisor_minus2),
    cond (common ≠ 0 ∧ (s.nal_hrd_parameters_present_flag ≠ 0 ∨ s.vcl_hrd_parameters_present_flag ≠ 0) ∧ s.sub_pic_hrd_params_present_flag ≠ 0) (u 5 s.du_cpb_removal_delay_increment_length_minus1),
    cond (common ≠ 0 ∧ (s.nal_hrd_parameters_present_flag ≠ 0 ∨ s.vcl_hrd_parameters_present_flag ≠ 0) ∧ s.sub_pic_hrd_params_present_flag ≠ 0) (u 1 s.sub_pic_cpb_params_in_pic_timing_sei_flag),
    cond (common ≠ 0 ∧ (s.nal_hrd_parameters_present_flag ≠ 0 ∨ s.vcl_hrd_parameters_present_flag ≠ 0) ∧ s.sub_pic_hrd_params_present_flag ≠ 0) (u 5 s.dpb_output_delay_du_length_minus1),
    cond (common ≠ 0 ∧ (s.nal_hrd_parameters_present_flag ≠ 0 ∨ s.vcl_hrd_parameters_present_flag ≠ 0)) (u 4 s.bit_rate_scale),
    cond (common ≠ 0 ∧ (s.nal_hrd_parameters_present_flag ≠ 0 ∨ s.vcl_hrd_parameters_present_flag ≠ 0)) (u 4 s.cpb_size_scale),
    cond (common ≠ 0 ∧ (s.nal_hrd_parameters_present_flag ≠ 0 ∨ s.vcl_hrd_parameters_present_flag ≠ 0) ∧ s.sub_pic_hrd_params_present_flag ≠ 0) (u 4 s.cpb_size_du_scale),
    cond (common ≠ 0 ∧ (s.nal_hrd_parameters_present_flag ≠ 0 ∨ s.vcl_hrd_parameters_present_flag ≠ 0)) (u 5 s.initial_cpb_removal_delay_length_minus1),
    cond (common ≠ 0 ∧ (s.nal_hrd_parameters_present_flag ≠ 0 ∨ s.vcl_hrd_parameters_present_flag ≠ 0)) (u 5 s.au_cpb_removal_delay_length_minus1),
    cond (common ≠ 0 ∧ (s.nal_hrd_parameters_present_flag ≠ 0 ∨ s.vcl_hrd_parameters_present_flag ≠ 0)) (u 5 s.dpb_output_delay_length_minus1),
    list (hrdSubLayer s.sub_pic_hrd_params_present_flag) s.sub_layers]

/-- ranges -/
structure ValidHrdParameters (common max_sub : Nat) (s : HrdParameters) : Prop where
  nal_hrd_parameters_present_flag : Opt (common ≠ 0) (s.nal_hrd_parameters_present_flag < 2 ^ 1) (s.nal_hrd_parameters_present_flag = 0)
  vcl_hrd_parameters_present_flag : Opt (common ≠ 0) (s.vcl_hrd_parameters_present_flag < 2 ^ 1) (s.vcl_hrd_parameters_present_flag = 0)
  sub_pic_hrd_params_present_flag : Opt (common ≠ 0 ∧ (s.nal_hrd_parameters_present_flag ≠ 0 ∨ s.vcl_hrd_parameters_present_flag ≠ 0)) (s.sub_pic_hrd_params_present_flag < 2 ^ 1) (s.sub_pic_hrd_params_present_flag = 0)
  tick_divisor_minus2 : Opt (common ≠ 0 ∧ (s.nal_hrd_parameters_present_flag ≠ 0 ∨ s.vcl_hrd_parameters_present_flag ≠ 0) ∧ s.sub_pic_hrd_params_present_flag ≠ 0) (s.tick_divisor_minus2 < 2 ^ 8) (s.tick_divisor_minus2 = 0)
  du_cpb_removal_delay_increment_length_minus1 : Opt (common ≠ 0 ∧ (s.nal_hrd_parameters_present_flag ≠ 0 ∨ s.vcl_hrd_parameters_present_flag ≠ 0) ∧ s.sub_pic_hrd_params_present_flag ≠ 0) (s.du_cpb_removal_delay_increment_length_minus1 < 2 ^ 5) (s.du_cpb_removal_delay_increment_length_minus1 = 0)
  sub_pic_cpb_params_in_pic_timing_sei_flag : Opt (common ≠ 0 ∧ (s.nal_hrd_parameters_present_flag ≠ 0 ∨ s.vcl_hrd_parameters_present_flag ≠ 0) ∧ s.sub_pic_hrd_params_present_flag ≠ 0) (s.sub_pic_cpb_params_in_pic_timing_sei_flag < 2 ^ 1) (s.sub_pic_cpb_params_in_pic_timing_sei_flag = 0)
  dpb_output_delay_du_length_minus1 : Opt (common ≠ 0 ∧ (s.nal_hrd_parameters_present_flag ≠ 0 ∨ s.vcl_hrd_parameters_present_flag ≠ 0) ∧ s.sub_pic_hrd_params_present_flag ≠ 0) (s.dpb_output_delay_du_length_minus1 < 2 ^ 5) (s.dpb_output_delay_du_length_minus1 = 0)
  bit_rate_scale : Opt (common ≠ 0 ∧ (s.nal_hrd_parameters_present_flag ≠ 0 ∨ s.vcl_hrd_parameters_present_flag ≠ 0)) (s.bit_rate_scale < 2 ^ 4) (s.bit_rate_scale = 0)
  cpb_size_scale : Opt (common ≠ 0 ∧ (s.nal_hrd_parameters_present_flag ≠ 0 ∨ s.vcl_hrd_parameters_present_flag ≠ 0)) (s.cpb_size_scale < 2 ^ 4) (s.cpb_size_scale = 0)
  cpb_size_du_scale : Opt (common ≠ 0 ∧ (s.nal_hrd_parameters_present_flag ≠ 0 ∨ s.vcl_hrd_parameters_present_flag ≠ 0) ∧ s.sub_pic_hrd_params_present_flag ≠ 0) (s.cpb_size_du_scale < 2 ^ 4) (s.cpb_size_du_scale = 0)
  initial_cpb_removal_delay_length_minus1 : Opt (common ≠ 0 ∧ (s.nal_hrd_parameters_present_flag ≠ 0 ∨ s.vcl_hrd_parameters_present_flag ≠ 0)) (s.initial_cpb_removal_delay_length_minus1 < 2 ^ 5) (s.initial_cpb_removal_delay_length_minus1 = 0)
  au_cpb_removal_delay_length_minus1 : Opt (common ≠ 0 ∧ (s.nal_hrd_parameters_present_flag ≠ 0 ∨ s.vcl_hrd_parameters_present_flag ≠ 0)) (s.au_cpb_removal_delay_length_minus1 < 2 ^ 5) (s.au_cpb_removal_delay_length_minus1 = 0)
  dpb_output_delay_length_minus1 : Opt (common ≠ 0 ∧ (s.nal_hrd_parameters_present_flag ≠ 0 ∨ s.vcl_hrd_parameters_present_flag ≠ 0)) (s.dpb_output_delay_length_minus1 < 2 ^ 5) (s.dpb_output_delay_length_minus1 = 0)
  sub_layers : Each (max_sub + 1) (ValidHrdSubLayer s.nal_hrd_parameters_present_flag s.vcl_hrd_parameters_present_flag s.sub_pic_hrd_params_present_flag) s.sub_layers
end Spec

end H265
