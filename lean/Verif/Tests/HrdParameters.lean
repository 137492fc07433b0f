import Verif.Model.Fuzz
import Verif.Model.Printable

/-! The assertions of `/repo/test/h265_hrd_parameters_parser_unittest.cc` run on the model by the kernel. This is
validation of the transcription, not proof: each `example` is one unit test, its bytes and its
expectations copied from the test file. -/

set_option autoImplicit false
set_option maxRecDepth 100000
set_option maxHeartbeats 0
set_option linter.unusedVariables false

namespace H265.Tests

open H265

/-- `test/h265_hrd_parameters_parser_unittest.cc:21` `TestSampleHrdParameters` (26 expectations). -/
example : (
  match parseHrdParametersBytes [128, 23, 121, 68, 0, 5, 184, 216, 0, 7, 161, 32, 64, 0] 1 0 with
  | .ok v1 _ =>
    [true, v1.nal_hrd_parameters_present_flag == 1, v1.vcl_hrd_parameters_present_flag == 0, v1.sub_pic_hrd_params_present_flag == 0,
      v1.tick_divisor_minus2 == 0, v1.du_cpb_removal_delay_increment_length_minus1 == 0, v1.sub_pic_cpb_params_in_pic_timing_sei_flag == 0,
      v1.dpb_output_delay_du_length_minus1 == 0, v1.bit_rate_scale == 0, v1.cpb_size_scale == 0, v1.cpb_size_du_scale == 0,
      v1.initial_cpb_removal_delay_length_minus1 == 23, v1.au_cpb_removal_delay_length_minus1 == 15, v1.dpb_output_delay_length_minus1 == 5,
      (v1.sub_layers.map (·.fixed_pic_rate_general_flag)) == [0], (v1.sub_layers.map (·.fixed_pic_rate_within_cvs_flag)) == [0],
      (v1.sub_layers.map (·.elemental_duration_in_tc_minus1)) == [0], (v1.sub_layers.map (·.low_delay_hrd_flag)) == [0],
      (v1.sub_layers.map (·.cpb_cnt_minus1)) == [0], (v1.sub_layers.filterMap (fun y => y.nal_hrd.or y.vcl_hrd)).length == 1,
      (v1.sub_layers.filterMap (fun y => y.nal_hrd.or y.vcl_hrd))[0]?.isSome,
      ((v1.sub_layers.filterMap (fun y => y.nal_hrd.or y.vcl_hrd))[0]?.map fun x => x.map (·.bit_rate_value_minus1)) == some [46874],
      ((v1.sub_layers.filterMap (fun y => y.nal_hrd.or y.vcl_hrd))[0]?.map fun x => x.map (·.cpb_size_value_minus1)) == some [124999],
      ((v1.sub_layers.filterMap (fun y => y.nal_hrd.or y.vcl_hrd))[0]?.map fun x => x.map (·.cpb_size_du_value_minus1)) == some [0],
      ((v1.sub_layers.filterMap (fun y => y.nal_hrd.or y.vcl_hrd))[0]?.map fun x => x.map (·.bit_rate_du_value_minus1)) == some [0],
      ((v1.sub_layers.filterMap (fun y => y.nal_hrd.or y.vcl_hrd))[0]?.map fun x => x.map (·.cbr_flag)) == some [0]].all id
  | _ => false) = true := by
  decide +kernel

end H265.Tests
