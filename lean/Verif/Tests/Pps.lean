import Verif.Model.Fuzz
import Verif.Model.Printable

/-! The assertions of `/repo/test/h265_pps_parser_unittest.cc` run on the model by the kernel. This is
validation of the transcription, not proof: each `example` is one unit test, its bytes and its
expectations copied from the test file. -/

set_option autoImplicit false
set_option maxRecDepth 100000
set_option maxHeartbeats 0
set_option linter.unusedVariables false

namespace H265.Tests

open H265

/-- `test/h265_pps_parser_unittest.cc:21` `TestSamplePPS` (30 expectations). -/
example : (
  match parsePpsBytes [192, 243, 192, 2, 16, 0] with
  | .ok v1 _ =>
    [true, v1.body.head.pps_pic_parameter_set_id == 0, v1.body.head.pps_seq_parameter_set_id == 0,
      v1.body.head.dependent_slice_segments_enabled_flag == 0, v1.body.head.output_flag_present_flag == 0,
      v1.body.head.num_extra_slice_header_bits == 0, v1.body.head.sign_data_hiding_enabled_flag == 0, v1.body.head.cabac_init_present_flag == 1,
      v1.body.head.num_ref_idx_l0_default_active_minus1 == 0, v1.body.head.num_ref_idx_l1_default_active_minus1 == 0,
      v1.body.head.init_qp_minus26 == 0, v1.body.head.constrained_intra_pred_flag == 0, v1.body.head.transform_skip_enabled_flag == 0,
      v1.body.head.cu_qp_delta_enabled_flag == 1, v1.body.head.diff_cu_qp_delta_depth == 0, v1.body.head.pps_cb_qp_offset == 0,
      v1.body.head.pps_cr_qp_offset == 0, v1.body.head.pps_slice_chroma_qp_offsets_present_flag == 0, v1.body.head.weighted_pred_flag == 0,
      v1.body.head.weighted_bipred_flag == 0, v1.body.head.transquant_bypass_enabled_flag == 0, v1.body.head.tiles_enabled_flag == 0,
      v1.body.head.entropy_coding_sync_enabled_flag == 0, v1.body.head.pps_loop_filter_across_slices_enabled_flag == 0,
      v1.body.head.deblocking_filter_control_present_flag == 0, v1.body.head.pps_scaling_list_data_present_flag == 0,
      v1.body.head.lists_modification_present_flag == 0, v1.body.head.log2_parallel_merge_level_minus2 == 3,
      v1.body.head.slice_segment_header_extension_present_flag == 0, v1.body.head.pps_extension_present_flag == 0].all id
  | _ => false) = true := by
  decide +kernel

end H265.Tests
