import Verif.Model.Fuzz
import Verif.Model.Printable

/-! The assertions of `/repo/test/h265_sps_3d_extension_parser_unittest.cc` run on the model by the kernel. This is
validation of the transcription, not proof: each `example` is one unit test, its bytes and its
expectations copied from the test file. -/

set_option autoImplicit false
set_option maxRecDepth 100000
set_option maxHeartbeats 0
set_option linter.unusedVariables false

namespace H265.Tests

open H265

/-- `test/h265_sps_3d_extension_parser_unittest.cc:21` `TestSampleSps3dExtension` (15 expectations). -/
example : (
  match parseSps3dExtensionBytes [255, 255] with
  | .ok v1 _ =>
    [true, ([v1.iv_di_mc_enabled_flag_0, v1.iv_di_mc_enabled_flag_1]) == [1, 1],
      ([v1.iv_mv_scal_enabled_flag_0, v1.iv_mv_scal_enabled_flag_1]) == [1, 1], v1.log2_ivmc_sub_pb_size_minus3 == 0,
      v1.iv_res_pred_enabled_flag == 1, v1.depth_ref_enabled_flag == 1, v1.vsp_mc_enabled_flag == 1, v1.dbbp_enabled_flag == 1,
      v1.tex_mc_enabled_flag == 1, v1.log2_texmc_sub_pb_size_minus3 == 0, v1.intra_contour_enabled_flag == 1,
      v1.intra_dc_only_wedge_enabled_flag == 1, v1.cqt_cu_part_pred_enabled_flag == 1, v1.inter_dc_only_enabled_flag == 1,
      v1.skip_intra_enabled_flag == 1].all id
  | _ => false) = true := by
  decide +kernel

end H265.Tests
