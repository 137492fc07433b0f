import Verif.Model.Fuzz
import Verif.Model.Printable

/-! The assertions of `/repo/test/h265_utils_unittest.cc` run on the model by the kernel. This is
validation of the transcription, not proof: each `example` is one unit test, its bytes and its
expectations copied from the test file. -/

set_option autoImplicit false
set_option maxRecDepth 100000
set_option maxHeartbeats 0
set_option linter.unusedVariables false

namespace H265.Tests

open H265

/-- `test/h265_utils_unittest.cc:25` `TestGetSliceQpYIFrame` (2 expectations). -/
example : (
  let st1 : ParserState := { ParserState.empty with vps := mapSet ParserState.empty.vps 0 (default : Vps) }
  let o2 : Sps := { (default : Sps) with body := { (default : Sps).body with sample_adaptive_offset_enabled_flag := 1 } }
  let o3 : Sps := { o2 with body := { o2.body with chroma_format_idc := 1 } }
  let st4 : ParserState := { st1 with sps := mapSet st1.sps 0 o3 }
  let o5 : Pps := { (default : Pps) with body := { (default : Pps).body with head := { (default : Pps).body.head with init_qp_minus26 := 0 } } }
  let st6 : ParserState := { st4 with pps := mapSet st4.pps 0 o5 }
  match getSliceQpY st6 [0, 0, 0, 1, 38, 1, 175, 9, 64, 251, 39, 91, 253, 93, 194, 77, 232, 178, 15, 205, 104, 219, 195, 65, 18, 46, 19, 141, 223, 102, 201, 31, 170, 212, 155, 141, 221, 226, 161, 218, 46, 189, 83, 116, 209, 187, 222, 84, 143, 165, 231, 47, 204, 247, 152, 214, 51, 213, 6, 1, 82, 132, 188, 167, 230, 2, 127, 233, 80, 10, 154, 96, 137, 160, 192, 180, 109, 96, 83, 229, 221, 147, 222, 3, 255, 168, 176, 77, 39, 165, 130, 186, 172, 99, 139, 111, 105, 127, 147, 178, 227, 12, 253, 41, 68, 66, 167, 19, 233, 236, 55, 187, 147, 224, 98, 169, 164, 68, 69, 89, 22, 246, 182, 91, 58, 219, 195] with
  | .ok (v7, st8) =>
    [v7.length == 1, v7[0]? == some 35].all id
  | _ => false) = true := by
  decide +kernel

/-- `test/h265_utils_unittest.cc:74` `TestGetSliceQpYIFrameBroken` (1 expectations). -/
example : (
  let st1 : ParserState := { ParserState.empty with vps := mapSet ParserState.empty.vps 0 (default : Vps) }
  let o2 : Sps := { (default : Sps) with body := { (default : Sps).body with sample_adaptive_offset_enabled_flag := 1 } }
  let o3 : Sps := { o2 with body := { o2.body with chroma_format_idc := 1 } }
  let st4 : ParserState := { st1 with sps := mapSet st1.sps 0 o3 }
  let o5 : Pps := { (default : Pps) with body := { (default : Pps).body with head := { (default : Pps).body.head with init_qp_minus26 := 0 } } }
  let st6 : ParserState := { st4 with pps := mapSet st4.pps 0 o5 }
  match getSliceQpY st6 [0, 0, 0, 1, 38, 1, 175] with
  | .ok (v7, st8) =>
    [v7.length == 0].all id
  | _ => false) = true := by
  decide +kernel

/-- `test/h265_utils_unittest.cc:103` `TestGetSliceQpYPFrame` (2 expectations). -/
example : (
  let st1 : ParserState := { ParserState.empty with vps := mapSet ParserState.empty.vps 0 (default : Vps) }
  let o2 : Sps := { (default : Sps) with body := { (default : Sps).body with sample_adaptive_offset_enabled_flag := 1 } }
  let o3 : Sps := { o2 with body := { o2.body with chroma_format_idc := 1 } }
  let o4 : Sps := { o3 with body := { o3.body with sub_layer_ordering := [⟨6, 0, 0⟩] } }
  let st5 : ParserState := { st1 with sps := mapSet st1.sps 0 o4 }
  let o6 : Pps := { (default : Pps) with body := { (default : Pps).body with head := { (default : Pps).body.head with init_qp_minus26 := 0 } } }
  let st7 : ParserState := { st5 with pps := mapSet st5.pps 0 o6 }
  match getSliceQpY st7 [0, 0, 0, 1, 2, 1, 208, 15, 228, 22, 128, 244, 90, 180, 133, 107, 23, 170, 193, 148, 168, 159, 50, 17, 228, 68, 165, 253, 231, 128, 218, 234, 33, 76, 8, 35, 234, 88, 21, 163, 76, 26, 179, 128, 155, 99, 80, 17, 117, 154, 204, 6, 9, 105, 151, 117, 160, 2, 36, 34, 28, 6, 165, 105, 110, 186, 156, 121, 88, 30, 82, 168, 38, 254, 152, 111, 101, 238, 87, 16, 79, 103, 232, 67, 222, 142, 230, 64, 40, 54, 69, 6, 94, 232, 128, 52, 192, 6, 242, 22, 75, 120, 95, 152, 86, 204, 217, 89, 122, 243, 48, 93, 169, 199, 132, 74, 224, 22, 191, 7, 36, 50, 101, 189, 57, 226, 48, 191, 39, 211, 97, 37, 2, 174, 90, 161, 8, 155, 144, 20, 42, 9, 209, 74] with
  | .ok (v8, st9) =>
    [v8.length == 1, v8[0]? == some 26].all id
  | _ => false) = true := by
  decide +kernel

end H265.Tests
