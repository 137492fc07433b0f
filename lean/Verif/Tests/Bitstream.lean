import Verif.Model.Fuzz
import Verif.Model.Printable

/-! The assertions of `/repo/test/h265_bitstream_parser_unittest.cc` run on the model by the kernel. This is
validation of the transcription, not proof: each `example` is one unit test, its bytes and its
expectations copied from the test file. -/

set_option autoImplicit false
set_option maxRecDepth 100000
set_option maxHeartbeats 0
set_option linter.unusedVariables false

namespace H265.Tests

open H265

/-- `test/h265_bitstream_parser_unittest.cc:57` `TestSampleBitstream` (22 expectations). -/
example : (
  match parseBitstream true ParserState.empty [0, 0, 0, 1, 64, 1, 12, 1, 255, 255, 1, 96, 0, 0, 3, 0, 176, 0, 0, 3, 0, 0, 3, 0, 93, 172, 89, 0, 0, 0, 1, 66, 1, 1, 1, 96, 0, 0, 3, 0, 176, 0, 0, 3, 0, 0, 3, 0, 93, 160, 2, 128, 128, 46, 31, 19, 150, 187, 147, 36, 187, 149, 130, 131, 3, 1, 118, 133, 9, 64, 0, 0, 0, 1, 68, 1, 192, 243, 192, 2, 16, 0, 0, 0, 1, 38, 1, 175, 9, 64, 243, 184, 213, 57, 186, 31, 228, 166, 8, 92, 110, 177, 143, 0, 56, 241, 166, 252, 241, 64, 4, 58, 134, 203, 144, 116, 206, 240, 70, 97, 147, 114, 214, 252, 53, 227, 197, 111, 10, 196, 158, 39, 196, 219, 227, 251, 56, 152, 208, 139, 213, 185, 185, 21, 180, 146, 73, 151, 229, 61, 54, 77, 69, 50, 92, 230, 137, 83, 118, 206, 187, 131, 161, 39, 53, 251, 243, 199, 212, 133, 50, 55, 148, 9, 236, 16] with
  | .ok (v1, st2) =>
    [true, v1.length == 4, ((v1[0]?.map fun x => x.nal_unit_header).map fun x => x.forbidden_zero_bit) == some 0,
      ((v1[0]?.map fun x => x.nal_unit_header).map fun x => x.nal_unit_type) == some 32,
      ((v1[0]?.map fun x => x.nal_unit_header).map fun x => x.nuh_layer_id) == some 0,
      ((v1[0]?.map fun x => x.nal_unit_header).map fun x => x.nuh_temporal_id_plus1) == some 1,
      (v1[0]?.bind fun x => x.checksum) == some [191, 162, 69, 148],
      ((v1[1]?.map fun x => x.nal_unit_header).map fun x => x.forbidden_zero_bit) == some 0,
      ((v1[1]?.map fun x => x.nal_unit_header).map fun x => x.nal_unit_type) == some 33,
      ((v1[1]?.map fun x => x.nal_unit_header).map fun x => x.nuh_layer_id) == some 0,
      ((v1[1]?.map fun x => x.nal_unit_header).map fun x => x.nuh_temporal_id_plus1) == some 1,
      (v1[1]?.bind fun x => x.checksum) == some [0, 61, 194, 157],
      ((v1[2]?.map fun x => x.nal_unit_header).map fun x => x.forbidden_zero_bit) == some 0,
      ((v1[2]?.map fun x => x.nal_unit_header).map fun x => x.nal_unit_type) == some 34,
      ((v1[2]?.map fun x => x.nal_unit_header).map fun x => x.nuh_layer_id) == some 0,
      ((v1[2]?.map fun x => x.nal_unit_header).map fun x => x.nuh_temporal_id_plus1) == some 1,
      (v1[2]?.bind fun x => x.checksum) == some [251, 252, 47, 11],
      ((v1[3]?.map fun x => x.nal_unit_header).map fun x => x.forbidden_zero_bit) == some 0,
      ((v1[3]?.map fun x => x.nal_unit_header).map fun x => x.nal_unit_type) == some 19,
      ((v1[3]?.map fun x => x.nal_unit_header).map fun x => x.nuh_layer_id) == some 0,
      ((v1[3]?.map fun x => x.nal_unit_header).map fun x => x.nuh_temporal_id_plus1) == some 1,
      (v1[3]?.bind fun x => x.checksum) == some [108, 136, 12, 228]].all id
  | _ => false) = true := by
  decide +kernel

/-- `test/h265_bitstream_parser_unittest.cc:135` `TestSampleBitstreamAlt` (18 expectations). -/
example : (
  match parseBitstreamFresh true [0, 0, 0, 1, 64, 1, 12, 1, 255, 255, 1, 96, 0, 0, 3, 0, 176, 0, 0, 3, 0, 0, 3, 0, 93, 172, 89, 0, 0, 0, 1, 66, 1, 1, 1, 96, 0, 0, 3, 0, 176, 0, 0, 3, 0, 0, 3, 0, 93, 160, 2, 128, 128, 46, 31, 19, 150, 187, 147, 36, 187, 149, 130, 131, 3, 1, 118, 133, 9, 64, 0, 0, 0, 1, 68, 1, 192, 243, 192, 2, 16, 0, 0, 0, 1, 38, 1, 175, 9, 64, 243, 184, 213, 57, 186, 31, 228, 166, 8, 92, 110, 177, 143, 0, 56, 241, 166, 252, 241, 64, 4, 58, 134, 203, 144, 116, 206, 240, 70, 97, 147, 114, 214, 252, 53, 227, 197, 111, 10, 196, 158, 39, 196, 219, 227, 251, 56, 152, 208, 139, 213, 185, 185, 21, 180, 146, 73, 151, 229, 61, 54, 77, 69, 50, 92, 230, 137, 83, 118, 206, 187, 131, 161, 39, 53, 251, 243, 199, 212, 133, 50, 55, 148, 9, 236, 16] with
  | .ok v1 =>
    [true, v1.length == 4, (v1[0]?.map fun x => x.offset) == some 4, (v1[0]?.map fun x => x.length) == some 23,
      (v1[0]?.map fun x => x.parsed_length) == some 20, (v1[0]?.bind fun x => x.checksum) == some [191, 162, 69, 148],
      (v1[1]?.map fun x => x.offset) == some 31, (v1[1]?.map fun x => x.length) == some 39, (v1[1]?.map fun x => x.parsed_length) == some 36,
      (v1[1]?.bind fun x => x.checksum) == some [0, 61, 194, 157], (v1[2]?.map fun x => x.offset) == some 74,
      (v1[2]?.map fun x => x.length) == some 7, (v1[2]?.map fun x => x.parsed_length) == some 7,
      (v1[2]?.bind fun x => x.checksum) == some [251, 252, 47, 11], (v1[3]?.map fun x => x.offset) == some 85,
      (v1[3]?.map fun x => x.length) == some 91, (v1[3]?.map fun x => x.parsed_length) == some 5,
      (v1[3]?.bind fun x => x.checksum) == some [108, 136, 12, 228]].all id
  | _ => false) = true := by
  decide +kernel

/-- `test/h265_bitstream_parser_unittest.cc:289` `TestMultipleBuffers` (36 expectations). -/
example : (
  match parseBitstream true ParserState.empty [0, 0, 0, 1, 64, 1, 12, 1, 255, 255, 1, 96, 0, 0, 3, 0, 176, 0, 0, 3, 0, 0, 3, 0, 93, 172, 89, 0, 0, 0, 1, 66, 1, 1, 1, 96, 0, 0, 3, 0, 176, 0, 0, 3, 0, 0, 3, 0, 93, 160, 2, 128, 128, 46, 31, 19, 150, 187, 147, 36, 187, 149, 130, 131, 3, 1, 118, 133, 9, 64, 0, 0, 0, 1, 68, 1, 192, 243, 192, 2, 16, 0, 0, 0, 1, 38, 1, 175, 9, 64, 251, 39, 91, 253, 93, 194, 77, 232, 178, 15, 205, 104, 219, 195, 65, 18, 46, 19, 141, 223, 102, 201, 31, 170, 212, 155, 141, 221, 226, 161, 218, 46, 189, 83, 116, 209, 187, 222, 84, 143, 165, 231, 47, 204, 247, 152, 214, 51, 213, 6, 1, 82, 132, 188, 167, 230, 2, 127, 233, 80, 10, 154, 96, 137, 160, 192, 180, 109, 96, 83, 229, 221, 147, 222, 3, 255, 168, 176, 77, 39, 165, 130, 186, 172, 99, 139, 111, 105, 127, 147, 178, 227, 12, 253, 41, 68, 66, 167, 19, 233, 236, 55, 187, 147, 224, 98, 169, 164, 68, 69, 89, 22, 246, 182, 91, 58, 219, 195] with
  | .ok (v1, st2) =>
    [true, v1.length == 4, ((v1[0]?.map fun x => x.nal_unit_header).map fun x => x.forbidden_zero_bit) == some 0,
      ((v1[0]?.map fun x => x.nal_unit_header).map fun x => x.nal_unit_type) == some 32,
      ((v1[0]?.map fun x => x.nal_unit_header).map fun x => x.nuh_layer_id) == some 0,
      ((v1[0]?.map fun x => x.nal_unit_header).map fun x => x.nuh_temporal_id_plus1) == some 1,
      (v1[0]?.bind fun x => x.checksum) == some [191, 162, 69, 148],
      ((v1[1]?.map fun x => x.nal_unit_header).map fun x => x.forbidden_zero_bit) == some 0,
      ((v1[1]?.map fun x => x.nal_unit_header).map fun x => x.nal_unit_type) == some 33,
      ((v1[1]?.map fun x => x.nal_unit_header).map fun x => x.nuh_layer_id) == some 0,
      ((v1[1]?.map fun x => x.nal_unit_header).map fun x => x.nuh_temporal_id_plus1) == some 1,
      (v1[1]?.bind fun x => x.checksum) == some [0, 61, 194, 157],
      ((v1[2]?.map fun x => x.nal_unit_header).map fun x => x.forbidden_zero_bit) == some 0,
      ((v1[2]?.map fun x => x.nal_unit_header).map fun x => x.nal_unit_type) == some 34,
      ((v1[2]?.map fun x => x.nal_unit_header).map fun x => x.nuh_layer_id) == some 0,
      ((v1[2]?.map fun x => x.nal_unit_header).map fun x => x.nuh_temporal_id_plus1) == some 1,
      (v1[2]?.bind fun x => x.checksum) == some [251, 252, 47, 11],
      ((v1[3]?.map fun x => x.nal_unit_header).map fun x => x.forbidden_zero_bit) == some 0,
      ((v1[3]?.map fun x => x.nal_unit_header).map fun x => x.nal_unit_type) == some 19,
      ((v1[3]?.map fun x => x.nal_unit_header).map fun x => x.nuh_layer_id) == some 0,
      ((v1[3]?.map fun x => x.nal_unit_header).map fun x => x.nuh_temporal_id_plus1) == some 1,
      (v1[3]?.bind fun x => x.checksum) == some [9, 84, 169, 71]].all id &&
    (
      match parseBitstream true st2 [0, 0, 0, 1, 2, 1, 208, 15, 228, 22, 128, 244, 90, 180, 133, 107, 23, 170, 193, 148, 168, 159, 50, 17, 228, 68, 165, 253, 231, 128, 218, 234, 33, 76, 8, 35, 234, 88, 21, 163, 76, 26, 179, 128, 155, 99, 80, 17, 117, 154, 204, 6, 9, 105, 151, 117, 160, 2, 36, 34, 28, 6, 165, 105, 110, 186, 156, 121, 88, 30, 82, 168, 38, 254, 152, 111, 101, 238, 87, 16, 79, 103, 232, 67, 222, 142, 230, 64, 40, 54, 69, 6, 94, 232, 128, 52, 192, 6, 242, 22, 75, 120, 95, 152, 86, 204, 217, 89, 122, 243, 48, 93, 169, 199, 132, 74, 224, 22, 191, 7, 36, 50, 101, 189, 57, 226, 48, 191, 39, 211, 97, 37, 2, 174, 90, 161, 8, 155, 144, 20, 42, 9, 209, 74] with
      | .ok (v3, st4) =>
        [true, v3.length == 1, ((v3[0]?.map fun x => x.nal_unit_header).map fun x => x.forbidden_zero_bit) == some 0,
          ((v3[0]?.map fun x => x.nal_unit_header).map fun x => x.nal_unit_type) == some 1,
          ((v3[0]?.map fun x => x.nal_unit_header).map fun x => x.nuh_layer_id) == some 0,
          ((v3[0]?.map fun x => x.nal_unit_header).map fun x => x.nuh_temporal_id_plus1) == some 1,
          (v3[0]?.bind fun x => x.checksum) == some [217, 191, 161, 232]].all id &&
        (
          match parseBitstream true st4 [0, 0, 0, 1, 2, 1, 208, 23, 228, 8, 32, 252, 193, 245, 136, 64, 207, 240, 0, 0, 3, 0, 5, 224, 70, 157, 144, 161, 152, 67, 40, 72, 233, 198, 243, 17, 235, 41, 25, 205, 52, 133, 139, 197, 33, 245, 90, 70, 215, 90, 165, 52, 166, 173, 145, 214, 94, 113, 24, 148, 233, 68, 42, 132, 4, 44, 128, 176, 180, 3, 240, 160, 230, 230, 20, 179, 242, 250, 87, 94, 41, 209, 225, 77, 155, 23, 234, 248, 92, 213, 10, 114, 230, 94, 66, 237, 221, 190, 100, 56, 4, 93, 132, 199, 2, 176, 80, 33, 63, 2, 137, 131] with
          | .ok (v5, st6) =>
            [true, v5.length == 1, ((v5[0]?.map fun x => x.nal_unit_header).map fun x => x.forbidden_zero_bit) == some 0,
              ((v5[0]?.map fun x => x.nal_unit_header).map fun x => x.nal_unit_type) == some 1,
              ((v5[0]?.map fun x => x.nal_unit_header).map fun x => x.nuh_layer_id) == some 0,
              ((v5[0]?.map fun x => x.nal_unit_header).map fun x => x.nuh_temporal_id_plus1) == some 1,
              (v5[0]?.bind fun x => x.checksum) == some [130, 42, 255, 28]].all id
          | _ => false)
      | _ => false)
  | _ => false) = true := by
  decide +kernel

/-- `test/h265_bitstream_parser_unittest.cc:413` `TestMultipleBuffersGetSliceQpY` (6 expectations). -/
example : (
  match getSliceQpY ParserState.empty [0, 0, 0, 1, 64, 1, 12, 1, 255, 255, 1, 96, 0, 0, 3, 0, 176, 0, 0, 3, 0, 0, 3, 0, 93, 172, 89, 0, 0, 0, 1, 66, 1, 1, 1, 96, 0, 0, 3, 0, 176, 0, 0, 3, 0, 0, 3, 0, 93, 160, 2, 128, 128, 46, 31, 19, 150, 187, 147, 36, 187, 149, 130, 131, 3, 1, 118, 133, 9, 64, 0, 0, 0, 1, 68, 1, 192, 243, 192, 2, 16, 0, 0, 0, 1, 38, 1, 175, 9, 64, 251, 39, 91, 253, 93, 194, 77, 232, 178, 15, 205, 104, 219, 195, 65, 18, 46, 19, 141, 223, 102, 201, 31, 170, 212, 155, 141, 221, 226, 161, 218, 46, 189, 83, 116, 209, 187, 222, 84, 143, 165, 231, 47, 204, 247, 152, 214, 51, 213, 6, 1, 82, 132, 188, 167, 230, 2, 127, 233, 80, 10, 154, 96, 137, 160, 192, 180, 109, 96, 83, 229, 221, 147, 222, 3, 255, 168, 176, 77, 39, 165, 130, 186, 172, 99, 139, 111, 105, 127, 147, 178, 227, 12, 253, 41, 68, 66, 167, 19, 233, 236, 55, 187, 147, 224, 98, 169, 164, 68, 69, 89, 22, 246, 182, 91, 58, 219, 195] with
  | .ok (v1, st2) =>
    [v1.length == 1, v1[0]? == some 35].all id &&
    (
      match getSliceQpY st2 [0, 0, 0, 1, 2, 1, 208, 15, 228, 22, 128, 244, 90, 180, 133, 107, 23, 170, 193, 148, 168, 159, 50, 17, 228, 68, 165, 253, 231, 128, 218, 234, 33, 76, 8, 35, 234, 88, 21, 163, 76, 26, 179, 128, 155, 99, 80, 17, 117, 154, 204, 6, 9, 105, 151, 117, 160, 2, 36, 34, 28, 6, 165, 105, 110, 186, 156, 121, 88, 30, 82, 168, 38, 254, 152, 111, 101, 238, 87, 16, 79, 103, 232, 67, 222, 142, 230, 64, 40, 54, 69, 6, 94, 232, 128, 52, 192, 6, 242, 22, 75, 120, 95, 152, 86, 204, 217, 89, 122, 243, 48, 93, 169, 199, 132, 74, 224, 22, 191, 7, 36, 50, 101, 189, 57, 226, 48, 191, 39, 211, 97, 37, 2, 174, 90, 161, 8, 155, 144, 20, 42, 9, 209, 74] with
      | .ok (v3, st4) =>
        [v3.length == 1, v3[0]? == some 37].all id &&
        (
          match getSliceQpY st4 [0, 0, 0, 1, 2, 1, 208, 23, 228, 8, 32, 252, 193, 245, 136, 64, 207, 240, 0, 0, 3, 0, 5, 224, 70, 157, 144, 161, 152, 67, 40, 72, 233, 198, 243, 17, 235, 41, 25, 205, 52, 133, 139, 197, 33, 245, 90, 70, 215, 90, 165, 52, 166, 173, 145, 214, 94, 113, 24, 148, 233, 68, 42, 132, 4, 44, 128, 176, 180, 3, 240, 160, 230, 230, 20, 179, 242, 250, 87, 94, 41, 209, 225, 77, 155, 23, 234, 248, 92, 213, 10, 114, 230, 94, 66, 237, 221, 190, 100, 56, 4, 93, 132, 199, 2, 176, 80, 33, 63, 2, 137, 131] with
          | .ok (v5, st6) =>
            [v5.length == 1, v5[0]? == some 42].all id
          | _ => false)
      | _ => false)
  | _ => false) = true := by
  decide +kernel

end H265.Tests
