import Verif.Model.Fuzz
import Verif.Model.Printable

/-! The assertions of `/repo/test/h265_slice_parser_unittest.cc` run on the model by the kernel. This is
validation of the transcription, not proof: each `example` is one unit test, its bytes and its
expectations copied from the test file. -/

set_option autoImplicit false
set_option maxRecDepth 100000
set_option maxHeartbeats 0
set_option linter.unusedVariables false

namespace H265.Tests

open H265

/-- `test/h265_slice_parser_unittest.cc:26` `TestSampleSlice` (8 expectations). -/
example : (
  let st1 : ParserState := { ParserState.empty with vps := mapSet ParserState.empty.vps 0 (default : Vps) }
  let o2 : Sps := { (default : Sps) with body := { (default : Sps).body with sample_adaptive_offset_enabled_flag := 1 } }
  let o3 : Sps := { o2 with body := { o2.body with chroma_format_idc := 1 } }
  let st4 : ParserState := { st1 with sps := mapSet st1.sps 0 o3 }
  let st5 : ParserState := { st4 with pps := mapSet st4.pps 0 (default : Pps) }
  match parseSliceSegmentLayerBytes [175, 9, 64, 243, 184, 213, 57, 186, 31, 228, 166, 8, 92, 110, 177, 143, 0, 56, 241, 166, 252, 241, 64, 4, 58, 134, 203, 144, 116, 206, 240, 70, 97, 147, 114, 214, 252, 53, 227, 197] 19 st5 with
  | .ok v6 _ =>
    [true, (v6).head.first_slice_segment_in_pic_flag == 1, (v6).head.no_output_of_prior_pics_flag == 0, (v6).head.slice_pic_parameter_set_id == 0,
      (v6).body.slice_type == 2, (v6).body.slice_sao_luma_flag == 1, (v6).body.slice_sao_chroma_flag == 1, (v6).body.slice_qp_delta == 9].all id
  | _ => false) = true := by
  decide +kernel

/-- `test/h265_slice_parser_unittest.cc:77` `TestSampleSlice2` (9 expectations). -/
example : (
  let st1 : ParserState := { ParserState.empty with vps := mapSet ParserState.empty.vps 0 (default : Vps) }
  let o2 : Sps := { (default : Sps) with body := { (default : Sps).body with sample_adaptive_offset_enabled_flag := 1 } }
  let o3 : Sps := { o2 with body := { o2.body with chroma_format_idc := 1 } }
  let o4 : Sps := { o3 with body := { o3.body with log2_min_luma_coding_block_size_minus3 := 0 } }
  let o5 : Sps := { o4 with body := { o4.body with log2_diff_max_min_luma_coding_block_size := 2 } }
  let o6 : Sps := { o5 with body := { o5.body with pic_width_in_luma_samples := 1280 } }
  let o7 : Sps := { o6 with body := { o6.body with pic_height_in_luma_samples := 736 } }
  let st8 : ParserState := { st1 with sps := mapSet st1.sps 0 o7 }
  let st9 : ParserState := { st8 with pps := mapSet st8.pps 0 (default : Pps) }
  match parseSliceSegmentLayerBytes [38, 1, 32, 243, 195, 92, 253, 254, 214, 37, 188, 13, 177, 250, 129, 99, 222, 10, 196, 167, 234, 66, 137, 182, 30, 187, 94, 63, 253, 108, 138, 45] 19 st9 with
  | .ok v10 _ =>
    [true, (v10).head.first_slice_segment_in_pic_flag == 0, (v10).head.no_output_of_prior_pics_flag == 0, (v10).head.slice_pic_parameter_set_id == 0,
      (v10).body.slice_segment_address == 192, (v10).body.slice_type == 3, (v10).body.slice_sao_luma_flag == 1,
      (v10).body.slice_sao_chroma_flag == 0, (v10).body.slice_qp_delta == 15].all id
  | _ => false) = true := by
  decide +kernel

/-- `test/h265_slice_parser_unittest.cc:128` `TestSampleSlicePpsId15` (3 expectations). -/
example : (
  let st1 : ParserState := { ParserState.empty with vps := mapSet ParserState.empty.vps 0 (default : Vps) }
  let o2 : Sps := { (default : Sps) with body := { (default : Sps).body with sample_adaptive_offset_enabled_flag := 1 } }
  let o3 : Sps := { o2 with body := { o2.body with chroma_format_idc := 1 } }
  let o4 : Sps := { o3 with body := { o3.body with log2_min_luma_coding_block_size_minus3 := 0 } }
  let o5 : Sps := { o4 with body := { o4.body with log2_diff_max_min_luma_coding_block_size := 2 } }
  let o6 : Sps := { o5 with body := { o5.body with pic_width_in_luma_samples := 1280 } }
  let o7 : Sps := { o6 with body := { o6.body with pic_height_in_luma_samples := 736 } }
  let st8 : ParserState := { st1 with sps := mapSet st1.sps 0 o7 }
  let st9 : ParserState := { st8 with pps := mapSet st8.pps 15 (default : Pps) }
  match parseSliceSegmentLayerBytes [2, 1, 210, 120, 247, 85, 220, 191, 44, 68, 0, 65, 168, 209, 102, 68, 179, 18, 147, 188, 150, 84, 98, 66, 83, 238, 214, 20, 58, 244, 57, 253, 154, 97, 40, 226, 82, 123, 80, 72, 77, 28, 227, 197, 99, 230, 125, 165, 176, 135, 212, 95, 138, 7, 77, 153, 64, 204, 230, 33, 227, 72, 192, 6, 51, 44, 12, 4, 119, 57, 34, 182, 123, 225, 64, 89, 236, 25, 4, 252, 154, 165, 63, 58, 128, 90, 98, 61, 207, 193, 56, 227, 140, 237, 241, 68, 168, 84, 233, 22, 241, 34, 123, 134, 58, 138, 127, 155, 172, 100, 230, 162, 215, 15, 61, 110, 232, 194, 13, 167, 72, 189, 85, 83, 113, 137, 139, 130, 89, 92, 206, 24, 30, 165, 159, 205, 26, 221, 30, 129, 105, 61, 45, 45, 178, 171, 41, 220, 223, 101, 40, 72, 52, 70, 1, 86, 221, 174, 147, 25] 19 st9 with
  | .ok v10 _ =>
    [true, true, (v10).nal_unit_type == 19].all id
  | _ => false) = true := by
  decide +kernel

/-- `test/h265_slice_parser_unittest.cc:179` `TestSliceContainsShortTermRefPicSet` (8 expectations). -/
example : (
  match parseNalUnit true ParserState.empty [64, 1, 12, 1, 255, 255, 1, 96, 0, 0, 3, 0, 176, 0, 0, 3, 0, 0, 3, 0, 150, 112, 32, 0] with
  | .ok (v1, st2) _ =>
    match parseNalUnit true st2 [66, 1, 1, 1, 96, 0, 0, 3, 0, 176, 0, 0, 3, 0, 0, 3, 0, 150, 160, 5, 130, 0, 80, 22, 32, 94, 228, 89, 20, 191, 242, 231, 241, 63, 169, 184, 16, 0, 0, 0] with
    | .ok (v3, st4) _ =>
      match parseNalUnit true st4 [68, 1, 192, 114, 240, 83, 36] with
      | .ok (v5, st6) _ =>
        [(st6.vps 0).isSome, (st6.sps 0).isSome, (st6.pps 0).isSome].all id &&
        (
          match parseNalUnit true st6 [2, 1, 208, 83, 23, 98, 10, 5, 2, 112, 52, 56, 86, 14, 195, 72, 124, 191, 157, 170, 229, 81, 140, 139, 64, 145, 189, 158, 73, 149, 26, 97, 144, 111, 66, 37, 25, 80, 230, 251, 93, 79, 18, 114, 68, 220, 108, 150, 10, 189, 126, 135, 96, 192] with
          | .ok (v7, st8) _ =>
            [true, true, v7.nal_unit_payload.slice_segment_layer.isSome].all id &&
            (
              match (v7.nal_unit_payload.slice_segment_layer.map fun x => x) with
              | some slice_segment_header_9 =>
                [true, slice_segment_header_9.body.num_entry_point_offsets == 39].all id
              | _ => false)
          | _ => false)
      | _ => false
    | _ => false
  | _ => false) = true := by
  decide +kernel

end H265.Tests
