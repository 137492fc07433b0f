import Verif.Model.Fuzz
import Verif.Model.Printable

/-! The assertions of `/repo/test/h265_st_ref_pic_set_parser_unittest.cc` run on the model by the kernel. This is
validation of the transcription, not proof: each `example` is one unit test, its bytes and its
expectations copied from the test file. -/

set_option autoImplicit false
set_option maxRecDepth 100000
set_option maxHeartbeats 0
set_option linter.unusedVariables false

namespace H265.Tests

open H265

/-- `test/h265_st_ref_pic_set_parser_unittest.cc:22` `TestSampleStRefPicSet` (5 expectations). -/
example : (
  let o1 : Sps := { (default : Sps) with body := { (default : Sps).body with num_short_term_ref_pic_sets := 0 } }
  match parseStRefPicSetBytes [93] 0 1 [] 1 with
  | .ok v2 _ =>
    [true, v2.num_negative_pics == 1, v2.num_positive_pics == 0, (v2.s0.map (·.delta_poc_minus1)) == [0], (v2.s0.map (·.delta_poc_minus1)) == [0]].all id
  | _ => false) = true := by
  decide +kernel

/-- `test/h265_st_ref_pic_set_parser_unittest.cc:44` `TestDeriveValuesOobBoundsCheck` (1 expectation, transcribed by hand): `DeriveValues`
called directly with a reference of 16 pictures. -/
example : (
  let ref : StRefPicSet := { (default : StRefPicSet) with
    num_negative_pics := 8, num_positive_pics := 8, s0 := List.replicate 8 ⟨0, 1⟩, s1 := List.replicate 8 ⟨0, 1⟩ }
  match (deriveValues ref 1 99 (List.replicate 17 ⟨1, 1⟩)).run (BB.init []) with
  | .fail _ => true
  | _ => false) = true := by
  decide +kernel

end H265.Tests
