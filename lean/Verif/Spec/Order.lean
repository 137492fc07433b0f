/-
Specification for C73: the order of NAL units.  Not a model of code: a user's view of a sequence of NAL units.
-/
import Verif.Spec.History

set_option autoImplicit false

namespace H265.Spec
open H265

/-- NAL units parsed one after the other, starting in one state and ending in another, each with what is reported for it -/
inductive Reports (cs : Bool) : ParserState → List (List UInt8 × NalUnit) → ParserState → Prop
  | nil (st) : Reports cs st [] st
  | cons {st st1 st2 : ParserState} {x : List UInt8} {n : NalUnit} {e : BB} {l : List (List UInt8 × NalUnit)} :
      parseNalUnit cs st x = .ok (n, st1) e → Reports cs st1 l st2 → Reports cs st ((x, n) :: l) st2

/-- the two payloads have no different parameter sets for the same id -/
structure NoClash (p q : NalUnitPayload) : Prop where
  vps : ∀ x y, p.vps = some x → q.vps = some y → x.body.vps_video_parameter_set_id = y.body.vps_video_parameter_set_id → x = y
  sps : ∀ x y, p.sps = some x → q.sps = some y → x.body.sps_seq_parameter_set_id = y.body.sps_seq_parameter_set_id → x = y
  pps : ∀ x y, p.pps = some x → q.pps = some y → x.body.head.pps_pic_parameter_set_id = y.body.head.pps_pic_parameter_set_id → x = y

/-- `n` is no slice, or a slice with its header, and `q` has neither the PPS that is named in it nor the SPS that is named in that PPS -/
def Untouched (st : ParserState) (n : NalUnit) (q : NalUnitPayload) : Prop :=
  isSliceSegment n.nal_unit_header.nal_unit_type = true → ∃ h, n.nal_unit_payload.slice_segment_layer = some h ∧
    (∀ P, q.pps = some P → P.body.head.pps_pic_parameter_set_id ≠ h.head.slice_pic_parameter_set_id) ∧
    (∀ S, q.sps = some S → ∀ P, st.pps h.head.slice_pic_parameter_set_id = some P → S.body.sps_seq_parameter_set_id ≠ P.body.head.pps_seq_parameter_set_id)

/-- two NAL units that follow one another, the first parsed in state `st`, and do not depend on one another -/
structure Independent (st : ParserState) (n m : NalUnit) : Prop where
  clash : NoClash n.nal_unit_payload m.nal_unit_payload
  left : Untouched st n m.nal_unit_payload
  right : Untouched st m n.nal_unit_payload

/-- the same NAL units in another order, made by exchanging neighbours that do not depend on one another -/
inductive Reordered (cs : Bool) : ParserState → List (List UInt8 × NalUnit) → List (List UInt8 × NalUnit) → Prop
  | refl (st l) : Reordered cs st l l
  | later {st st1 : ParserState} {x : List UInt8} {n : NalUnit} {e : BB} {l l' : List (List UInt8 × NalUnit)} :
      parseNalUnit cs st x = .ok (n, st1) e → Reordered cs st1 l l' → Reordered cs st ((x, n) :: l) ((x, n) :: l')
  | swap {st : ParserState} {x y : List UInt8} {n m : NalUnit} (l : List (List UInt8 × NalUnit)) :
      Independent st n m → Reordered cs st ((x, n) :: (y, m) :: l) ((y, m) :: (x, n) :: l)
  | trans {st : ParserState} {l1 l2 l3 : List (List UInt8 × NalUnit)} : Reordered cs st l1 l2 → Reordered cs st l2 l3 → Reordered cs st l1 l3

/-- no dependence in any state: no different parameter sets for the same id, and no slice without header, nor a slice together with a PPS or SPS -/
structure Unrelated (n m : NalUnit) : Prop where
  clash : NoClash n.nal_unit_payload m.nal_unit_payload
  slice : isSliceSegment n.nal_unit_header.nal_unit_type = true → n.nal_unit_payload.slice_segment_layer ≠ none ∧ m.nal_unit_payload.sps = none ∧ m.nal_unit_payload.pps = none

end H265.Spec
