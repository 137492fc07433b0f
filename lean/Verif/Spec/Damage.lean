/-
Specification for C93: the same sequence of NAL units, received with damage.  Not a model of code: a user's view of a session.
-/
import Verif.Spec.Sharing

set_option autoImplicit false

namespace H265.Spec
open H265

/-- ids of parameter sets: those that damage may have reached -/
structure Touched where
  vps : Nat → Prop
  sps : Nat → Prop
  pps : Nat → Prop

/-- the parameter sets in what is reported have touched ids -/
structure Touched.Covers (t : Touched) (o : Option NalUnit) : Prop where
  vps : ∀ n x, o = some n → n.nal_unit_payload.vps = some x → t.vps x.body.vps_video_parameter_set_id
  sps : ∀ n x, o = some n → n.nal_unit_payload.sps = some x → t.sps x.body.sps_seq_parameter_set_id
  pps : ∀ n x, o = some n → n.nal_unit_payload.pps = some x → t.pps x.body.head.pps_pic_parameter_set_id

/-- a PPS that names a touched SPS counts as touched -/
def Touched.Closed (t : Touched) (o : Option NalUnit) : Prop :=
  ∀ n x, o = some n → n.nal_unit_payload.pps = some x → t.sps x.body.head.pps_seq_parameter_set_id → t.pps x.body.head.pps_pic_parameter_set_id

/-- two states have the same parameter sets under the ids that are not touched, and the PPSs among them name SPSs that are not -/
structure SameOutside (t : Touched) (a b : ParserState) : Prop where
  vps : ∀ i, ¬ t.vps i → a.vps i = b.vps i
  sps : ∀ i, ¬ t.sps i → a.sps i = b.sps i
  pps : ∀ i, ¬ t.pps i → a.pps i = b.pps i
  closed : ∀ i P, ¬ t.pps i → a.pps i = some P → ¬ t.sps P.body.head.pps_seq_parameter_set_id

/-- a slice: if its header is reported, it names a touched PPS -/
def SliceOfTouched (t : Touched) (o : Option NalUnit) : Prop :=
  ∃ n, o = some n ∧ isSliceSegment n.nal_unit_header.nal_unit_type = true ∧
    ∀ h, n.nal_unit_payload.slice_segment_layer = some h → t.pps h.head.slice_pic_parameter_set_id

end H265.Spec
