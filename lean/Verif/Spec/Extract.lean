/-
Specification for C97: a part of a stream (one layer, some temporal sub-layers, ...) is extracted by a program that looks at NAL unit headers only.  Not a model of code:
a user of the library.
-/
import Verif.Spec.History
import Verif.Spec.Remux

set_option autoImplicit false

namespace H265.Spec
open H265

/-- The NAL units of a byte stream whose headers are chosen, behind start codes of four bytes; empty units are left out. -/
def extract (keep : NalUnitHeader → Bool) (data : List UInt8) : List UInt8 :=
  annexB (((nalUnitsOf data).filter fun x => decide (x ≠ []) && kept keep x).map fun x => (true, x))

/-- ids of parameter sets: those that are needed -/
structure Needed where
  vps : Nat → Prop
  sps : Nat → Prop
  pps : Nat → Prop

/-- The part that is kept can do without the rest: slices that are kept name PPSs that are needed, these name SPSs that are needed, and none of the NAL units removed
carries a parameter set with an id that is needed. -/
structure SelfContained (keep : NalUnitHeader → Bool) (u : Needed) (ns : List NalUnit) : Prop where
  slices : ∀ n ∈ ns, keep n.nal_unit_header = true → isSliceSegment n.nal_unit_header.nal_unit_type = true →
    ∃ h, n.nal_unit_payload.slice_segment_layer = some h ∧ u.pps h.head.slice_pic_parameter_set_id
  names : ∀ n ∈ ns, ∀ x, n.nal_unit_payload.pps = some x → u.pps x.body.head.pps_pic_parameter_set_id → u.sps x.body.head.pps_seq_parameter_set_id
  vps : ∀ n ∈ ns, keep n.nal_unit_header = false → ∀ x, n.nal_unit_payload.vps = some x → ¬ u.vps x.body.vps_video_parameter_set_id
  sps : ∀ n ∈ ns, keep n.nal_unit_header = false → ∀ x, n.nal_unit_payload.sps = some x → ¬ u.sps x.body.sps_seq_parameter_set_id
  pps : ∀ n ∈ ns, keep n.nal_unit_header = false → ∀ x, n.nal_unit_payload.pps = some x → ¬ u.pps x.body.head.pps_pic_parameter_set_id

/-- two states hold the same under the ids that are needed -/
structure SameNeeded (u : Needed) (a b : ParserState) : Prop where
  vps : ∀ i, u.vps i → a.vps i = b.vps i
  sps : ∀ i, u.sps i → a.sps i = b.sps i
  pps : ∀ i, u.pps i → a.pps i = b.pps i

/-- the PPSs needed that a state holds name SPSs that are needed (so for the empty state) -/
def Needed.ClosedIn (u : Needed) (a : ParserState) : Prop := ∀ i x, u.pps i → a.pps i = some x → u.sps x.body.head.pps_seq_parameter_set_id

end H265.Spec
