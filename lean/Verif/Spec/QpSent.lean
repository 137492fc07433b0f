/-
Specification for C79: the slice QPs of a conforming sequence of NAL units.  Not a model of code.
-/
import Verif.Spec.StdStream

set_option autoImplicit false

namespace H265.Std
open Spec

/-- clause 7.4.7.1: SliceQpY = 26 + init_qp_minus26 + slice_qp_delta, with the PPS the slice names among the parameter sets `d`.  A dependent slice segment has no
slice_qp_delta of its own (it stands as 0 in the contents). -/
def sentQp (d : StdParams) : StdUnit → Option Int
  | .slice hd s _ => (d.pps hd.slice_pic_parameter_set_id).map fun P => 26 + P.head.init_qp_minus26 + s.slice_qp_delta
  | _ => none

/-- the values of all the slices, in order, each with the parameter sets received before it -/
def sentQps : StdParams → List StdNal → List Int
  | _, [] => []
  | d, x :: l => (sentQp d x.unit).toList ++ sentQps (d.after x.unit) l

/-- No PPS that comes after a slice has the id of the PPS the slice uses and another init_qp_minus26. -/
def NoOtherQpLater : StdParams → List StdNal → Prop
  | _, [] => True
  | d, x :: l =>
    (∀ hd s e P, x.unit = .slice hd s e → d.pps hd.slice_pic_parameter_set_id = some P →
      ∀ y ∈ l, ∀ Q, y.unit = .pps Q → Q.head.pps_pic_parameter_set_id = hd.slice_pic_parameter_set_id → Q.head.init_qp_minus26 = P.head.init_qp_minus26) ∧
    NoOtherQpLater (d.after x.unit) l

end H265.Std
