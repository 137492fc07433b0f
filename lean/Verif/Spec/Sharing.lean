/-
Specification for C82: several sources of NAL units parsed with one parser state, in any interleaving.  Not a model of code: a user's view of a session.
-/
import Verif.Spec.Order
import Verif.Spec.StdReports

set_option autoImplicit false

namespace H265.Spec
open H265

/-- NAL units given one after the other to the parser with one parser state: one result for each, null results included, and the final state -/
def nalResults (cs : Bool) : List (List UInt8) → ParserState → Except Bad (List (Option NalUnit) × ParserState)
  | [], st => .ok ([], st)
  | nal :: rest, st =>
    match parseNalUnit cs st nal with
    | .bad k => .error k
    | .fail _ =>
      match nalResults cs rest st with
      | .error k => .error k
      | .ok (rs, st2) => .ok (none :: rs, st2)
    | .ok (n, st1) _ =>
      match nalResults cs rest st1 with
      | .error k => .error k
      | .ok (rs, st2) => .ok (some n :: rs, st2)

/-- what belongs to one source: the schedule says for each element which source it is from -/
def ofSource {α : Type} (t : Nat) (l : List (Nat × α)) : List α := (l.filter fun x => x.1 == t).map (·.2)

/-- the parameter sets of a state are parameter sets of another state, under the same ids -/
structure Contains (big small : ParserState) : Prop where
  vps : ∀ i x, small.vps i = some x → big.vps i = some x
  sps : ∀ i x, small.sps i = some x → big.sps i = some x
  pps : ∀ i x, small.pps i = some x → big.pps i = some x

/-- two units written after the standard are not different parameter sets of the same kind with the same id -/
def NotInConflict : Std.StdUnit → Std.StdUnit → Prop
  | .vps _ a, .vps _ b => a.vps_video_parameter_set_id = b.vps_video_parameter_set_id → a = b
  | .sps _ a, .sps _ b => a.sps_seq_parameter_set_id = b.sps_seq_parameter_set_id → a = b
  | .pps a, .pps b => a.head.pps_pic_parameter_set_id = b.head.pps_pic_parameter_set_id → a = b
  | _, _ => True

end H265.Spec
