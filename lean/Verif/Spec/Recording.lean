/-
Specification for C95: a recording that starts in the middle of a byte stream.  Not a model of code: a user that keeps the parameter sets (as in C94) and
writes them in front of the NAL units that follow.
-/
import Verif.Spec.Restart
import Verif.Spec.Remux
import Verif.Spec.Fragments
import Verif.Spec.HvccBox

set_option autoImplicit false

namespace H265.Spec
open H265

/-- the NAL units of a byte stream behind the first `k`, without the empty ones -/
def unitsFrom (data : List UInt8) (k : Nat) : List (List UInt8) := ((nalUnitsOf data).drop k).filter (· ≠ [])

/-- The recording as a byte stream: the NAL units kept, then those that follow, with start codes of four bytes. -/
def recording (kept : Journal) (data : List UInt8) (k : Nat) : List UInt8 := annexB ((kept.map (·.2) ++ unitsFrom data k).map fun x => (true, x))

/-- headers and payloads of a parse result, and the state -/
def contentsAndState (x : List NalUnit × ParserState) : List (NalUnitHeader × NalUnitPayload) × ParserState := (x.1.map contentsOf, x.2)

end H265.Spec

/-- all NAL units of a configuration record, array by array -/
def H265.Hvcc.units (x : H265.Hvcc) : List (List UInt8) := x.arrays.flatMap (·.2)
