/-
Specification for C91: a program that reads a byte stream with `FindNaluIndices` and writes its NAL units in another form.  Not a model of code of the library.
-/
import Verif.Model.NaluIndex
import Verif.Spec.ByteStream

set_option autoImplicit false

namespace H265

/-- the bytes of the NAL units that `FindNaluIndices` reports -/
def nalUnitsOf (data : List UInt8) : List (List UInt8) :=
  match findNaluIndices data with
  | .ok es => es.map fun e => (data.drop e.payloadStartOffset).take e.payloadSize
  | .error _ => []

/-- The NAL units of the byte stream, each behind a length field of `n` bytes.  Empty ones are left out: a length field of 0 ends such a stream. -/
def toLengthFields (n : Nat) (data : List UInt8) : List UInt8 := Spec.lengthPrefixed n ((nalUnitsOf data).filter (· ≠ []))

/-- The NAL units of the byte stream, each behind a start code of four bytes. -/
def toStartCodes (data : List UInt8) : List UInt8 := Spec.annexB (((nalUnitsOf data).filter (· ≠ [])).map fun x => (true, x))

end H265
