/-
Specification for C98: streams joined one behind the other ("cat a.265 b.265 a.265").  Not a model of code: a user of the library.
-/
import Verif.Spec.History
import Verif.Spec.ByteStream
import Verif.Model.Nal

set_option autoImplicit false

namespace H265.Spec
open H265

/-- a byte stream, what is reported for it when it is parsed alone, and the parameter sets known afterwards -/
structure Clip where
  data : List UInt8
  units : List NalUnit
  sets : ParserState

/-- A clip begins with a start code of four bytes that is followed by something, does not end with a start code, and brings the parameter sets that its slices use. -/
structure Clip.Ok (cs : Bool) (c : Clip) : Prop where
  begins : c.data.take 4 = [0, 0, 0, 1] ∧ 4 < c.data.length
  ends : ¬ [0, 0, 1] <:+ c.data
  parsed : parseBitstream cs .empty c.data = .ok (c.units, c.sets)
  headers : AllHeaders c.units

/-- the reports of the clips in order; the offsets count from the beginning of the first -/
def playlist : Nat → List Clip → List NalUnit
  | _, [] => []
  | off, c :: l => (c.units.map fun n => { n with offset := off + n.offset }) ++ playlist (off + c.data.length) l

/-- the parameter sets of the clips one over the other -/
def playlistState (st : ParserState) : List Clip → ParserState
  | [] => st
  | c :: l => playlistState (overlay c.sets st) l

/-- the same for NAL units behind length fields of `n` bytes: `data` is made of them -/
structure Clip.LengthOk (cs : Bool) (n : Nat) (nals : List (List UInt8)) (c : Clip) : Prop where
  data : c.data = lengthPrefixed n nals
  sizes : ∀ x ∈ nals, x ≠ [] ∧ x.length < 256 ^ n
  parsed : parseBitstreamNaluLength cs n .empty c.data = .ok (c.units, c.sets)
  headers : AllHeaders c.units

end H265.Spec
