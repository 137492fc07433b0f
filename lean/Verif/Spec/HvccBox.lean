/-
C43: a configuration record with its NAL units (ISO/IEC 14496-15), and what its NAL units give when they are parsed one after the other.  Not a model of code.
-/
import Verif.Spec.Hvcc
import Verif.Model.ConfigBox

namespace H265
open Spec

/-- A configuration record as ISO/IEC 14496-15 lays it out: fixed fields, then arrays of NAL units, each NAL unit a byte string. -/
structure Hvcc where
  head : HvccHeader
  arrays : List (HvccArrayHead × List (List UInt8))

/-- 16 bits of length, then the bytes -/
def hvccUnitBits (nal : List UInt8) : List Bool := Spec.u 16 nal.length ++ bitsOf nal
def hvccArrayBits (a : HvccArrayHead × List (List UInt8)) : List Bool := Spec.hvccArrayHead a.1 ++ (a.2.map hvccUnitBits).flatten
/-- the bits of the record -/
def Hvcc.bits (x : Hvcc) : List Bool := Spec.hvccHeader x.head ++ (x.arrays.map hvccArrayBits).flatten

/-- Version 1, reserved bits right, and the counts are those of the lists. -/
structure Hvcc.Valid (x : Hvcc) : Prop where
  head : ValidHvccHeader x.head
  numOfArrays : x.arrays.length = x.head.numOfArrays
  arrayHead : ∀ a ∈ x.arrays, ValidHvccArrayHead a.1
  numNalus : ∀ a ∈ x.arrays, a.2.length = a.1.numNalus
  nalUnitLength : ∀ a ∈ x.arrays, ∀ nal ∈ a.2, nal.length < 2 ^ 16

/-- The NAL units `nals`, parsed one after the other as NAL units on their own from state `st`, give the results `us` (with the lengths) and leave the state `st'`. -/
inductive HvccNals (cs : Bool) : ParserState → List (List UInt8) → List HvccUnit → ParserState → Prop
  | nil (st) : HvccNals cs st [] [] st
  | ok {st st1 st2 nal nals n us b} : parseNalUnit cs st nal = .ok (n, st1) b → HvccNals cs st1 nals us st2 → HvccNals cs st (nal :: nals) (⟨nal.length, some n⟩ :: us) st2
  | null {st st2 nal nals us b} : parseNalUnit cs st nal = .fail b → HvccNals cs st nals us st2 → HvccNals cs st (nal :: nals) (⟨nal.length, none⟩ :: us) st2

/-- The same for the arrays in order. -/
inductive HvccParsed (cs : Bool) : ParserState → List (HvccArrayHead × List (List UInt8)) → List HvccArray → ParserState → Prop
  | nil (st) : HvccParsed cs st [] [] st
  | cons {st st1 st2 h nals us as bs} : HvccNals cs st nals us st1 → HvccParsed cs st1 as bs st2 → HvccParsed cs st ((h, nals) :: as) (⟨h, us⟩ :: bs) st2

end H265
