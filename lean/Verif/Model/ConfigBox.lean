/-
Model of src/h265_configuration_box_parser.cc.
-/
import Verif.Model.Hvcc
import Verif.Model.Nal

namespace H265
open Prog

/-- One element of `nalUnitLength[j]` and of `nalUnit[j]`, include/h265_configuration_box_parser.h:65-68; `none` is a null pointer -/
structure HvccUnit where
  nalUnitLength : Nat
  nalUnit : Option NalUnit
  deriving DecidableEq

/-- The elements with index `j` of the vectors of `ConfigurationBoxState`, include/h265_configuration_box_parser.h:61-68, which have the same
length in every object that is returned -/
structure HvccArray where
  head : HvccArrayHead
  units : List HvccUnit
  deriving DecidableEq

/-- `ConfigurationBoxState`, include/h265_configuration_box_parser.h:23-69 -/
structure ConfigurationBox where
  head : HvccHeader
  arrays : List HvccArray
  deriving DecidableEq

/-- length and bytes of a NAL unit, src/h265_configuration_box_parser.cc:243-254; `ReadBytes` (src/rtc_common.cc:188-197) is a loop of `ReadUInt8`, that is of `ReadBits(8)` -/
def parseHvccBytes : Prog (List UInt8) := do
  let nalUnitLength ← u 16
  let data ← rep nalUnitLength (u 8)
  return data.map UInt8.ofNat

/-- `H265NalUnitParser::ParseNalUnit(data.data(), length, state, options)`, src/h265_configuration_box_parser.cc:255-257; a null result is stored -/
def hvccNal (add_checksum : Bool) (st : ParserState) (data : List UInt8) : Prog (Option NalUnit × ParserState) :=
  match parseNalUnit add_checksum st data with
  | .ok (n, st') _ => ret (some n, st')
  | .fail _ => ret (none, st)
  | .bad k => bad k

/-- The loop over the NAL units of an array, src/h265_configuration_box_parser.cc:242-258.  First result `none`: the function returns null; what was parsed
before stays in the parser state. -/
def hvccUnits (add_checksum : Bool) : Nat → ParserState → Prog (Option (List HvccUnit) × ParserState)
  | 0, st => ret (some [], st)
  | n + 1, st =>
    parseHvccBytes.attempt.bind fun
      | none => ret (none, st)
      | some data =>
        (hvccNal add_checksum st data).bind fun (nalUnit, st1) =>
          (hvccUnits add_checksum n st1).bind fun (o, st2) => ret (o.map (⟨data.length, nalUnit⟩ :: ·), st2)

/-- The loop over the arrays, src/h265_configuration_box_parser.cc:208-259 -/
def hvccArrays (add_checksum : Bool) : Nat → ParserState → Prog (Option (List HvccArray) × ParserState)
  | 0, st => ret (some [], st)
  | n + 1, st =>
    parseHvccArrayHead.attempt.bind fun
      | none => ret (none, st)
      | some head =>
        (hvccUnits add_checksum head.numNalus st).bind fun
          | (none, st1) => ret (none, st1)
          | (some units, st1) => (hvccArrays add_checksum n st1).bind fun (o, st2) => ret (o.map (⟨head, units⟩ :: ·), st2)

/-- `ParseConfigurationBox(bit_buffer, ...)`, src/h265_configuration_box_parser.cc:36-262 -/
def parseConfigurationBox (add_checksum : Bool) (st : ParserState) : Prog (Option ConfigurationBox × ParserState) :=
  parseHvccHeader.attempt.bind fun
    | none => ret (none, st)
    | some head => (hvccArrays add_checksum head.numOfArrays st).bind fun (o, st') => ret (o.map (⟨head, ·⟩), st')

/-- `ParseConfigurationBox(data, length, ...)`, src/h265_configuration_box_parser.cc:24-34; nothing is unescaped before -/
def parseConfigurationBoxBytes (add_checksum : Bool) (st : ParserState) (data : List UInt8) : Res (Option ConfigurationBox × ParserState) :=
  (parseConfigurationBox add_checksum st).runBytes data

end H265
