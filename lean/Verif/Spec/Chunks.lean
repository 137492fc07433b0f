/-
Specification for C86: how a program that receives an Annex B byte stream piece by piece can use `FindNaluIndices` and `ParseNalUnit`.  Not a model of code of the library.
-/
import Verif.Props.Nal

set_option autoImplicit false

namespace H265

/-- what such a program keeps between two pieces -/
structure Receiver where
  /-- the bytes not yet parsed -/
  kept : List UInt8
  st : ParserState
  /-- the number of bytes in front of `kept` -/
  passed : Nat
  /-- the NAL units reported so far, with their places in the whole stream -/
  out : List NalUnit

/-- the program at its start -/
def Receiver.init (st : ParserState) : Receiver := ⟨[], st, 0, []⟩

/-- the places and bytes of these NAL units of the buffer; places count from the beginning of the stream -/
def unitsOf (passed : Nat) (data : List UInt8) (es : List NaluIndex) : List (Nat × Nat × List UInt8) :=
  es.map fun e => (passed + e.payloadStartOffset, e.payloadSize, (data.drop e.payloadStartOffset).take e.payloadSize)

/-- A piece arrives: it is put behind the bytes kept; every NAL unit found by `FindNaluIndices` but the last one (which may go on in the next piece) is
given to `ParseNalUnit`; the bytes from the start code of the last one on are kept. -/
def Receiver.feed (cs : Bool) (s : Receiver) (piece : List UInt8) : Except Bad Receiver :=
  match findNaluIndices (s.kept ++ piece) with
  | .error k => .error k
  | .ok es =>
    match es.getLast? with
    | none => .ok { s with kept := s.kept ++ piece }
    | some e =>
      match parseAll cs (unitsOf s.passed (s.kept ++ piece) es.dropLast) s.st with
      | .error k => .error k
      | .ok (ns, st) => .ok ⟨(s.kept ++ piece).drop e.startOffset, st, s.passed + e.startOffset, s.out ++ ns⟩

/-- pieces arrive one after the other -/
def Receiver.feedAll (cs : Bool) (s : Receiver) : List (List UInt8) → Except Bad Receiver
  | [] => .ok s
  | p :: ps =>
    match s.feed cs p with
    | .error k => .error k
    | .ok s' => s'.feedAll cs ps

/-- The stream ends: what is kept is parsed. -/
def Receiver.finish (cs : Bool) (s : Receiver) : Except Bad (List NalUnit × ParserState) :=
  match findNaluIndices s.kept with
  | .error k => .error k
  | .ok es =>
    match parseAll cs (unitsOf s.passed s.kept es) s.st with
    | .error k => .error k
    | .ok (ns, st) => .ok (s.out ++ ns, st)

/-- all of it: what is reported for the pieces -/
def receive (cs : Bool) (st : ParserState) (pieces : List (List UInt8)) : Except Bad (List NalUnit × ParserState) :=
  match (Receiver.init st).feedAll cs pieces with
  | .error k => .error k
  | .ok s => s.finish cs

end H265
