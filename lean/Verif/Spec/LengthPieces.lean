/-
Specification for C88: how a program that receives a stream with length fields piece by piece can use `ParseBitstreamNALULength`.  Not a model of code of the library.
-/
import Verif.Props.NalLength

set_option autoImplicit false

namespace H265
open Spec

/-- The number of bytes of the complete NAL units, with their length fields, at the beginning of `data`: the program goes from length field to length field, as long as the
unit it announces has arrived.  (`fuel`: at least the number of bytes.) -/
def completeUnits (n : Nat) : Nat → List UInt8 → Nat
  | 0, _ => 0
  | fuel + 1, data =>
    if data.length < n ∨ beAt n data 0 = 0 ∨ data.length < n + beAt n data 0 then 0
    else n + beAt n data 0 + completeUnits n fuel (data.drop (n + beAt n data 0))

/-- what such a program keeps between two pieces -/
structure LengthReceiver where
  /-- the bytes not yet parsed -/
  kept : List UInt8
  st : ParserState
  /-- the number of bytes in front of `kept` -/
  passed : Nat
  /-- the NAL units reported so far, with their places in the whole stream -/
  out : List NalUnit

/-- the program at its start -/
def LengthReceiver.init (st : ParserState) : LengthReceiver := ⟨[], st, 0, []⟩

/-- A piece arrives: `ParseBitstreamNALULength` is called for the bytes kept and the piece; the complete units are dropped. -/
def LengthReceiver.feed (cs : Bool) (n : Nat) (s : LengthReceiver) (piece : List UInt8) : Except Bad LengthReceiver :=
  match parseBitstreamNaluLength cs n s.st (s.kept ++ piece) with
  | .error k => .error k
  | .ok (ns, st) =>
    let c := completeUnits n (s.kept ++ piece).length (s.kept ++ piece)
    .ok ⟨(s.kept ++ piece).drop c, st, s.passed + c, s.out ++ ns.map fun u => { u with offset := s.passed + u.offset }⟩

/-- pieces arrive one after the other -/
def LengthReceiver.feedAll (cs : Bool) (n : Nat) (s : LengthReceiver) : List (List UInt8) → Except Bad LengthReceiver
  | [] => .ok s
  | p :: ps =>
    match s.feed cs n p with
    | .error k => .error k
    | .ok s' => s'.feedAll cs n ps

/-- what is reported for the pieces -/
def lengthReceive (cs : Bool) (n : Nat) (st : ParserState) (pieces : List (List UInt8)) : Except Bad (List NalUnit × ParserState) :=
  match (LengthReceiver.init st).feedAll cs n pieces with
  | .error k => .error k
  | .ok s => .ok (s.out, s.st)

end H265
