/-
Model of the NAL unit scanners of src/h265_bitstream_parser.cc.
-/
import Verif.Model.Common

namespace H265

/-- `H265BitstreamParser::NaluIndex`, include/h265_bitstream_parser.h -/
structure NaluIndex where
  startOffset : Nat
  payloadStartOffset : Nat
  payloadSize : Nat
  deriving DecidableEq, Repr

/-- `auto it = sequences.rbegin(); if (it != sequences.rend()) it->payload_size = ...;`
src/h265_bitstream_parser.cc:73-75 and 86-88; `e - payload_start_offset` is `size_t` arithmetic. -/
def setLastSize (seqs : List NaluIndex) (e : Nat) : List NaluIndex :=
  match seqs.getLast? with
  | none => seqs
  | some x => seqs.dropLast ++ [{ x with payloadSize := (e + 2 ^ 64 - x.payloadStartOffset) % 2 ^ 64 }]

/-- The condition `data[i + 2] == 0x01 && data[i + 1] == 0x00 && data[i] == 0x00`,
src/h265_bitstream_parser.cc:66 -/
def isStartCode (data : List UInt8) (i : Nat) : Except Bad Bool := do
  if (← rd data (i + 2)) = 0x01 then
    if (← rd data (i + 1)) = 0x00 then return decide ((← rd data i) = 0x00)
    else return false
  else return false

/-- `index.start_offset` after the test for a 4-byte start code,
src/h265_bitstream_parser.cc:68-70 -/
def startOffset (data : List UInt8) (i : Nat) : Except Bad Nat := do
  if i > 0 then
    if (← rd data (i - 1)) = 0 then return i - 1 else return i
  else return i

/-- The loop of `FindNaluIndices`, src/h265_bitstream_parser.cc:62-83. -/
def findLoop (data : List UInt8) : Nat → Nat → List NaluIndex → Except Bad (List NaluIndex)
  | 0, _, _ => .error .hang
  | fuel + 1, i, seqs =>
    if i < data.length - 3 then do
      if (← rd data (i + 2)) > 1 then findLoop data fuel (i + 3) seqs
      else if (← isStartCode data i) then
        let so ← startOffset data i
        findLoop data fuel (i + 3) (setLastSize seqs so ++ [⟨so, i + 3, 0⟩])
      else findLoop data fuel (i + 1) seqs
    else .ok seqs

/-- `H265BitstreamParser::FindNaluIndices`, src/h265_bitstream_parser.cc:50-91 -/
def findNaluIndices (data : List UInt8) : Except Bad (List NaluIndex) :=
  if data.length < 3 then .ok []
  else
    match findLoop data (data.length + 1) 0 [] with
    | .ok seqs => .ok (setLastSize seqs data.length)
    | .error k => .error k

/-- `memcpy` of 4 bytes into a `uint32_t` followed by `ntohl`,
src/h265_bitstream_parser.cc:105-107 -/
def ntohl (b0 b1 b2 b3 : UInt8) : Nat :=
  b0.toNat * 2 ^ 24 + b1.toNat * 2 ^ 16 + b2.toNat * 2 ^ 8 + b3.toNat

/-- The 4-byte size field at `i`, src/h265_bitstream_parser.cc:105-107 -/
def readSize32 (data : List UInt8) (i : Nat) : Except Bad Nat := do
  let b0 ← rd data i
  let b1 ← rd data (i + 1)
  let b2 ← rd data (i + 2)
  let b3 ← rd data (i + 3)
  return ntohl b0 b1 b2 b3

/-- `uint32_t` addition, src/h265_bitstream_parser.cc:115 -/
def addU32 (a b : Nat) : Nat := (a + b) % 2 ^ 32

/-- The loop of `FindNaluIndicesExplicitFraming`, src/h265_bitstream_parser.cc:100-116.
`i += (4 + nal_unit_size)`: the sum is computed in `uint32_t`. -/
def explicitLoop (data : List UInt8) : Nat → Nat → Except Bad (List NaluIndex)
  | 0, _ => .error .hang
  | fuel + 1, i =>
    if i < data.length then
      if i + 4 > data.length then .ok []
      else
        match readSize32 data i with
        | .error k => .error k
        | .ok size =>
          if size > data.length - i - 4 then .ok []
          else
            match explicitLoop data fuel (i + addU32 4 size) with
            | .ok rest => .ok (⟨i, i + 4, size⟩ :: rest)
            | .error k => .error k
    else .ok []

/-- `H265BitstreamParser::FindNaluIndicesExplicitFraming`,
src/h265_bitstream_parser.cc:94-119 -/
def findNaluIndicesExplicitFraming (data : List UInt8) : Except Bad (List NaluIndex) :=
  explicitLoop data (data.length + 1) 0

example : findNaluIndices [0, 0, 0, 1, 0x40, 1, 0, 0, 1, 0x42, 1, 0xff] =
    .ok [⟨0, 4, 2⟩, ⟨6, 9, 3⟩] := by decide +kernel
example : findNaluIndicesExplicitFraming [0, 0, 0, 2, 0x40, 1, 0, 0, 0, 1, 0x42] =
    .ok [⟨0, 4, 2⟩, ⟨6, 10, 1⟩] := by decide +kernel

end H265
