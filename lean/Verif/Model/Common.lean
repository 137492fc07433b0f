/-
Model of src/h265_common.cc: RBSP unescaping, byte alignment, more_rbsp_data,
rbsp_trailing_bits, NAL unit type classes, checksum.
-/
import Verif.Model.Prog

namespace H265

deriving instance DecidableEq for Except

/-- Read of `data[i]` for a `(data, length)` buffer.  E.g. src/h265_common.cc:537-539 (`UnescapeRbsp`), src/h265_bitstream_parser.cc:41-60. -/
def rd (data : List UInt8) (i : Nat) : Except Bad UInt8 :=
  match data[i]? with
  | some b => .ok b
  | none => .error .oob

/-- The loop of `UnescapeRbsp`, src/h265_common.cc:532-549, from index `i`; the result is what the
loop still pushes to `out`.  `fuel` bounds the number of iterations. -/
def unescapeLoop (data : List UInt8) : Nat → Nat → Except Bad (List UInt8)
  | 0, _ => .error .hang
  | fuel + 1, i =>
    if i < data.length then do
      -- length - i >= 3 && data[i] == 0 && data[i+1] == 0 && data[i+2] == 3
      let emu ← if data.length - i ≥ 3 then do
            if (← rd data i) = 0x00 then
              if (← rd data (i + 1)) = 0x00 then
                pure (decide ((← rd data (i + 2)) = 0x03))
              else pure false
            else pure false
          else pure false
      if emu then
        let a ← rd data i
        let b ← rd data (i + 1)
        let rest ← unescapeLoop data fuel (i + 3)
        return a :: b :: rest
      else
        let a ← rd data i
        let rest ← unescapeLoop data fuel (i + 1)
        return a :: rest
    else return []

/-- `UnescapeRbsp`, src/h265_common.cc:528-550 -/
def unescapeRbsp (data : List UInt8) : Except Bad (List UInt8) := unescapeLoop data (data.length + 1) 0

/-- `get_current_offset`, src/h265_common.cc:564-569 -/
def getCurrentOffset (bb : BB) : Nat := bb.byteOff + (if bb.bitOff = 0 then 0 else 1)

namespace Prog

/-- `more_rbsp_data`, src/h265_common.cc:571-623 -/
def moreRbspData : Prog Bool :=
  remaining fun r =>
    if r = 0 then ret false
    else if r > 8 then ret true
    else peek r fun
      | none => ret false
      | some v => ret (!(decide (v = 1 <<< (r - 1))))

/-- The loop of `rbsp_trailing_bits`, src/h265_common.cc:636-644 -/
def trailLoop : Nat → Prog Bool
  | 0 => bad .hang
  | fuel + 1 => aligned fun a =>
    if a then ret true
    else read 32 1 fun
      | none => ret false
      | some b => if b ≠ 0 then ret false else trailLoop fuel

/-- `rbsp_trailing_bits`, src/h265_common.cc:625-646 -/
def rbspTrailingBits : Prog Bool :=
  read 32 1 fun
    | none => ret false
    | some b => if b ≠ 1 then ret false else trailLoop 8

/-- `while (more_rbsp_data(bit_buffer)) { if (!ReadBits(1, x)) return nullptr; }` with `x` the value
read last, e.g. src/h265_vps_parser.cc:252-257 -/
def extLoop : Nat → Nat → Prog Nat
  | 0, _ => bad .hang
  | fuel + 1, x => moreRbspData.bind fun more =>
    if more then read 32 1 fun
      | none => fail
      | some v => extLoop fuel v
    else ret x

/-- The end of the VPS, SPS and PPS parsers: extension data bits (if announced) and
`rbsp_trailing_bits`, whose result is ignored; e.g. src/h265_vps_parser.cc:251-259.  The result is the
extension data flag read last. -/
def rbspTail (ext : Nat) : Prog Nat :=
  (opt (ext ≠ 0) (remaining fun n => extLoop (n + 1) 0) 0).bind fun x =>
    rbspTrailingBits.bind fun _ => ret x

end Prog

/-- The `(data, length)` entry points of the RBSP parsers: `UnescapeRbsp`, then a `BitBuffer` on the result, e.g.
`ParseVps(data, length)`, src/h265_vps_parser.cc:25-29. -/
def Prog.parseEscaped {α : Type} (p : Prog α) (data : List UInt8) : Res α :=
  match unescapeRbsp data with
  | .ok bytes => p.runBytes bytes
  | .error k => .bad k

/-! ### NAL unit types (include/h265_common.h, Table 7-1) -/

/-- `IsSliceSegment`, src/h265_common.cc:155-180: the listed enumerators TRAIL_N..RASL_R (0..9) and
BLA_W_LP..CRA_NUT (16..21). -/
def isSliceSegment (t : Nat) : Bool :=
  [0, 1, 2, 3, 4, 5, 6, 7, 8, 9, 16, 17, 18, 19, 20, 21].contains t

/-- `IsNalUnitTypeVcl`, src/h265_common.cc:182-222 -/
def isNalUnitTypeVcl (t : Nat) : Bool :=
  [0, 1, 2, 3, 4, 5, 6, 7, 8, 9, 10, 11, 12, 13, 14, 15, 16, 17, 18, 19, 20, 21, 22, 23, 24, 25, 26,
   27, 28, 29, 30, 31].contains t

/-- `IsNalUnitTypeNonVcl`, src/h265_common.cc:224-264 -/
def isNalUnitTypeNonVcl (t : Nat) : Bool :=
  [32, 33, 34, 35, 36, 37, 38, 39, 40, 41, 42, 43, 44, 45, 46, 47, 48, 49, 50, 51, 52, 53, 54, 55, 56,
   57, 58, 59, 60, 61, 62, 63].contains t

/-- `IsNalUnitTypeUnspecified`, src/h265_common.cc:266-290 -/
def isNalUnitTypeUnspecified (t : Nat) : Bool :=
  [48, 49, 50, 51, 52, 53, 54, 55, 56, 57, 58, 59, 60, 61, 62, 63].contains t

/-! ### checksum -/

namespace BB

/-- `while (bit_buffer->ReadUInt32(val)) sum += val;`, src/h265_common.cc:687-689 -/
def checksumWords : Nat → Nat → BB → Res Nat
  | 0, _, _ => .bad .hang
  | fuel + 1, sum, bb =>
    match bb.readUInt32 with
    | .ok v bb' => checksumWords fuel ((sum + v) % 2 ^ 64) bb'
    | .fail bb' => .ok sum bb'
    | .bad k => .bad k

/-- `while (bit_buffer->RemainingBitCount() > 0) { ReadUInt8(val8); val |= val8 << (8*(3-i)); i++ }`,
src/h265_common.cc:695-699; `val8` keeps its previous value when the read fails, and the shift
amount is negative for `i > 3`. -/
def checksumTail : Nat → Nat → Nat → Nat → BB → Res (Nat × Nat)
  | 0, _, _, _, _ => .bad .hang
  | fuel + 1, i, val8, val, bb =>
    if bb.remaining > 0 then
      match bb.readUInt8 with
      | .bad k => .bad k
      | .ok v bb' =>
        if i > 3 then .bad .shift
        else checksumTail fuel (i + 1) v (val ||| ((v <<< (8 * (3 - i))) % 2 ^ 32)) bb'
      | .fail bb' =>
        if i > 3 then .bad .shift
        else checksumTail fuel (i + 1) val8 (val ||| ((val8 <<< (8 * (3 - i))) % 2 ^ 32)) bb'
    else .ok (i, val) bb

/-- `NaluChecksum::GetNaluChecksum`, src/h265_common.cc:668-718.  The result is the 4-byte array
`checksum` (network order). -/
def getNaluChecksum (bb : BB) : Res (List UInt8) :=
  match checksumWords (bb.remaining + 1) 0 bb with
  | .bad k => .bad k
  | .fail b => .fail b
  | .ok sum bb1 =>
    match checksumTail (bb1.remaining + 5) 0 0 0 bb1 with
    | .bad k => .bad k
    | .fail b => .fail b
    | .ok (i, val) bb2 =>
      let sum := if i > 0 then (sum + val) % 2 ^ 64 else sum
      let sum := (sum >>> 32) + (sum &&& 0xffffffff)
      let sum := (sum + (sum >>> 32)) % 2 ^ 64
      let answer := (2 ^ 64 - 1 - sum) % 2 ^ 32
      let out := [UInt8.ofNat (answer >>> 24), UInt8.ofNat (answer >>> 16), UInt8.ofNat (answer >>> 8),
        UInt8.ofNat answer]
      match bb2.seek bb.byteOff bb.bitOff with
      | .ok _ bb3 => .ok out bb3
      | .fail bb3 => .ok out bb3
      | .bad k => .bad k

end BB

example : unescapeRbsp [1, 0, 0, 3, 0, 0, 3, 1] = .ok [1, 0, 0, 0, 0, 1] := by rfl
example : (BB.init [0x12, 0x34, 0x56, 0x78, 0x9a]).getNaluChecksum
    = .ok [0x53, 0xcb, 0xa9, 0x87] ⟨[0x12, 0x34, 0x56, 0x78, 0x9a], 0, 0⟩ := by decide

end H265
