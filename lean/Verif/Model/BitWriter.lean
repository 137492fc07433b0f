/-
Model of `BitBufferWriter` (src/rtc_common.cc:299-406), statement by statement.
A writer is a `BB` whose `bytes` are the (mutable) buffer contents.
-/
import Verif.Model.BitBuffer

namespace H265
namespace BB

/-- `HighestByte`, src/rtc_common.cc:46 -/
def highestByte (val : Nat) : Nat := (val >>> 56) % 256

/-- `WritePartialByte`, src/rtc_common.cc:51-67; `none` = one of the three `RTC_DCHECK`s fails.
`~mask` is restricted to the 8 low bits because it is and-ed with a byte. -/
def writePartialByte (source sourceBits target off : Nat) : Option Nat :=
  if ¬ off < 8 ∨ ¬ sourceBits < 9 ∨ ¬ sourceBits ≤ 8 - off then none
  else
    let mask := ((0xFF <<< (8 - sourceBits)) % 256) >>> off
    some ((target &&& (255 ^^^ mask)) ||| (source >>> off))

/-- Store of one byte through `writable_bytes_`; outside the buffer is undefined.  Used for the stores of `WriteBits`, src/rtc_common.cc:323-353. -/
def storeByte (bytes : List UInt8) (i v : Nat) : Option (List UInt8) :=
  if i < bytes.length then some (bytes.set i (UInt8.ofNat v)) else none

/-- The loop `while (bit_count >= 8) { *bytes++ = HighestByte(val); val <<= 8; bit_count -= 8; }`
of `WriteBits`, src/rtc_common.cc:343-347; `k` = number of iterations. -/
def writeLoop : Nat → List UInt8 → Nat → Nat → Option (List UInt8 × Nat × Nat)
  | 0, bytes, off, val => some (bytes, off, val)
  | k + 1, bytes, off, val =>
    match storeByte bytes off (highestByte val) with
    | none => none
    | some bytes' => writeLoop k bytes' (off + 1) ((val <<< 8) % 2 ^ 64)

/-- `BitBufferWriter::WriteBits`, src/rtc_common.cc:314-357.  `val <<= (64 - bit_count)` is an
out-of-range shift for `bit_count = 0` and for `bit_count > 64`. -/
def writeBits (val n : Nat) (bb : BB) : Res Unit :=
  if n > bb.remaining then .fail bb
  else if n = 0 ∨ n > 64 then .bad .shift
  else
    let val := (val <<< (64 - n)) % 2 ^ 64
    let remBits := 8 - bb.bitOff
    let first := min n remBits
    match bb.bytes[bb.byteOff]? with
    | none => .bad .oob
    | some b =>
      match writePartialByte (highestByte val) first b.toNat bb.bitOff with
      | none => .bad .assertion
      | some v =>
        match storeByte bb.bytes bb.byteOff v with
        | none => .bad .oob
        | some bytes1 =>
          if n ≤ remBits then consumeBits n { bb with bytes := bytes1 }
          else
            let val := (val <<< first) % 2 ^ 64
            let n' := n - first
            match writeLoop (n' / 8) bytes1 (bb.byteOff + 1) val with
            | none => .bad .oob
            | some (bytes2, off, val) =>
              if n' % 8 > 0 then
                match bytes2[off]? with
                | none => .bad .oob
                | some b =>
                  match writePartialByte (highestByte val) (n' % 8) b.toNat 0 with
                  | none => .bad .assertion
                  | some v =>
                    match storeByte bytes2 off v with
                    | none => .bad .oob
                    | some bytes3 => consumeBits n { bb with bytes := bytes3 }
              else consumeBits n { bb with bytes := bytes2 }

/-- `BitBufferWriter::WriteUInt8`, src/rtc_common.cc:302-304 -/
def writeUInt8 (val : Nat) (bb : BB) : Res Unit := writeBits val 8 bb
/-- `BitBufferWriter::WriteUInt16`, src/rtc_common.cc:306-308 -/
def writeUInt16 (val : Nat) (bb : BB) : Res Unit := writeBits val 16 bb
/-- `BitBufferWriter::WriteUInt32`, src/rtc_common.cc:310-312 -/
def writeUInt32 (val : Nat) (bb : BB) : Res Unit := writeBits val 32 bb

/-- `BitBufferWriter::WriteNonSymmetric`, src/rtc_common.cc:359-368 -/
def writeNonSymmetric (val numValues : Nat) (bb : BB) : Res Unit :=
  if ¬ val < numValues ∨ ¬ numValues ≤ 1 <<< 31 then .bad .assertion
  else
    let c := countBits numValues
    if c ≥ 32 then .bad .shift
    else
      let numMin := (1 <<< c) - numValues
      if val < numMin then writeBits val (c - 1) bb
      else writeBits ((val + numMin) % 2 ^ 32) c bb

/-- `BitBufferWriter::SizeNonSymmetricBits`, src/rtc_common.cc:370-378 -/
def sizeNonSymmetricBits (val numValues : Nat) : Except Bad Nat :=
  if ¬ val < numValues ∨ ¬ numValues ≤ 1 <<< 31 then .error .assertion
  else
    let c := countBits numValues
    if c ≥ 32 then .error .shift
    else
      let numMin := (1 <<< c) - numValues
      .ok (if val < numMin then c - 1 else c)

/-- `BitBufferWriter::WriteExponentialGolomb`, src/rtc_common.cc:380-392 -/
def writeUE (val : Nat) (bb : BB) : Res Unit :=
  if val = 2 ^ 32 - 1 then .fail bb
  else writeBits (val + 1) (countBits (val + 1) * 2 - 1) bb

/-- `BitBufferWriter::WriteSignedExponentialGolomb`, src/rtc_common.cc:394-406; the argument is
an `int32_t` value. -/
def writeSE (val : Int) (bb : BB) : Res Unit :=
  if val = 0 then writeUE 0 bb
  else if val > 0 then writeUE ((val.toNat * 2 + 2 ^ 32 - 1) % 2 ^ 32) bb
  else if val = -(2 ^ 31) then .fail bb
  else writeUE (((-val).toNat * 2) % 2 ^ 32) bb

example : (BB.mk [0xff, 0x00, 0xff] 0 5).writeBits 0x2A5 10 = .ok () ⟨[0xfd, 0x4a, 0xff], 1, 7⟩ := by decide
example : (BB.mk [0xff, 0xff] 0 2).writeUE 4 = .ok () ⟨[0xcb, 0xff], 0, 7⟩ := by decide

end BB
end H265
