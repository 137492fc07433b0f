/-
Model of `BitBuffer` (src/rtc_common.cc, include/rtc_common.h), statement by statement.

`size_t`/`uint64_t`/`uint32_t` quantities are `Nat`; places where the C++ type would wrap
carry an explicit `% 2^w`.
-/
namespace H265

/-- Kinds of undefined behaviour / abort that the model makes visible.
Not a C++ entity: this is how the model reports "the program has no defined
continuation here".  The checks that C++ code of the library does make abort the program: src/rtc_common.cc:23-28. -/
inductive Bad where
  /-- access outside a buffer or vector -/
  | oob
  /-- an `RTC_DCHECK`/`RTC_CHECK`/`assert` fails (src/rtc_common.cc:23-28) -/
  | assertion
  /-- overflow of a signed 32-bit expression -/
  | signedOverflow
  /-- shift by at least the width of the operand -/
  | shift
  /-- dereference of a null pointer -/
  | nullDeref
  /-- a loop that does not terminate -/
  | hang
  /-- conversion of a floating point value that the integer type cannot represent -/
  | floatCast
  deriving DecidableEq, Repr

/-- `class BitBuffer`, include/rtc_common.h:66-153: `bytes_` + `byte_count_`,
`byte_offset_`, `bit_offset_`. -/
structure BB where
  bytes : List UInt8
  byteOff : Nat
  bitOff : Nat
  deriving DecidableEq, Repr

/-- Result of a `bool`-returning reader call: `true` with out-value, `false`, or no defined
result. The reader after the call is always reported.  The readers: include/rtc_common.h:84-140, src/rtc_common.cc:84-300. -/
inductive Res (α : Type) where
  | ok (a : α) (bb : BB)
  | fail (bb : BB)
  | bad (k : Bad)
  deriving DecidableEq, Repr

/-- the returned object, if any (no C++ counterpart); a parser returns it through a `std::unique_ptr`, e.g. include/h265_aud_parser.h:37-39 -/
def Res.val? {α : Type} : Res α → Option α
  | .ok a _ => some a
  | _ => none

namespace BB

/-- `BitBuffer::BitBuffer`, src/rtc_common.cc:78-82 (the `RTC_DCHECK` on the size is
modelled by `BB.checkedInit`). -/
def init (bytes : List UInt8) : BB := ⟨bytes, 0, 0⟩

/-- `BitBuffer::RemainingBitCount`, src/rtc_common.cc:84-86.  `Nat` subtraction: the
reachable-state invariant (`BB.WF`, theorem C03) shows that the C++ subtraction does not wrap. -/
def remaining (bb : BB) : Nat := (bb.bytes.length - bb.byteOff) * 8 - bb.bitOff

/-- `LowestBits`, src/rtc_common.cc:31-34 -/
def lowestBits (byte n : Nat) : Nat := byte &&& ((1 <<< n) - 1)

/-- `HighestBits`, src/rtc_common.cc:38-43 -/
def highestBits (byte n : Nat) : Nat :=
  let shift := 8 - n
  let mask := (0xFF <<< shift) % 256
  (byte &&& mask) >>> shift

/-- The loop `while (bit_count >= 8) { bits = (bits << 8) | *bytes++; bit_count -= 8; }` of
`PeekBits`, src/rtc_common.cc:132-135 (32-bit) and 166-169 (64-bit); `k` is the number of
iterations (`bit_count / 8`), `w` the width of `bits`.  `none` = read past the buffer. -/
def peekLoop (bytes : List UInt8) (w : Nat) : Nat → Nat → Nat → Option (Nat × Nat)
  | 0, off, bits => some (off, bits)
  | k + 1, off, bits =>
    match bytes[off]? with
    | none => none
    | some b => peekLoop bytes w k (off + 1) (((bits <<< 8) % 2 ^ w) ||| b.toNat)

/-- `BitBuffer::PeekBits(size_t, uint32_t&)`, src/rtc_common.cc:112-144 (`w = 32`) and
`BitBuffer::PeekBits(size_t, uint64_t&)`, src/rtc_common.cc:146-178 (`w = 64`). -/
def peekBits (w n : Nat) (bb : BB) : Res Nat :=
  if n = 0 then .bad .assertion
  else if n > bb.remaining ∨ n > w then .fail bb
  else
    match bb.bytes[bb.byteOff]? with
    | none => .bad .oob
    | some b =>
      let remBits := 8 - bb.bitOff
      let bits := lowestBits b.toNat remBits
      if n < remBits then .ok (highestBits bits (bb.bitOff + n)) bb
      else
        let n' := n - remBits
        match peekLoop bb.bytes w (n' / 8) (bb.byteOff + 1) bits with
        | none => .bad .oob
        | some (off, bits) =>
          if n' % 8 > 0 then
            match bb.bytes[off]? with
            | none => .bad .oob
            | some b => .ok (((bits <<< (n' % 8)) % 2 ^ w) ||| highestBits b.toNat (n' % 8)) bb
          else .ok bits bb

/-- `BitBuffer::ConsumeBits`, src/rtc_common.cc:206-214 -/
def consumeBits (n : Nat) (bb : BB) : Res Unit :=
  if n > bb.remaining then .fail bb
  else .ok () { bb with byteOff := bb.byteOff + (bb.bitOff + n) / 8,
                        bitOff := (bb.bitOff + n) % 8 }

/-- `BitBuffer::ConsumeBytes`, src/rtc_common.cc:199-204 (`SIZE_MAX = 2^64 - 1`) -/
def consumeBytes (n : Nat) (bb : BB) : Res Unit :=
  if n > (2 ^ 64 - 1) / 8 then .fail bb else consumeBits (n * 8) bb

/-- `BitBuffer::ReadBits`, src/rtc_common.cc:180-186: `PeekBits && ConsumeBits`. -/
def readBits (w n : Nat) (bb : BB) : Res Nat :=
  match peekBits w n bb with
  | .ok v bb1 =>
    match consumeBits n bb1 with
    | .ok _ bb2 => .ok v bb2
    | .fail bb2 => .fail bb2
    | .bad k => .bad k
  | r => r

/-- `BitBuffer::ReadUInt8`, src/rtc_common.cc:88-96 (the `RTC_DCHECK` bounds the value). -/
def readUInt8 (bb : BB) : Res Nat :=
  match readBits 32 8 bb with
  | .ok v bb' => if v ≤ 0xFF then .ok v bb' else .bad .assertion
  | r => r

/-- `BitBuffer::ReadUInt16`, src/rtc_common.cc:98-106 -/
def readUInt16 (bb : BB) : Res Nat :=
  match readBits 32 16 bb with
  | .ok v bb' => if v ≤ 0xFFFF then .ok v bb' else .bad .assertion
  | r => r

/-- `BitBuffer::ReadUInt32`, src/rtc_common.cc:108-110 -/
def readUInt32 (bb : BB) : Res Nat := readBits 32 32 bb

/-- `BitBuffer::ReadBytes`, src/rtc_common.cc:188-197; the list is what was written to
`buffer` on success. -/
def readBytes : Nat → BB → Res (List Nat)
  | 0, bb => .ok [] bb
  | n + 1, bb =>
    match readUInt8 bb with
    | .ok v bb1 =>
      match readBytes n bb1 with
      | .ok vs bb2 => .ok (v :: vs) bb2
      | r => r
    | .fail bb1 => .fail bb1
    | .bad k => .bad k

/-- The loop of `CountBits`, src/rtc_common.cc:69-76; 64 iterations suffice for a `uint64_t`. -/
def countBitsLoop : Nat → Nat → Nat → Nat
  | 0, _, cnt => cnt
  | fuel + 1, v, cnt => if v = 0 then cnt else countBitsLoop fuel (v >>> 1) (cnt + 1)

/-- `CountBits`, src/rtc_common.cc:69-76 -/
def countBits (v : Nat) : Nat := countBitsLoop 64 v 0

/-- `BitBuffer::ReadNonSymmetric`, src/rtc_common.cc:216-237.  The two `RTC_DCHECK`s are
assertions; `uint32_t{1} << count_bits` with `count_bits = 32` is an out-of-range shift. -/
def readNonSymmetric (numValues : Nat) (bb : BB) : Res Nat :=
  if ¬ (0 < numValues) ∨ ¬ (numValues ≤ 1 <<< 31) then .bad .assertion
  else
    let countBits := countBits numValues
    if countBits ≥ 32 then .bad .shift
    else
      let numMin := (1 <<< countBits) - numValues
      match readBits 32 (countBits - 1) bb with
      | .ok v bb1 =>
        if v < numMin then .ok v bb1
        else
          match readBits 32 1 bb1 with
          | .ok e bb2 => .ok (((v <<< 1) % 2 ^ 32 + e - numMin) % 2 ^ 32) bb2
          | r => r
      | r => r

/-- The loop `while (PeekBits(1, peeked_bit) && peeked_bit == 0) { zero_bit_count++;
ConsumeBits(1); }` of `ReadExponentialGolomb`, src/rtc_common.cc:248-251.  `fuel` bounds the
number of iterations; running out of fuel is reported as `hang`. -/
def zeroLoop : Nat → Nat → BB → Res Nat
  | 0, _, _ => .bad .hang
  | fuel + 1, zeros, bb =>
    match peekBits 32 1 bb with
    | .ok 0 bb1 =>
      match consumeBits 1 bb1 with
      | .ok _ bb2 => zeroLoop fuel (zeros + 1) bb2
      | .fail bb2 => zeroLoop fuel (zeros + 1) bb2
      | .bad k => .bad k
    | .ok _ bb1 => .ok zeros bb1
    | .fail bb1 => .ok zeros bb1
    | .bad k => .bad k

/-- `BitBuffer::Seek`, src/rtc_common.cc:289-297 -/
def seek (byteOff bitOff : Nat) (bb : BB) : Res Unit :=
  if byteOff > bb.bytes.length ∨ bitOff > 7 ∨ (byteOff = bb.bytes.length ∧ bitOff > 0) then
    .fail bb
  else .ok () { bb with byteOff := byteOff, bitOff := bitOff }

/-- `BitBuffer::ReadExponentialGolomb`, src/rtc_common.cc:239-266 -/
def readUE (bb : BB) : Res Nat :=
  match zeroLoop (bb.remaining + 1) 0 bb with
  | .ok zeros bb1 =>
    -- RTC_DCHECK(!PeekBits(1, peeked_bit) || peeked_bit == 1), line 254
    match peekBits 32 1 bb1 with
    | .bad k => .bad k
    | .ok 0 _ => .bad .assertion
    | _ =>
      let n := zeros + 1
      let back : Res Nat :=
        -- RTC_CHECK(Seek(original_byte_offset, original_bit_offset)); return false
        match seek bb.byteOff bb.bitOff bb1 with
        | .ok _ bb2 => .fail bb2
        | _ => .bad .assertion
      if n > 32 then back
      else
        match readBits 32 n bb1 with
        | .ok v bb2 => .ok ((v + 2 ^ 32 - 1) % 2 ^ 32) bb2
        | .fail _ => back
        | .bad k => .bad k
  | .fail bb1 => .fail bb1
  | .bad k => .bad k

end BB

/-- The value computed by `BitBuffer::ReadSignedExponentialGolomb` from the unsigned code
number, src/rtc_common.cc:268-279: `-(int32)(u/2)` for even `u`, `((int32)u + 1) / 2` for odd
`u`; `none` when `(int32)u + 1` overflows. `(int32)u` is the two's complement reinterpretation;
`/` truncates toward zero. -/
def seOfUe (u : Nat) : Option Int :=
  if u % 2 = 0 then some (-(Int.ofNat (u / 2)))
  else
    let s : Int := if u < 2 ^ 31 then (u : Int) else (u : Int) - 2 ^ 32
    if s + 1 > 2 ^ 31 - 1 then none else some ((s + 1).tdiv 2)

/-- `BitBuffer::ReadSignedExponentialGolomb`, src/rtc_common.cc:268-279 -/
def BB.readSE (bb : BB) : Res Int :=
  match bb.readUE with
  | .ok u bb' =>
    match seOfUe u with
    | some v => .ok v bb'
    | none => .bad .signedOverflow
  | .fail bb' => .fail bb'
  | .bad k => .bad k

-- the reader on a concrete buffer (values of test/rtc_common_unittest style)
example : (BB.init [0xAB, 0xCD]).readBits 32 12 = .ok 0xABC ⟨[0xAB, 0xCD], 1, 4⟩ := by decide
example : (⟨[0x28], 0, 0⟩ : BB).readUE = .ok 4 ⟨[0x28], 0, 5⟩ := by decide
example : (BB.init [0x28]).readSE = .ok (-2) ⟨[0x28], 0, 5⟩ := by decide
example : (BB.init [0x00]).readUE = .fail ⟨[0x00], 0, 0⟩ := by decide

end H265
