/-
Specification of the byte-level formats: emulation prevention (clause 7.3.1.1), byte stream
NAL units (Annex B), length-prefixed framing, and the one's complement checksum.
-/
import Verif.Spec.Bits

namespace H265.Spec

/-- Emulation prevention, clause 7.3.1.1: `z` is the number of zero bytes just written (since the
last inserted byte).  After two zero bytes, a byte `≤ 3` is preceded by `03`; a final `00 00`
(cabac_zero_words) is followed by `03`. -/
def escapeFrom : Nat → List UInt8 → List UInt8
  | z, [] => if z ≥ 2 then [3] else []
  | z, b :: bs =>
    if z ≥ 2 ∧ b ≤ 3 then 3 :: b :: escapeFrom (if b = 0 then 1 else 0) bs
    else b :: escapeFrom (if b = 0 then z + 1 else 0) bs

/-- The NAL unit bytes carrying an RBSP. -/
def escape (rbsp : List UInt8) : List UInt8 := escapeFrom 0 rbsp

/-- A start code `00 00 01` at position `p` that is followed by at least one byte. -/
def startCodeAt (data : List UInt8) (p : Nat) : Prop :=
  data[p]? = some 0 ∧ data[p + 1]? = some 0 ∧ data[p + 2]? = some 1 ∧ p + 3 < data.length

instance (data : List UInt8) (p : Nat) : Decidable (startCodeAt data p) := by
  unfold startCodeAt; exact inferInstance

/-- Where the start code at `p` begins: a zero byte right before it belongs to it (`zero_byte`). -/
def startCodeBegin (data : List UInt8) (p : Nat) : Nat :=
  if p > 0 ∧ data[p - 1]? = some 0 then p - 1 else p

/-- One Annex B unit: 3- or 4-byte start code and the NAL unit bytes. -/
def annexBUnit (long : Bool) (nal : List UInt8) : List UInt8 :=
  (if long then [0, 0, 0, 1] else [0, 0, 1]) ++ nal

/-- A byte stream. -/
def annexB (units : List (Bool × List UInt8)) : List UInt8 :=
  (units.map fun x => annexBUnit x.1 x.2).flatten

/-- A NAL unit as Annex B requires it: not empty, no `00 00 01` inside, last byte not zero. -/
structure NalBytes (nal : List UInt8) : Prop where
  nonempty : nal ≠ []
  no_start_code : ¬ [0, 0, 1] <:+: nal
  last_nonzero : nal.getLast? ≠ some 0

/-- Big-endian number of `n` bytes. -/
def beBytes : Nat → Nat → List UInt8
  | 0, _ => []
  | n + 1, v => UInt8.ofNat (v / 256 ^ n) :: beBytes n v

/-- A stream of NAL units each preceded by its size in `n` bytes. -/
def lengthPrefixed (n : Nat) (units : List (List UInt8)) : List UInt8 :=
  (units.map fun x => beBytes n x.length ++ x).flatten

/-- The big-endian number in the 4 bytes at `off`. -/
def be32 (data : List UInt8) (off : Nat) : Nat := val (bitsOf ((data.drop off).take 4))

/-- `units` (size-field offset, payload size) are exactly the complete length-prefixed units of
`data` from offset `off` on, up to the first one that is cut off by the end of the data. -/
inductive Framed (data : List UInt8) : Nat → List (Nat × Nat) → Prop where
  | stop {off : Nat} : data.length < off + 4 ∨ data.length < off + 4 + be32 data off → Framed data off []
  | unit {off : Nat} {l : List (Nat × Nat)} : off + 4 + be32 data off ≤ data.length →
      Framed data (off + 4 + be32 data off) l → Framed data off ((off, be32 data off) :: l)

/-- The big-endian number in the `n` bytes at `off`. -/
def beAt (n : Nat) (data : List UInt8) (off : Nat) : Nat := val (bitsOf ((data.drop off).take n))

/-- `units` (payload offset, payload size) are the NAL units of `data` from offset `off` on, each preceded by its size in `n` bytes, up to the first size that is
cut off, zero, or larger than what is left. -/
inductive FramedBy (n : Nat) (data : List UInt8) : Nat → List (Nat × Nat) → Prop where
  | stop {off : Nat} : data.length < off + n ∨ beAt n data off = 0 ∨ data.length < off + n + beAt n data off → FramedBy n data off []
  | unit {off : Nat} {l : List (Nat × Nat)} : beAt n data off ≠ 0 → off + n + beAt n data off ≤ data.length →
      FramedBy n data (off + n + beAt n data off) l → FramedBy n data off ((off + n, beAt n data off) :: l)

/-- The 32-bit big-endian words of a byte string, the last one padded with zeros. -/
def words32 : List UInt8 → List Nat
  | [] => []
  | [a] => [a.toNat * 2 ^ 24]
  | [a, b] => [a.toNat * 2 ^ 24 + b.toNat * 2 ^ 16]
  | [a, b, c] => [a.toNat * 2 ^ 24 + b.toNat * 2 ^ 16 + c.toNat * 2 ^ 8]
  | a :: b :: c :: d :: rest => (a.toNat * 2 ^ 24 + b.toNat * 2 ^ 16 + c.toNat * 2 ^ 8 + d.toNat) :: words32 rest

/-- One's complement (end-around carry) addition of 32-bit numbers. -/
def onesAdd (a b : Nat) : Nat := if a + b < 2 ^ 32 then a + b else a + b - 2 ^ 32 + 1

/-- Complement of the one's complement sum. -/
def checksum32 (data : List UInt8) : Nat := 2 ^ 32 - 1 - (words32 data).foldl onesAdd 0

example : escape [0, 0, 1, 0, 0, 0, 0, 0, 5] = [0, 0, 3, 1, 0, 0, 3, 0, 0, 3, 0, 5] := by decide
example : escape [9, 0, 0] = [9, 0, 0, 3] := by decide
example : words32 [1, 2, 3, 4, 5, 6] = [0x01020304, 0x05060000] := by decide

end H265.Spec
