/-
Inputs in which the parser reads no long Exp-Golomb code, and parser states that come from such inputs only.
-/
import Verif.Model.Rtp
import Verif.Proof.Denote

set_option autoImplicit false

namespace H265.Spec

/-- Every ue(v) and se(v) element that the program reads in its run on the bits `r` has a code number below `2 ^ n - 1`, that is, a code
with fewer than `n` leading zeros. -/
def CodesBelow (n : Nat) {α : Type} : Prog α → List Bool → Prop
  | .ret _, _ => True
  | .fail, _ => True
  | .bad _, _ => True
  | .read w m k, r => if m ≤ w ∧ m ≤ r.length then CodesBelow n (k (some (val (r.take m)))) (r.drop m) else CodesBelow n (k none) r
  | .ue k, r =>
    match ueSplit r with
    | some (v, r') => v < 2 ^ n - 1 ∧ CodesBelow n (k (some v)) r'
    | none => CodesBelow n (k none) r
  | .se k, r =>
    match ueSplit r with
    | some (c, r') => c < 2 ^ n - 1 ∧
      match seOfUe c with
      | some v => CodesBelow n (k (some v)) r'
      | none => True
    | none => CodesBelow n (k none) r
  | .peek m k, r => if m ≤ 32 ∧ m ≤ r.length then CodesBelow n (k (some (val (r.take m)))) r else CodesBelow n (k none) r
  | .remaining k, r => CodesBelow n (k r.length) r
  | .aligned k, r => CodesBelow n (k (r.length % 8 == 0)) r

/-- the codes read by `ParseNalUnit` -/
def ShortNal (n : Nat) (st : ParserState) (nal : List UInt8) : Prop :=
  ∀ rbsp, unescapeRbsp nal = .ok rbsp → CodesBelow n (parseNalUnitParts st) (bitsOf rbsp)

/-- the codes read by `ParseRtp`; the type of the packet is in its first byte -/
def ShortPacket (n : Nat) (st : ParserState) (packet : List UInt8) : Prop :=
  ∀ b0 rest, unescapeRbsp packet = .ok (b0 :: rest) →
    (b0.toNat / 2 % 64 ≤ 47 → CodesBelow n (parseRtpSingle st) (bitsOf (b0 :: rest))) ∧
    (b0.toNat / 2 % 64 = 48 → CodesBelow n (parseRtpAp st) (bitsOf (b0 :: rest))) ∧
    (b0.toNat / 2 % 64 = 49 → CodesBelow n (parseRtpFu st) (bitsOf (b0 :: rest)))

/-- the codes read when NAL units are parsed one after the other, with one parser state -/
def ShortUnits (n : Nat) (cs : Bool) : ParserState → List (List UInt8) → Prop
  | _, [] => True
  | st, nal :: l => ShortNal n st nal ∧
    match parseNalUnit cs st nal with
    | .ok (_, st1) _ => ShortUnits n cs st1 l
    | _ => ShortUnits n cs st l

/-- The parser states of a user who has passed NAL units and RTP packets (below 4 GiB) only in which no code with 27 or more leading zeros was read. -/
inductive ShortHistory : ParserState → Prop
  | new : ShortHistory .empty
  | nalUnit {st st' : ParserState} {cs : Bool} {data : List UInt8} {n : NalUnit} {b : BB} : ShortHistory st → data.length < 2 ^ 32 → ShortNal 27 st data →
      parseNalUnit cs st data = .ok (n, st') b → ShortHistory st'
  | packet {st st' : ParserState} {data : List UInt8} {r : Option Rtp} : ShortHistory st → data.length < 2 ^ 32 → ShortPacket 27 st data →
      parseRtp st data = .ok (r, st') → ShortHistory st'

/-- somewhere in the bits: `n` zeros in a row, and later a one -/
def ZeroRun (n : Nat) (bits : List Bool) : Prop := ∃ a b, bits = a ++ List.replicate n false ++ b ∧ true ∈ b

end H265.Spec
