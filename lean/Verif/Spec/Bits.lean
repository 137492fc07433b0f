/-
Specification layer: bit strings and the descriptors of Rec. ITU-T H.265.

Nothing in this file refers to the model of the code.  Bits are listed in
transmission order (most significant bit of the first byte first).
-/
namespace H265.Spec

/-- The 8 bits of a byte, most significant first (H.265 clause 6.2 / 7.2: bits of a
byte are read most significant bit first). -/
def byteBits (b : UInt8) : List Bool :=
  [b.toNat.testBit 7, b.toNat.testBit 6, b.toNat.testBit 5, b.toNat.testBit 4,
   b.toNat.testBit 3, b.toNat.testBit 2, b.toNat.testBit 1, b.toNat.testBit 0]

/-- The bit string of a byte string. -/
def bitsOf : List UInt8 → List Bool
  | [] => []
  | b :: bs => byteBits b ++ bitsOf bs

/-- The unsigned integer written by a bit string, most significant bit first. -/
def val (bs : List Bool) : Nat :=
  bs.foldl (fun acc b => 2 * acc + b.toNat) 0

/-- Descriptor u(n): the `n`-bit representation of `v`, most significant bit first. -/
def u : Nat → Nat → List Bool
  | 0, _ => []
  | n + 1, v => v.testBit n :: u n v

/-- Descriptor ue(v) (clause 9.2): `leadingZeroBits` zeros, then `v + 1` written with
`leadingZeroBits + 1` bits, where `leadingZeroBits = floor(log2(v + 1))`. -/
def ue (v : Nat) : List Bool :=
  List.replicate (Nat.log2 (v + 1)) false ++ u (Nat.log2 (v + 1) + 1) (v + 1)

/-- Clause 9.2.2: the code number assigned to a signed value. -/
def seCodeNum (v : Int) : Nat :=
  if 0 < v then 2 * v.toNat - 1 else 2 * (-v).toNat

/-- Descriptor se(v). -/
def se (v : Int) : List Bool := ue (seCodeNum v)

/-- A syntax element that is present only under a condition. -/
def cond (c : Prop) [Decidable c] (w : List Bool) : List Bool := if c then w else []

/-- A list of syntax elements written one after another. -/
def list {α : Type} (w : α → List Bool) (l : List α) : List Bool := (l.map w).flatten

/-- A list of syntax elements whose syntax depends on the loop index. -/
def listI {α : Type} (w : Nat → α → List Bool) : Nat → List α → List Bool
  | _, [] => []
  | i, a :: l => w i a ++ listI w (i + 1) l

/-- Syntax elements in order. -/
def seq (l : List (List Bool)) : List Bool := l.flatten

/-- Range condition on a syntax element that is present only when `c` holds; when absent its
value is the one given by `d`. -/
structure Opt (c v d : Prop) : Prop where
  present : c → v
  absent : ¬ c → d

/-- An optional syntax structure. -/
def optional {α : Type} (w : α → List Bool) : Option α → List Bool
  | none => []
  | some a => w a

/-- The structure is present exactly when `c` holds, and then satisfies `V`. -/
structure Maybe {α : Type} (c : Prop) (V : α → Prop) (o : Option α) : Prop where
  present : o.isSome ↔ c
  valid : ∀ x, o = some x → V x

/-- A list of exactly `n` elements satisfying `V`. -/
structure Each {α : Type} (n : Nat) (V : α → Prop) (l : List α) : Prop where
  length : l.length = n
  valid : ∀ x ∈ l, V x

/-- A list of exactly `n` elements, element number `i` satisfying `V i`. -/
structure EachI {α : Type} (n : Nat) (V : Nat → α → Prop) (l : List α) : Prop where
  length : l.length = n
  valid : ∀ i x, l[i]? = some x → V i x

-- sanity: the descriptors on the examples of Table 9-2 / 9-3
example : ue 0 = [true] := by decide
example : ue 3 = [false, false, true, false, false] := by decide
example : se 1 = [false, true, false] := by decide
example : se (-1) = [false, true, true] := by decide
example : val (u 8 0xA5) = 0xA5 := by decide
example : bitsOf [0xA5] = u 8 0xA5 := by decide

end H265.Spec
