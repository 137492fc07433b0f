/- Specification for C58: single precision numbers (IEEE 754 binary32) and what "nearest" means. -/

set_option autoImplicit false

namespace H265

/-- The non-negative values of a `float`: `fin m p` is the number `m * 2 ^ p / 2 ^ 149`. -/
inductive F32
  | nan
  | inf
  | fin (m p : Nat)
deriving DecidableEq

namespace Spec

/-- The finite non-negative binary32 numbers: 24 bits of precision, the smallest positive one `1 / 2 ^ 149`, below `2 ^ 128`. -/
def IsBinary32 (m p : Nat) : Prop := ∃ m' p', m * 2 ^ p = m' * 2 ^ p' ∧ m' < 2 ^ 24 ∧ p' ≤ 253

/-- `m * 2 ^ p / 2 ^ 149` is a binary32 number and no binary32 number is nearer to `n / d` (everything is multiplied by
`d * 2 ^ 149`). -/
def Nearest (n d m p : Nat) : Prop :=
  IsBinary32 m p ∧ ∀ m' p', IsBinary32 m' p' →
    ((m * 2 ^ p * d : Nat) - (n * 2 ^ 149 : Nat) : Int).natAbs ≤ ((m' * 2 ^ p' * d : Nat) - (n * 2 ^ 149 : Nat) : Int).natAbs

/-- The number `m * 2 ^ p / 2 ^ 149` differs from `n / d` by at most one part in `k`. -/
def WithinOnePartIn (k n d m p : Nat) : Prop :=
  k * ((m * 2 ^ p * d : Nat) - (n * 2 ^ 149 : Nat) : Int).natAbs ≤ n * 2 ^ 149

end Spec
end H265
