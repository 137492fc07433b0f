/- Specification for C87: binary floating point numbers, what "nearest" means, and what an accurate logarithm is. -/

set_option autoImplicit false

namespace H265
namespace Spec

/-- `x / 2 ^ 1074` is a non-negative binary64 number: 53 bits of precision. -/
def IsBinary64 (x : Nat) : Prop := ∃ m e, x = m * 2 ^ e ∧ m < 2 ^ 53

/-- `x / 2 ^ 1074` is a binary64 number and none is nearer to `n / d` (everything is multiplied by `d * 2 ^ 1074`). -/
def NearestDouble (n d x : Nat) : Prop :=
  IsBinary64 x ∧ ∀ y, IsBinary64 y → ((x * d : Nat) - (n * 2 ^ 1074 : Nat) : Int).natAbs ≤ ((y * d : Nat) - (n * 2 ^ 1074 : Nat) : Int).natAbs

/-- The ceiling of `a / b`: the least `c` with `a ≤ c * b`. -/
def IsCeil (a b c : Nat) : Prop := a ≤ c * b ∧ ∀ c', a ≤ c' * b → c ≤ c'

/-- The ceiling of the logarithm: the least `k` with `x ≤ 2 ^ k`. -/
def IsCeilLog2 (x k : Nat) : Prop := x ≤ 2 ^ k ∧ ∀ k', x ≤ 2 ^ k' → k ≤ k'

/-- `m / 2 ^ s`, a binary32 number with a significand `m` of 24 bits (or zero), is what a `log2f` returns for `x` if the function is exact at
powers of two and elsewhere has an error of less than one unit in the last place:
`(m - 1) / 2 ^ s < log2 x < (m + 1) / 2 ^ s`. -/
structure AccurateLog2 (x m s : Nat) : Prop where
  exact : ∀ k, x = 2 ^ k → m = k * 2 ^ s
  digits : (∀ k, x ≠ 2 ^ k) → 2 ^ 23 ≤ m ∧ m < 2 ^ 24
  below : (∀ k, x ≠ 2 ^ k) → 2 ^ (m - 1) < x ^ 2 ^ s
  above : (∀ k, x ≠ 2 ^ k) → x ^ 2 ^ s < 2 ^ (m + 1)

end Spec
end H265
