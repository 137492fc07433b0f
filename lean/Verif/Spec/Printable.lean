/- Specification for C57: C strings in a character array, numbers in hexadecimal. -/

set_option autoImplicit false

namespace H265.Spec

/-- The array holds the C string `s`: its characters (none of them null), then a null character, then anything. -/
def HoldsString (b : List (Option Char)) (s : List Char) : Prop :=
  (∀ c ∈ s, c ≠ '\x00') ∧ ∃ rest, b = s.map some ++ some '\x00' :: rest

/-- the sixteen digits, in order -/
def hexDigits : List Char := "0123456789abcdef".toList

/-- `s` is the number `v` written with exactly `w` hexadecimal digits, the most significant one first. -/
def IsHex (w v : Nat) (s : List Char) : Prop :=
  s.length = w ∧ (∀ c ∈ s, c ∈ hexDigits) ∧ s.foldl (fun a c => 16 * a + hexDigits.idxOf c) 0 = v

/-- `s` is the concatenation of the bytes of `l`, each with two hexadecimal digits. -/
inductive IsHexBytes : List UInt8 → List Char → Prop
  | nil : IsHexBytes [] []
  | cons {b : UInt8} {l : List UInt8} {x s : List Char} : IsHex 2 b.toNat x → IsHexBytes l s → IsHexBytes (b :: l) (x ++ s)

end H265.Spec
