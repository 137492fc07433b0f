/-
The text form of a structure, as a list of words (line breaks and indentation do not matter): `name: value` for an element, `name { v v v }` for a
list, `name { … }` for a structure.
-/
import Verif.Spec.Dump

set_option autoImplicit false

namespace H265.Spec

/-- a list of words -/
abbrev Text := List (List Char)

/-- the usual decimal notation of a number -/
def decimal (v : Int) : List Char := (toString v).toList

/-- hexadecimal notation with at least `w` lower case digits -/
def hexadecimal (w n : Nat) : List Char := List.replicate (w - (Nat.toDigits 16 n).length) '0' ++ Nat.toDigits 16 n

/-- decimal notation of `n / 10 ^ d` with `d` decimals -/
def fraction (d n : Nat) : List Char :=
  decimal (n / 10 ^ d) ++ '.' :: (List.replicate (d - (decimal (n % 10 ^ d)).length) '0' ++ decimal (n % 10 ^ d))

/-- a 32 bit number printed as a signed number: numbers from 2³¹ on come out negative -/
def int32 (v : Nat) : Int := if v < 2 ^ 31 then (v : Int) else (v : Int) - 2 ^ 32

/-- `name: word word …` -/
def entry (name : String) (ws : Text) : Text := (name.toList ++ [':']) :: ws
/-- `name: value` -/
def num (name : String) (v : Int) : Text := entry name [decimal v]
/-- `name: value` of a 32 bit number -/
def u32 (name : String) (v : Nat) : Text := entry name [decimal (int32 v)]

/-- `{ … }` -/
def braces (ws : Text) : Text := ["{".toList] ++ ws ++ ["}".toList]
/-- `name { v v v }` -/
def listed {α : Type} (name : String) (f : α → Text) (l : List α) : Text := [name.toList] ++ braces (l.flatMap f)
/-- `v` -/
def one (v : Int) : Text := [decimal v]
/-- `v`, a 32 bit number -/
def one32 (v : Nat) : Text := [decimal (int32 v)]
/-- `{ v v v }` -/
def row {α : Type} (f : α → Text) (l : List α) : Text := braces (l.flatMap f)

/-- `name { … }` -/
def block (name : String) (ts : List Text) : Text := words name.toList ++ braces ts.flatten

/-- a part that is there only under a condition -/
def opt (c : Prop) [Decidable c] (ts : List Text) : Text := if c then ts.flatten else []

example : num "a" (-12) = ["a:".toList, "-12".toList] := by decide +kernel
example : block "b" [u32 "a" 7, listed "l" one [1, 2]] = words "b { a: 7 l { 1 2 } }".toList := by decide +kernel
example : fraction 4 12345 = "1.2345".toList := by decide +kernel
example : hexadecimal 8 48879 = "0000beef".toList := by decide +kernel

end H265.Spec
