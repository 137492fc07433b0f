/-
The printing primitives used by every `fdump` function (compiled under FDUMP_DEFINE): src/h265_common.cc:649-665 and the `fprintf`
formats.  The text written to the file is a list of characters.
-/
import Verif.Model.Prog

set_option autoImplicit false

namespace H265

/-- `ParsingOptions`, include/h265_common.h:216-232; all the members are true by default -/
structure ParsingOptions where
  add_offset : Bool := true
  add_length : Bool := true
  add_parsed_length : Bool := true
  add_checksum : Bool := true
  add_resolution : Bool := true
  deriving DecidableEq

/-! ### Numbers, as `fprintf` prints them -/

/-- a decimal or lower case hexadecimal digit, as printed by the `fprintf` formats `%i`, `%x` (e.g. src/h265_vps_parser.cc:270, 291) -/
def digitChar (n : Nat) : Char :=
  match n with
  | 0 => '0' | 1 => '1' | 2 => '2' | 3 => '3' | 4 => '4' | 5 => '5' | 6 => '6' | 7 => '7' | 8 => '8' | 9 => '9'
  | 10 => 'a' | 11 => 'b' | 12 => 'c' | 13 => 'd' | 14 => 'e' | _ => 'f'

/-- the digits of `n` in base `b`, most significant first, no leading zeros; `fuel` bounds the number of digits (`fprintf`, e.g. src/h265_vps_parser.cc:270) -/
def digitsAux (b : Nat) : Nat → Nat → List Char
  | 0, _ => []
  | fuel + 1, n => if n < b then [digitChar n] else digitsAux b fuel (n / b) ++ [digitChar (n % b)]

/-- `%u`, `%zu`, `%" PRIu64 "` of a non-negative number, e.g. src/h265_sei_parser.cc:917, src/h265_configuration_box_parser.cc:290 -/
def putU (n : Nat) : List Char := digitsAux 10 (n + 1) n

/-- `%d`, `%i` of an `int32_t`, e.g. src/h265_sps_parser.cc:852 -/
def putD (n : Int) : List Char := if n < 0 then '-' :: putU (-n).toNat else putU n.toNat

/-- the 32 bits of a `uint32_t` read as an `int`; every member printed with `%i` is a `uint32_t`, so `n < 2 ^ 32` (e.g. src/h265_vps_parser.cc:270) -/
def asInt32 (n : Nat) : Int := if n < 2 ^ 31 then (n : Int) else (n : Int) - 2 ^ 32

/-- `%i` of a `uint32_t` variable: the 32 bits are printed as an `int`, e.g. src/h265_vps_parser.cc:270 -/
def putI (n : Nat) : List Char := putD (asInt32 n)

/-- `%x`, part of the formats of src/h265_vps_parser.cc:291, src/h265_nal_unit_parser.cc:95 -/
def putX (n : Nat) : List Char := digitsAux 16 (n + 1) n

/-- zero padding to at least `w` characters (the `0w` of `%04x`, src/h265_vps_parser.cc:291) -/
def zeroPad (w : Nat) (s : List Char) : List Char := List.replicate (w - s.length) '0' ++ s

/-- `%0wx`, `%0wzx`, e.g. src/h265_vps_parser.cc:291, src/h265_nal_unit_parser.cc:95, src/h265_common.cc:730 -/
def putX0 (w n : Nat) : List Char := zeroPad w (putX n)

/-- `%.df` of the number `n / 10 ^ d`.  The code computes `v * 0.00002` and prints 5 decimals resp. `v * 0.0001` and prints 4
decimals, in double precision, with `v < 2 ^ 32`: the exact product has at most 5 resp. 4 decimals and the double differs from it by less than
10⁻⁹, so the rounded text is that of the exact product (proved: `C87_chroma`, `C87_candela`).  src/h265_sei_parser.cc:917-940. -/
def putF (d n : Nat) : List Char := putU (n / 10 ^ d) ++ '.' :: zeroPad d (putU (n % 10 ^ d))

/-! ### Documents -/

/-- What an `fdump` function does: a sequence of calls of `fprintf` (`put`) and `fdump_indent_level(outfp, indent_level)` (`ind`);
`nest d` is `indent_level = indent_level_incr(indent_level); d; indent_level = indent_level_decr(indent_level);`  E.g. src/h265_aud_parser.cc:47-57. -/
inductive Doc where
  | nil
  | cat (a b : Doc)
  | ind
  | put (s : List Char)
  | nest (d : Doc)
  deriving DecidableEq

/-- `indent_level_incr`, src/h265_common.cc:649-651 -/
def indentIncr (lvl : Int) : Int := if lvl = -1 then -1 else lvl + 1

/-- `indent_level_decr`, src/h265_common.cc:653-655 -/
def indentDecr (lvl : Int) : Int := if lvl = -1 then -1 else lvl - 1

/-- `fdump_indent_level`, src/h265_common.cc:657-665, for levels `-1` (one line) and up -/
def indentText (lvl : Int) : List Char := if lvl = -1 then [' '] else '\n' :: List.replicate (2 * lvl).toNat ' '

/-- The text written at an indent level ≥ -1.  (For these levels `indent_level_decr` undoes `indent_level_incr`, see `indentDecr_incr`,
so the level after `nest` is the level before it.)  src/h265_common.cc:649-665. -/
def Doc.render : Doc → Int → List Char
  | .nil, _ => []
  | .cat a b, lvl => a.render lvl ++ b.render lvl
  | .ind, lvl => indentText lvl
  | .put s, _ => s
  | .nest d, lvl => d.render (indentIncr lvl)

theorem indentDecr_incr (lvl : Int) (h : -1 ≤ lvl) : indentDecr (indentIncr lvl) = lvl := by
  unfold indentDecr indentIncr
  by_cases h1 : lvl = -1
  · simp [h1]
  · rw [if_neg h1, if_neg (by omega)]; omega

/-- An `fdump` function: it may dereference a null pointer or read past the end of a vector.  E.g. src/h265_vps_parser.cc:295 dereferences a pointer, src/h265_configuration_box_parser.cc:347 indexes a vector. -/
abbrev Dump := Except Bad Doc

/-- what the function writes when called with this indent level (include/h265_aud_parser.h:30 and the other declarations of `fdump`) -/
def Dump.text (x : Dump) (lvl : Int) : Except Bad (List Char) := x.map (·.render lvl)

namespace Dump

/-- statements one after the other, e.g. the body of src/h265_aud_parser.cc:47-57 -/
def seq : List Dump → Dump
  | [] => .ok .nil
  | d :: ds =>
    match d with
    | .error k => .error k
    | .ok a =>
      match seq ds with
      | .error k => .error k
      | .ok b => .ok (.cat a b)

/-- `fdump_indent_level(…); fprintf(outfp, "<name>: <value>", …);`, e.g. src/h265_vps_parser.cc:269-270 -/
def fld (name : String) (v : List Char) : Dump := .ok (.cat .ind (.put (name.toList ++ ": ".toList ++ v)))

/-- `for (v : list) fprintf(outfp, " <v>", v); fprintf(outfp, " }");`, e.g. src/h265_vps_parser.cc:303-306 -/
def items {α : Type} (f : α → List Char) (l : List α) : List Char := l.flatMap f ++ " }".toList

/-- `" <v>"`, e.g. src/h265_vps_parser.cc:304 -/
def item {α : Type} (p : α → List Char) (v : α) : List Char := ' ' :: p v
/-- `" <v> "`, e.g. src/h265_profile_tier_level_parser.cc:938 -/
def itemGap {α : Type} (p : α → List Char) (v : α) : List Char := ' ' :: (p v ++ [' '])
/-- an inner list: `" {"`, the elements, `" }"`, e.g. src/h265_pps_scc_extension_parser.cc:215-219 -/
def sub {α : Type} (f : α → List Char) (l : List α) : List Char := " {".toList ++ items f l

/-- `fdump_indent_level(…); fprintf(outfp, "<name> {"); for …`, e.g. src/h265_vps_parser.cc:301-306 -/
def lst {α : Type} (name : String) (f : α → List Char) (l : List α) : Dump :=
  .ok (.cat .ind (.put (name.toList ++ " {".toList ++ items f l)))

/-- `fprintf(outfp, "<name> {"); level up; body; level down; fdump_indent_level(…); fprintf(outfp, "}");`, e.g. src/h265_aud_parser.cc:48-56 -/
def blk (name : String) (body : List Dump) : Dump :=
  match seq body with
  | .error k => .error k
  | .ok b => .ok (.cat (.put (name.toList ++ " {".toList)) (.cat (.nest b) (.cat .ind (.put ['}']))))

/-- `fdump_indent_level(…); p->fdump(outfp, indent_level);`, e.g. src/h265_vps_parser.cc:294-295 -/
def on (d : Dump) : Dump := seq [.ok .ind, d]

/-- `if (c) { … }`, e.g. src/h265_sps_parser.cc:796-799 -/
def cond (c : Prop) [Decidable c] (body : List Dump) : Dump := if c then seq body else .ok .nil

/-- dereferencing a pointer, e.g. src/h265_vps_parser.cc:295 -/
def deref {α : Type} (o : Option α) (f : α → Dump) : Dump :=
  match o with
  | none => .error .nullDeref
  | some a => f a

/-- `if (p) { … }`, e.g. src/h265_nal_unit_payload_parser.cc:183-185 -/
def ifSome {α : Type} (o : Option α) (f : α → Dump) : Dump :=
  match o with
  | none => .ok .nil
  | some a => f a

/-- an access `list[i]`, e.g. src/h265_configuration_box_parser.cc:347 -/
def elem {α : Type} (l : List α) (i : Nat) (f : α → Dump) : Dump :=
  match l[i]? with
  | none => .error .oob
  | some a => f a

/-- `for (auto& v : list) { … }`, e.g. src/h265_bitstream_parser.cc:276-279 -/
def each {α : Type} (l : List α) (f : α → Dump) : Dump := seq (l.map f)

/-- `for (i = 0; i < n; ++i) { … list[i] … }`, e.g. src/h265_configuration_box_parser.cc:358-364 -/
def upTo {α : Type} (n : Nat) (l : List α) (f : Nat → α → Dump) : Dump :=
  if n ≤ l.length then seq ((l.take n).mapIdx f) else .error .oob

end Dump

end H265
