/-
Double precision arithmetic (IEEE 754 binary64), where the code uses it: the texts of `fdump` of the mastering display SEI message and the
ceilings of src/h265_sps_parser.cc:896-897, 907-908.  The rest of the model has the exact results; `Verif.Props.Double` proves that they are
the results of the computations below.
-/
import Verif.Model.Framerate
import Verif.Model.DumpSei
import Verif.Model.SpsDerived

set_option autoImplicit false

namespace H265

/-- A non-negative binary floating point number, as a multiple of `1 / 2 ^ k`: `n / d` (`d` positive) rounded to nearest, ties to even, with
`q + 1` bits of precision (src/h265_sei_parser.cc:918, src/h265_sps_parser.cc:897).  Simplified: no overflow, no subnormal numbers; the
numbers in the code are between 2⁻³³ and 2³³. -/
def roundBin (q k n d : Nat) : Nat :=
  if n = 0 then 0
  else
    let p := (k - q) + n.log2 - d.log2
    let p := if 2 ^ q * (d * 2 ^ p) ≤ n * 2 ^ k then p else p - 1
    roundEven (n * 2 ^ k) (d * 2 ^ p) * 2 ^ p

/-- A non-negative `double`: the number `x.units / 2 ^ 1074` (src/h265_sei_parser.cc:918, src/h265_sps_parser.cc:897) -/
structure F64 where
  units : Nat
deriving DecidableEq

/-- the `double` for a decimal literal `n / d`, e.g. `0.00002` in src/h265_sei_parser.cc:918 -/
def F64.literal (n d : Nat) : F64 := ⟨roundBin 52 1074 n d⟩

/-- the conversion of an unsigned integer to `double`, e.g. `display_primaries_x[c]` in src/h265_sei_parser.cc:918 -/
def F64.ofNat (v : Nat) : F64 := ⟨roundBin 52 1074 v 1⟩

/-- `a * b`, src/h265_sei_parser.cc:918-940, src/h265_sps_parser.cc:897 -/
def F64.mul (a b : F64) : F64 := ⟨roundBin 52 1074 (a.units * b.units) (2 ^ 1074 * 2 ^ 1074)⟩

/-- `a / b` (`b` positive), src/h265_sps_parser.cc:897 -/
def F64.div (a b : F64) : F64 := ⟨roundBin 52 1074 a.units b.units⟩

/-- `static_cast<uint32_t>(std::ceil(x))` (`x` below 2³²), src/h265_sps_parser.cc:896-897 -/
def F64.ceil (x : F64) : Nat := ceilDiv x.units (2 ^ 1074)

/-- `%.df`: the number rounded to `d` decimals (correctly rounded, as the C library does), src/h265_sei_parser.cc:917-940 -/
def F64.printf (d : Nat) (x : F64) : List Char := putF d (roundEven (x.units * 10 ^ d) (2 ^ 1074))

/-- `"%u (%.5f)", v, v * 0.00002`, src/h265_sei_parser.cc:917-931 -/
def printChroma (v : Nat) : List Char :=
  putU v ++ " (".toList ++ ((F64.ofNat v).mul (F64.literal 2 100000)).printf 5 ++ ")".toList

/-- `"%u (%.4f cd/m^2)", v, v * 0.0001`, src/h265_sei_parser.cc:933-941 -/
def printCandela (v : Nat) : List Char :=
  putU v ++ " (".toList ++ ((F64.ofNat v).mul (F64.literal 1 10000)).printf 4 ++ " cd/m^2)".toList

/-- `static_cast<uint32_t>(std::ceil(1.0 * a / b))`, src/h265_sps_parser.cc:896-897, 907-908 -/
def ceilOfQuotient (a b : Nat) : Nat := (((F64.literal 1 1).mul (F64.ofNat a)).div (F64.ofNat b)).ceil

end H265
