/-
`static_cast<size_t>(std::ceil(std::log2(static_cast<float>(x))))`, used for the widths of u(v) elements in
src/h265_slice_parser.cc:162-163, 260-262, 299-301.
-/

namespace H265

/-- The smallest `k` with `x ≤ 2 ^ k`, searched from `k` with `fuel` steps.  The exact value that the floating point expression of src/h265_slice_parser.cc:162-163 approximates. -/
def clog2From (x : Nat) : Nat → Nat → Nat
  | 0, k => k
  | fuel + 1, k => if x ≤ 2 ^ k then k else clog2From x fuel (k + 1)

/-- The value the C library computes for arguments above 2^20; nothing is known about it.  (src/h265_slice_parser.cc:162-163, 260-262, 299-301 with large arguments.) -/
opaque floatCeilLog2 : Nat → Nat

/-- `static_cast<size_t>(std::ceil(std::log2(static_cast<float>(x))))` for `x ≥ 1`, src/h265_slice_parser.cc:162-163.
Up to 2^20 the argument is exact in a `float` and the logarithm of a number that is not a power of two differs from an integer by
more than one unit in the last place of a `float`, so that the result is the exact ceiling of the logarithm (assuming a `log2f` with
an error below one such unit that is exact at powers of two; proved: `C87_log2`).  Above 2^20 this is not so (e.g. 2^22 + 1 is rounded down to 22) and
the result is left unspecified. -/
def ceilLog2f (x : Nat) : Nat := if x ≤ 2 ^ 20 then clog2From x 20 0 else floatCeilLog2 x

example : (ceilLog2f 1, ceilLog2f 2, ceilLog2f 3, ceilLog2f 64, ceilLog2f 65, ceilLog2f 920) = (0, 1, 2, 6, 7, 10) := by decide

end H265
