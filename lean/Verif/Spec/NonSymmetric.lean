/- The non-symmetric unsigned code ns(n) documented in include/rtc_common.h (AV1 spec 4.10.7). -/
import Verif.Spec.Bits
namespace H265.Spec

/-- With `w = floor(log2 n) + 1` and `m = 2^w - n`, the values below `m` take `w - 1` bits, the
others are written as `v + m` on `w` bits. -/
def nonSymmetric (n v : Nat) : List Bool :=
  if v < 2 ^ (Nat.log2 n + 1) - n then u (Nat.log2 n) v
  else u (Nat.log2 n + 1) (v + (2 ^ (Nat.log2 n + 1) - n))

-- the table of include/rtc_common.h for n = 5
example : (List.range 5).map (nonSymmetric 5) =
  [[false, false], [false, true], [true, false], [true, true, false], [true, true, true]] := by decide

end H265.Spec
