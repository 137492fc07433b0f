/- Model of `VuiParametersState::getFramerate`, src/h265_vui_parameters_parser.cc:405-410: single precision arithmetic. -/
import Verif.Model.Vui
import Verif.Spec.Framerate

set_option autoImplicit false

namespace H265

/-- `a / b` rounded to an integer, ties to even (the default rounding of IEEE 754, used by the conversions and the division in
src/h265_vui_parameters_parser.cc:408) -/
def roundEven (a b : Nat) : Nat :=
  if 2 * (a % b) < b ∨ 2 * (a % b) = b ∧ a / b % 2 = 0 then a / b else a / b + 1

/-- `n / d` (`d` positive) rounded to single precision, src/h265_vui_parameters_parser.cc:408: the exponent `p` is chosen so that the significand has
24 bits.  Simplified: no overflow, no subnormal numbers; the numbers in the code are between 2⁻³³ and 2³³. -/
def F32.round (n d : Nat) : F32 :=
  if n = 0 then .fin 0 0
  else
    let p := 126 + n.log2 - d.log2
    let p := if 2 ^ 23 * (d * 2 ^ p) ≤ n * 2 ^ 149 then p else p - 1
    .fin (roundEven (n * 2 ^ 149) (d * 2 ^ p)) p

/-- `(float)v` for a `uint32_t`, src/h265_vui_parameters_parser.cc:408 -/
def F32.ofNat (v : Nat) : F32 := F32.round v 1

/-- `a / b`, src/h265_vui_parameters_parser.cc:408; of non-negative numbers -/
def F32.div : F32 → F32 → F32
  | .fin m p, .fin m' p' =>
    if m' = 0 then (if m = 0 then .nan else .inf) else F32.round (m * 2 ^ p) (m' * 2 ^ p')
  | .inf, .fin _ _ => .inf
  | .fin _ _, .inf => .fin 0 0
  | _, _ => .nan

/-- `VuiParametersState::getFramerate`, src/h265_vui_parameters_parser.cc:405-410 -/
def VuiParameters.getFramerate (v : VuiParameters) : F32 :=
  (F32.ofNat v.vui_time_scale).div (F32.ofNat v.vui_num_units_in_tick)

end H265
