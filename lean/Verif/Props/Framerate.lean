/- C58: the frame rate of the VUI. -/
import Verif.Model.Framerate
import Verif.Props.Vps

set_option autoImplicit false

namespace H265
open Spec

/-! ### Rounding to an integer -/

theorem roundEven_bounds (a b : Nat) (hb : 0 < b) :
    2 * (roundEven a b * b) ≤ 2 * a + b ∧ 2 * a ≤ 2 * (roundEven a b * b) + b ∧ a / b ≤ roundEven a b ∧ roundEven a b ≤ a / b + 1 ∧
      (roundEven a b = a / b + 1 → a % b ≠ 0) := by
  have h := Nat.div_add_mod a b
  have hm := Nat.mod_lt a hb
  have hc : b * (a / b) = a / b * b := Nat.mul_comm _ _
  unfold roundEven
  split
  · refine ⟨?_, ?_, ?_, ?_, ?_⟩ <;> omega
  · rw [Nat.add_mul, Nat.one_mul]
    refine ⟨?_, ?_, ?_, ?_, ?_⟩ <;> omega

/-! ### The exponent -/

/-- the exponent chosen by `F32.round` -/
def expo (n d : Nat) : Nat :=
  if 2 ^ 23 * (d * 2 ^ (126 + n.log2 - d.log2)) ≤ n * 2 ^ 149 then 126 + n.log2 - d.log2 else 126 + n.log2 - d.log2 - 1

theorem expo_spec (n d : Nat) (hn : n ≠ 0) (hd : d ≠ 0) (h : d.log2 ≤ 125 + n.log2) :
    2 ^ 23 * (d * 2 ^ expo n d) ≤ n * 2 ^ 149 ∧ n * 2 ^ 149 < 2 ^ 24 * (d * 2 ^ expo n d) := by
  have n1 := Nat.log2_self_le hn
  have n2 := Nat.lt_log2_self (n := n)
  have d1 := Nat.log2_self_le hd
  have d2 := Nat.lt_log2_self (n := d)
  unfold expo
  generalize hL : n.log2 = L at *
  generalize hM : d.log2 = M at *
  split
  · rename_i hle
    refine ⟨hle, ?_⟩
    calc n * 2 ^ 149 < 2 ^ (L + 1) * 2 ^ 149 := Nat.mul_lt_mul_of_pos_right n2 (by decide)
      _ = 2 ^ 24 * (2 ^ M * 2 ^ (126 + L - M)) := by
        rw [← Nat.pow_add, ← Nat.pow_add, ← Nat.pow_add]; congr 1; omega
      _ ≤ 2 ^ 24 * (d * 2 ^ (126 + L - M)) := Nat.mul_le_mul_left _ (Nat.mul_le_mul_right _ d1)
  · rename_i hgt
    have he : 126 + L - M = (126 + L - M - 1) + 1 := by omega
    refine ⟨?_, ?_⟩
    · calc 2 ^ 23 * (d * 2 ^ (126 + L - M - 1)) ≤ 2 ^ 23 * (2 ^ (M + 1) * 2 ^ (126 + L - M - 1)) :=
            Nat.mul_le_mul_left _ (Nat.mul_le_mul_right _ (Nat.le_of_lt d2))
        _ = 2 ^ L * 2 ^ 149 := by rw [← Nat.pow_add, ← Nat.pow_add, ← Nat.pow_add]; congr 1; omega
        _ ≤ n * 2 ^ 149 := Nat.mul_le_mul_right _ n1
    · rw [he, Nat.pow_succ 2 (126 + L - M - 1)] at hgt
      generalize 2 ^ (126 + L - M - 1) = P at *
      have : d * (P * 2) = d * P * 2 := by rw [Nat.mul_assoc]
      rw [this] at hgt
      generalize d * P = Q at *
      generalize n * 2 ^ 149 = R at *
      omega

theorem round_eq (n d : Nat) (hn : n ≠ 0) : F32.round n d = .fin (roundEven (n * 2 ^ 149) (d * 2 ^ expo n d)) (expo n d) := by
  unfold F32.round
  rw [if_neg hn]
  rfl

/-- a number is nearest to `a` among the multiples of `b` -/
theorem nearest_multiple (a b c : Nat) (hb : 0 < b) :
    ((roundEven a b * b : Nat) - (a : Nat) : Int).natAbs ≤ ((c * b : Nat) - (a : Nat) : Int).natAbs := by
  obtain ⟨h1, h2, _⟩ := roundEven_bounds a b hb
  generalize roundEven a b = m at *
  rcases Nat.lt_trichotomy c m with h | rfl | h
  · have := Nat.mul_le_mul_right b (show c + 1 ≤ m from h)
    rw [Nat.add_mul, Nat.one_mul] at this
    generalize c * b = x at *
    generalize m * b = y at *
    omega
  · exact Nat.le_refl _
  · have := Nat.mul_le_mul_right b (show m + 1 ≤ c from h)
    rw [Nat.add_mul, Nat.one_mul] at this
    generalize c * b = x at *
    generalize m * b = y at *
    omega

theorem roundEven_range {a b : Nat} (hb : 0 < b) (h1 : 2 ^ 23 * b ≤ a) (h2 : a < 2 ^ 24 * b) : 2 ^ 23 ≤ roundEven a b ∧ roundEven a b ≤ 2 ^ 24 := by
  obtain ⟨_, _, h3, h4, _⟩ := roundEven_bounds a b hb
  have h5 : 2 ^ 23 ≤ a / b := (Nat.le_div_iff_mul_le hb).2 h1
  have h6 : a / b < 2 ^ 24 := (Nat.div_lt_iff_lt_mul hb).2 h2
  omega

/-- C58: rounding as in the code gives a binary32 number nearest to the exact quotient (for quotients between 2⁻¹⁰⁰ and 2¹⁰⁰). -/
theorem C58_rounding (n d : Nat) (hd : d ≠ 0) (h : d.log2 ≤ 100 + n.log2) (h' : n.log2 ≤ 100 + d.log2) :
    ∃ m p, F32.round n d = .fin m p ∧ Nearest n d m p := by
  by_cases hn : n = 0
  · subst hn
    refine ⟨0, 0, rfl, ⟨0, 0, rfl, by decide, by decide⟩, ?_⟩
    intro m' p' _
    simp
  · obtain ⟨e1, e2⟩ := expo_spec n d hn hd (by omega)
    have hp : expo n d ≤ 226 := by unfold expo; split <;> omega
    rw [round_eq n d hn]
    generalize expo n d = p at *
    have hb : 0 < d * 2 ^ p := Nat.mul_pos (by omega) (Nat.pow_pos (by decide))
    obtain ⟨r1, r2⟩ := roundEven_range hb e1 e2
    have near := nearest_multiple (n * 2 ^ 149) (d * 2 ^ p) (hb := hb)
    refine ⟨_, p, rfl, ?_, ?_⟩
    · by_cases hm : roundEven (n * 2 ^ 149) (d * 2 ^ p) = 2 ^ 24
      · refine ⟨2 ^ 23, p + 1, ?_, by decide, by omega⟩
        rw [hm, Nat.pow_succ 2 p, Nat.mul_comm (2 ^ p) 2, ← Nat.mul_assoc]
      · exact ⟨_, p, rfl, by omega, by omega⟩
    · intro m' p' ⟨m1, p1, he, hm1, _⟩
      rw [he]
      generalize hM : roundEven (n * 2 ^ 149) (d * 2 ^ p) = m at *
      have hl : m * 2 ^ p * d = m * (d * 2 ^ p) := by rw [Nat.mul_assoc, Nat.mul_comm (2 ^ p)]
      rw [hl]
      by_cases hc : p ≤ p1
      · have hx : m1 * 2 ^ p1 * d = m1 * 2 ^ (p1 - p) * (d * 2 ^ p) := by
          rw [show 2 ^ p1 = 2 ^ (p1 - p) * 2 ^ p by rw [← Nat.pow_add]; congr 1; omega]
          rw [Nat.mul_comm d, ← Nat.mul_assoc, ← Nat.mul_assoc]
        rw [hx]
        exact near _
      · have hx : m1 * 2 ^ p1 * d ≤ 2 ^ 23 * (d * 2 ^ p) := by
          calc m1 * 2 ^ p1 * d ≤ 2 ^ 24 * 2 ^ p1 * d := Nat.mul_le_mul_right _ (Nat.mul_le_mul_right _ (Nat.le_of_lt hm1))
            _ = 2 ^ 23 * (d * 2 ^ (p1 + 1)) := by
              rw [Nat.pow_succ 2 p1, Nat.mul_comm d, show (2 : Nat) ^ 24 = 2 ^ 23 * 2 from rfl, Nat.mul_assoc (2 ^ 23), Nat.mul_comm 2 (2 ^ p1),
                Nat.mul_assoc (2 ^ 23)]
            _ ≤ 2 ^ 23 * (d * 2 ^ p) := Nat.mul_le_mul_left _ (Nat.mul_le_mul_left _ (Nat.pow_le_pow_right (by decide) (by omega)))
        have hn := near (2 ^ 23)
        generalize m * (d * 2 ^ p) = y at *
        generalize m1 * 2 ^ p1 * d = x at *
        generalize 2 ^ 23 * (d * 2 ^ p) = z at *
        generalize n * 2 ^ 149 = w at *
        omega

/-- C58: half way between two multiples of the last place, the even one is taken: a quotient `(k + 1/2) * 2 ^ p / 2 ^ 149` is rounded to an even `m`. -/
theorem C58_ties_to_even (n d k m p : Nat) (hd : d ≠ 0) (h : F32.round n d = .fin m p) (ht : 2 * (n * 2 ^ 149) = (2 * k + 1) * (d * 2 ^ p)) :
    m % 2 = 0 ∧ (m = k ∨ m = k + 1) := by
  have hb : 0 < d * 2 ^ p := Nat.mul_pos (by omega) (Nat.pow_pos (by decide))
  by_cases hn : n = 0
  · subst hn
    have : 0 < (2 * k + 1) * (d * 2 ^ p) := Nat.mul_pos (by omega) hb
    omega
  · rw [round_eq n d hn] at h
    simp only [F32.fin.injEq] at h
    obtain ⟨h1, h2⟩ := h
    rw [h2] at h1
    generalize n * 2 ^ 149 = a at *
    generalize d * 2 ^ p = b at *
    have hd1 := Nat.div_add_mod a b
    have hlt := Nat.mod_lt a hb
    have hq : a / b = k := by
      apply Nat.div_eq_of_lt_le
      · have : 2 * (k * b) + b = 2 * a := by rw [ht, Nat.add_mul, Nat.one_mul, Nat.mul_assoc]
        omega
      · have : 2 * (k * b) + b = 2 * a := by rw [ht, Nat.add_mul, Nat.one_mul, Nat.mul_assoc]
        rw [Nat.add_mul, Nat.one_mul]
        omega
    have hr : 2 * (a % b) = b := by
      rw [hq, Nat.mul_comm] at hd1
      have : 2 * (k * b) + b = 2 * a := by rw [ht, Nat.add_mul, Nat.one_mul, Nat.mul_assoc]
      omega
    unfold roundEven at h1
    rw [hq] at h1
    split at h1 <;> omega

/-- the error of one rounding is at most one part in 2²⁴ -/
theorem round_error (n d : Nat) (hn : n ≠ 0) (hd : d ≠ 0) (h : d.log2 ≤ 125 + n.log2) :
    ∃ m p, F32.round n d = .fin m p ∧ m ≠ 0 ∧ 2 ^ 24 * (m * 2 ^ p * d) ≤ (2 ^ 24 + 1) * (n * 2 ^ 149) ∧
      (2 ^ 24 - 1) * (n * 2 ^ 149) ≤ 2 ^ 24 * (m * 2 ^ p * d) := by
  obtain ⟨e1, e2⟩ := expo_spec n d hn hd h
  rw [round_eq n d hn]
  generalize expo n d = p at *
  have hb : 0 < d * 2 ^ p := Nat.mul_pos (by omega) (Nat.pow_pos (by decide))
  obtain ⟨r1, r2⟩ := roundEven_range hb e1 e2
  obtain ⟨b1, b2, _⟩ := roundEven_bounds (n * 2 ^ 149) (d * 2 ^ p) hb
  refine ⟨_, p, rfl, by omega, ?_⟩
  generalize roundEven (n * 2 ^ 149) (d * 2 ^ p) = m at *
  have hl : m * 2 ^ p * d = m * (d * 2 ^ p) := by rw [Nat.mul_assoc, Nat.mul_comm (2 ^ p)]
  rw [hl]
  generalize m * (d * 2 ^ p) = y at *
  generalize d * 2 ^ p = z at *
  generalize n * 2 ^ 149 = w at *
  omega

theorem log_low {y w q : Nat} (h : 2 * q ≤ w) (h2 : (2 ^ 24 - 1) * w ≤ 2 ^ 24 * y) : q ≤ y := by omega
theorem log_high {y w q : Nat} (h : w ≤ q) (hq : 0 < q) (h2 : 2 ^ 24 * y ≤ (2 ^ 24 + 1) * w) : y < 4 * q := by omega

/-- `(float)v` of a positive 32 bit number -/
theorem ofNat_error (v : Nat) (h0 : v ≠ 0) (h : v < 2 ^ 32) :
    ∃ m p, F32.ofNat v = .fin m p ∧ m ≠ 0 ∧ 2 ^ 24 * (m * 2 ^ p) ≤ (2 ^ 24 + 1) * (v * 2 ^ 149) ∧
      (2 ^ 24 - 1) * (v * 2 ^ 149) ≤ 2 ^ 24 * (m * 2 ^ p) ∧ 148 ≤ (m * 2 ^ p).log2 ∧ (m * 2 ^ p).log2 ≤ 182 := by
  obtain ⟨m, p, he, hm, h1, h2⟩ := round_error v 1 h0 (by decide) (by have : Nat.log2 1 = 0 := by decide
                                                                      omega)
  rw [Nat.mul_one] at h1 h2
  refine ⟨m, p, he, hm, h1, h2, ?_, ?_⟩
  · refine (Nat.le_log2 ?_).2 ?_
    · exact Nat.mul_ne_zero hm (Nat.ne_of_gt (Nat.pow_pos (by decide)))
    · have h3 : 2 * 2 ^ 148 ≤ v * 2 ^ 149 := by
        rw [show (2 : Nat) * 2 ^ 148 = 1 * 2 ^ 149 from rfl]
        exact Nat.mul_le_mul_right _ (by omega)
      exact log_low h3 h2
  · refine Nat.le_of_lt_succ ((Nat.log2_lt ?_).2 ?_)
    · exact Nat.mul_ne_zero hm (Nat.ne_of_gt (Nat.pow_pos (by decide)))
    · have h3 : v * 2 ^ 149 ≤ 2 ^ 181 := by
        rw [show (2 : Nat) ^ 181 = 2 ^ 32 * 2 ^ 149 from Nat.pow_add 2 32 149]
        exact Nat.mul_le_mul_right _ (by omega)
      have h4 : (2 : Nat) ^ Nat.succ 182 = 4 * 2 ^ 181 := Nat.pow_add 2 2 181
      rw [h4]
      exact log_high h3 (Nat.pow_pos (by decide)) h1

/-- C58: for positive 32 bit numbers the frame rate is a finite number within one part in 2²² of
`vui_time_scale / vui_num_units_in_tick`. -/
theorem C58_close (v : VuiParameters) (hn : v.vui_time_scale ≠ 0) (hd : v.vui_num_units_in_tick ≠ 0)
    (hn' : v.vui_time_scale < 2 ^ 32) (hd' : v.vui_num_units_in_tick < 2 ^ 32) :
    ∃ m p, v.getFramerate = .fin m p ∧ WithinOnePartIn (2 ^ 22) v.vui_time_scale v.vui_num_units_in_tick m p := by
  unfold VuiParameters.getFramerate
  generalize v.vui_time_scale = n at *
  generalize v.vui_num_units_in_tick = d at *
  obtain ⟨m1, p1, e1, z1, a1, a2, l1, l2⟩ := ofNat_error n hn hn'
  obtain ⟨m2, p2, e2, z2, b1, b2, k1, k2⟩ := ofNat_error d hd hd'
  rw [e1, e2]
  unfold F32.div
  dsimp only
  rw [if_neg z2]
  have y1 : m1 * 2 ^ p1 ≠ 0 := Nat.mul_ne_zero z1 (Nat.ne_of_gt (Nat.pow_pos (by decide)))
  have y2 : m2 * 2 ^ p2 ≠ 0 := Nat.mul_ne_zero z2 (Nat.ne_of_gt (Nat.pow_pos (by decide)))
  obtain ⟨m, p, e, _, c1, c2⟩ := round_error (m1 * 2 ^ p1) (m2 * 2 ^ p2) y1 y2 (by omega)
  refine ⟨m, p, e, ?_⟩
  unfold WithinOnePartIn
  generalize m1 * 2 ^ p1 = A1 at *
  generalize m2 * 2 ^ p2 = A2 at *
  generalize m * 2 ^ p = X at *
  have hT : 0 < 2 ^ 149 := by decide
  generalize 2 ^ 149 = T at *
  have up : (2 ^ 24 - 1) * 2 ^ 24 * (X * d) ≤ (2 ^ 24 + 1) * (2 ^ 24 + 1) * (n * T) := by
    refine Nat.le_of_mul_le_mul_right (c := T) ?_ hT
    have s1 : X * ((2 ^ 24 - 1) * (d * T)) ≤ X * (2 ^ 24 * A2) := Nat.mul_le_mul_left _ b2
    have s2 : 2 ^ 24 * A1 * T ≤ (2 ^ 24 + 1) * (n * T) * T := Nat.mul_le_mul_right _ a1
    have r1 : X * ((2 ^ 24 - 1) * (d * T)) = (2 ^ 24 - 1) * (X * d * T) := by rw [Nat.mul_left_comm, Nat.mul_assoc X]
    have r2 : X * (2 ^ 24 * A2) = 2 ^ 24 * (X * A2) := Nat.mul_left_comm ..
    have r3 : 2 ^ 24 * A1 * T = 2 ^ 24 * (A1 * T) := Nat.mul_assoc ..
    have r4 : (2 ^ 24 + 1) * (n * T) * T = (2 ^ 24 + 1) * (n * T * T) := Nat.mul_assoc ..
    have r5 : (2 ^ 24 - 1) * 2 ^ 24 * (X * d) * T = (2 ^ 24 - 1) * 2 ^ 24 * (X * d * T) := Nat.mul_assoc ..
    have r6 : (2 ^ 24 + 1) * (2 ^ 24 + 1) * (n * T) * T = (2 ^ 24 + 1) * (2 ^ 24 + 1) * (n * T * T) := Nat.mul_assoc ..
    rw [r5, r6]
    rw [r1, r2] at s1
    rw [r3, r4] at s2
    generalize X * A2 = x1 at *
    generalize X * d * T = x2 at *
    generalize A1 * T = x3 at *
    generalize n * T * T = x4 at *
    omega
  have lo : (2 ^ 24 - 1) * (2 ^ 24 - 1) * (n * T) ≤ (2 ^ 24 + 1) * 2 ^ 24 * (X * d) := by
    refine Nat.le_of_mul_le_mul_right (c := T) ?_ hT
    have s1 : X * (2 ^ 24 * A2) ≤ X * ((2 ^ 24 + 1) * (d * T)) := Nat.mul_le_mul_left _ b1
    have s2 : (2 ^ 24 - 1) * (n * T) * T ≤ 2 ^ 24 * A1 * T := Nat.mul_le_mul_right _ a2
    have r1 : X * ((2 ^ 24 + 1) * (d * T)) = (2 ^ 24 + 1) * (X * d * T) := by rw [Nat.mul_left_comm, Nat.mul_assoc X]
    have r2 : X * (2 ^ 24 * A2) = 2 ^ 24 * (X * A2) := Nat.mul_left_comm ..
    have r3 : 2 ^ 24 * A1 * T = 2 ^ 24 * (A1 * T) := Nat.mul_assoc ..
    have r4 : (2 ^ 24 - 1) * (n * T) * T = (2 ^ 24 - 1) * (n * T * T) := Nat.mul_assoc ..
    have r5 : (2 ^ 24 + 1) * 2 ^ 24 * (X * d) * T = (2 ^ 24 + 1) * 2 ^ 24 * (X * d * T) := Nat.mul_assoc ..
    have r6 : (2 ^ 24 - 1) * (2 ^ 24 - 1) * (n * T) * T = (2 ^ 24 - 1) * (2 ^ 24 - 1) * (n * T * T) := Nat.mul_assoc ..
    rw [r5, r6]
    rw [r1, r2] at s1
    rw [r3, r4] at s2
    generalize X * A2 = x1 at *
    generalize X * d * T = x2 at *
    generalize A1 * T = x3 at *
    generalize n * T * T = x4 at *
    omega
  generalize X * d = x at *
  generalize n * T = y at *
  omega

/-- a 24 bit number is converted exactly -/
theorem ofNat_exact (v : Nat) (h : v < 2 ^ 24) : ∃ m p, F32.ofNat v = .fin m p ∧ m * 2 ^ p = v * 2 ^ 149 := by
  by_cases h0 : v = 0
  · subst h0; exact ⟨0, 0, rfl, by decide⟩
  · have hL : v.log2 < 24 := (Nat.log2_lt h0).2 h
    have hp : expo v 1 ≤ 149 := by
      have : Nat.log2 1 = 0 := by decide
      unfold expo; split <;> omega
    unfold F32.ofNat
    rw [round_eq v 1 h0, Nat.one_mul]
    generalize expo v 1 = p at *
    refine ⟨_, p, rfl, ?_⟩
    have hb : 0 < 2 ^ p := Nat.pow_pos (by decide)
    have hx : v * 2 ^ 149 = v * 2 ^ (149 - p) * 2 ^ p := by
      rw [Nat.mul_assoc, ← Nat.pow_add]; congr 2; omega
    have hm : v * 2 ^ 149 % 2 ^ p = 0 := by rw [hx]; exact Nat.mul_mod_left ..
    have hr : roundEven (v * 2 ^ 149) (2 ^ p) = v * 2 ^ 149 / 2 ^ p := by
      unfold roundEven
      rw [hm, if_pos (.inl (by omega))]
    rw [hr]
    exact Nat.div_mul_cancel (Nat.dvd_of_mod_eq_zero hm)

/-- C58: if both numbers are below 2²⁴ (no frame rate in use needs more), the result is a binary32 number nearest to the quotient; in particular
the quotient itself if that is a binary32 number. -/
theorem C58_nearest (v : VuiParameters) (hd : v.vui_num_units_in_tick ≠ 0)
    (hn' : v.vui_time_scale < 2 ^ 24) (hd' : v.vui_num_units_in_tick < 2 ^ 24) :
    ∃ m p, v.getFramerate = .fin m p ∧ Nearest v.vui_time_scale v.vui_num_units_in_tick m p := by
  unfold VuiParameters.getFramerate
  generalize v.vui_time_scale = n at *
  generalize v.vui_num_units_in_tick = d at *
  obtain ⟨m1, p1, e1, x1⟩ := ofNat_exact n hn'
  obtain ⟨m2, p2, e2, x2⟩ := ofNat_exact d hd'
  have hT : 0 < 2 ^ 149 := by decide
  have z2 : m2 ≠ 0 := by
    rintro rfl
    rw [Nat.zero_mul] at x2
    exact absurd x2.symm (Nat.mul_ne_zero hd (by decide))
  have lg : ∀ x, x ≠ 0 → x < 2 ^ 24 → 149 ≤ (x * 2 ^ 149).log2 ∧ (x * 2 ^ 149).log2 < 173 := by
    intro x hx hl
    have h0 : x * 2 ^ 149 ≠ 0 := Nat.mul_ne_zero hx (by decide)
    refine ⟨(Nat.le_log2 h0).2 ?_, (Nat.log2_lt h0).2 ?_⟩
    · have := Nat.mul_le_mul_right (2 ^ 149) (show 1 ≤ x by omega); rwa [Nat.one_mul] at this
    · exact Nat.lt_of_lt_of_eq (Nat.mul_lt_mul_of_pos_right hl hT) (by rw [← Nat.pow_add])
  rw [e1, e2]
  unfold F32.div
  dsimp only
  rw [if_neg z2, x1, x2]
  by_cases hn : n = 0
  · subst hn
    refine ⟨0, 0, rfl, ⟨0, 0, rfl, by decide, by decide⟩, ?_⟩
    intro m' p' _
    simp
  · have l1 := lg n hn hn'
    have l2 := lg d hd hd'
    obtain ⟨m, p, e, hb, hN⟩ := C58_rounding (n * 2 ^ 149) (d * 2 ^ 149) (Nat.mul_ne_zero hd (by decide)) (by omega) (by omega)
    refine ⟨m, p, e, hb, ?_⟩
    intro m' p' hb'
    have := hN m' p' hb'
    generalize 2 ^ 149 = T at *
    have sc : ∀ X : Nat, ((X * (d * T) : Nat) - (n * T * T : Nat) : Int).natAbs = T * ((X * d : Nat) - (n * T : Nat) : Int).natAbs := by
      intro X
      rw [← Nat.mul_assoc]
      generalize X * d = a
      generalize n * T = b
      rw [← Int.natAbs_natCast T, ← Int.natAbs_mul, Int.natAbs_natCast, Int.mul_sub]
      simp only [Int.natCast_mul, Int.mul_comm]
    rw [sc, sc] at this
    exact Nat.le_of_mul_le_mul_left this hT

/-- C58: without a clock tick there is no number: infinity, or NaN if the time scale is zero too. -/
theorem C58_no_ticks (v : VuiParameters) (hd : v.vui_num_units_in_tick = 0) :
    (v.vui_time_scale = 0 → v.getFramerate = .nan) ∧ (v.vui_time_scale ≠ 0 → v.vui_time_scale < 2 ^ 32 → v.getFramerate = .inf) := by
  unfold VuiParameters.getFramerate
  rw [hd]
  refine ⟨?_, ?_⟩
  · intro h; rw [h]; decide
  · intro h h'
    obtain ⟨m, p, e, hm, _⟩ := ofNat_error _ h h'
    rw [e, show F32.ofNat 0 = .fin 0 0 from rfl]
    unfold F32.div
    dsimp only
    rw [if_pos rfl, if_neg hm]

/-- C58: every VUI a parser returns: with a clock tick the frame rate is finite and within one part in 2²² of the quotient; without, it is infinite
or NaN; without timing information it is NaN. -/
theorem C58_parsed {max_sub : Nat} {bb bb' : BB} {v : VuiParameters} (hw : bb.WF) (h : (parseVuiParameters max_sub).run bb = .ok v bb') :
    (v.vui_timing_info_present_flag = 0 → v.getFramerate = .nan) ∧
    (v.vui_num_units_in_tick = 0 → v.getFramerate = if v.vui_time_scale = 0 then .nan else .inf) ∧
    (v.vui_num_units_in_tick ≠ 0 →
      ∃ m p, v.getFramerate = .fin m p ∧ WithinOnePartIn (2 ^ 22) v.vui_time_scale v.vui_num_units_in_tick m p) := by
  have hv := ((C30_vui_inverts max_sub).sound bb bb' v hw h).1
  have b1 : v.vui_num_units_in_tick < 2 ^ 32 := by
    have := hv.vui_num_units_in_tick
    by_cases hc : v.vui_timing_info_present_flag ≠ 0
    · exact this.1 hc
    · rw [this.2 hc]; decide
  have b2 : v.vui_time_scale < 2 ^ 32 := by
    have := hv.vui_time_scale
    by_cases hc : v.vui_timing_info_present_flag ≠ 0
    · exact this.1 hc
    · rw [this.2 hc]; decide
  refine ⟨?_, ?_, ?_⟩
  · intro h0
    exact (C58_no_ticks v (hv.vui_num_units_in_tick.2 (by simp [h0]))).1 (hv.vui_time_scale.2 (by simp [h0]))
  · intro h0
    split
    · exact (C58_no_ticks v h0).1 ‹_›
    · exact (C58_no_ticks v h0).2 ‹_› b2
  · intro h0
    by_cases hn : v.vui_time_scale = 0
    · refine ⟨0, 0, ?_, ?_⟩
      · unfold VuiParameters.getFramerate
        rw [hn]
        obtain ⟨m2, p2, e2, z2, _⟩ := ofNat_error _ h0 b1
        rw [e2, show F32.ofNat 0 = .fin 0 0 from rfl]
        unfold F32.div
        dsimp only
        rw [if_neg z2]
        simp [F32.round]
      · unfold WithinOnePartIn
        rw [hn]
        simp
    · exact C58_close v hn h0 b2 b1

/-! ### Examples -/

/-- 30000 / 1001: the nearest float is 15712927 / 2 ^ 19 (29.970030…) -/
example : ({ (default : VuiParameters) with vui_time_scale := 30000, vui_num_units_in_tick := 1001 } : VuiParameters).getFramerate =
    .fin 15712927 130 := by decide +kernel

/-- 50 exactly: 13107200 * 2 ^ 131 / 2 ^ 149 -/
example : ({ (default : VuiParameters) with vui_time_scale := 50000, vui_num_units_in_tick := 1000 } : VuiParameters).getFramerate =
    .fin 13107200 131 := by decide +kernel

/-- the hypothesis of `C58_parsed` is met: a VUI with timing information, 30000 / 1001 -/
example : (((parseVuiParameters 0).runBytes [0, 128, 0, 1, 244, 128, 0, 58, 152, 0]).val?.map (·.getFramerate)) = some (.fin 15712927 130) := by
  decide +kernel

/-- … and 30000 / 0, which the parser accepts -/
example : (((parseVuiParameters 0).runBytes [0, 128, 0, 0, 0, 0, 0, 58, 152, 0]).val?.map (·.getFramerate)) = some .inf := by
  decide +kernel

/-- ties: 2 ^ 24 + 1 is half way between two floats and is rounded down, 2 ^ 24 + 3 is rounded up -/
example : F32.round (2 ^ 24 + 1) 1 = .fin 8388608 150 ∧ 2 * ((2 ^ 24 + 1) * 2 ^ 149) = (2 * 8388608 + 1) * (1 * 2 ^ 150) ∧
    F32.round (2 ^ 24 + 3) 1 = .fin 8388610 150 ∧ 2 * ((2 ^ 24 + 3) * 2 ^ 149) = (2 * 8388609 + 1) * (1 * 2 ^ 150) := by decide +kernel

end H265
