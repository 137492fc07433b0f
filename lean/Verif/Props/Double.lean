/- C87: the floating point computations of the code give the exact results. -/
import Verif.Model.Double
import Verif.Model.FloatLog
import Verif.Spec.Double
import Verif.Props.Framerate
import Verif.Props.Sps

set_option autoImplicit false

namespace H265
open Spec

/-! ### Rounding with `q + 1` bits -/

/-- the exponent chosen by `roundBin` -/
def expoBin (q k n d : Nat) : Nat :=
  if 2 ^ q * (d * 2 ^ ((k - q) + n.log2 - d.log2)) ≤ n * 2 ^ k then (k - q) + n.log2 - d.log2 else (k - q) + n.log2 - d.log2 - 1

theorem roundBin_eq {q k n d : Nat} (hn : n ≠ 0) :
    roundBin q k n d = roundEven (n * 2 ^ k) (d * 2 ^ expoBin q k n d) * 2 ^ expoBin q k n d := by
  unfold roundBin
  rw [if_neg hn]
  rfl

theorem expoBin_spec {q k n d : Nat} (hn : n ≠ 0) (hd : d ≠ 0) (hq : q ≤ k) (h : d.log2 < (k - q) + n.log2) :
    2 ^ q * (d * 2 ^ expoBin q k n d) ≤ n * 2 ^ k ∧ n * 2 ^ k < 2 ^ (q + 1) * (d * 2 ^ expoBin q k n d) := by
  have n1 := Nat.log2_self_le hn
  have n2 := Nat.lt_log2_self (n := n)
  have d1 := Nat.log2_self_le hd
  have d2 := Nat.lt_log2_self (n := d)
  unfold expoBin
  generalize hL : n.log2 = L at *
  generalize hM : d.log2 = M at *
  obtain ⟨c, rfl⟩ : ∃ c, k = q + c := ⟨k - q, by omega⟩
  rw [show q + c - q = c by omega] at *
  split
  · rename_i hle
    refine ⟨hle, ?_⟩
    calc n * 2 ^ (q + c) < 2 ^ (L + 1) * 2 ^ (q + c) := Nat.mul_lt_mul_of_pos_right n2 (Nat.two_pow_pos _)
      _ = 2 ^ (q + 1) * (2 ^ M * 2 ^ (c + L - M)) := by
        rw [← Nat.pow_add, ← Nat.pow_add, ← Nat.pow_add]; congr 1; omega
      _ ≤ 2 ^ (q + 1) * (d * 2 ^ (c + L - M)) := Nat.mul_le_mul_left _ (Nat.mul_le_mul_right _ d1)
  · rename_i hgt
    have he : c + L - M = (c + L - M - 1) + 1 := by omega
    refine ⟨?_, ?_⟩
    · calc 2 ^ q * (d * 2 ^ (c + L - M - 1)) ≤ 2 ^ q * (2 ^ (M + 1) * 2 ^ (c + L - M - 1)) :=
            Nat.mul_le_mul_left _ (Nat.mul_le_mul_right _ (Nat.le_of_lt d2))
        _ = 2 ^ L * 2 ^ (q + c) := by rw [← Nat.pow_add, ← Nat.pow_add, ← Nat.pow_add]; congr 1; omega
        _ ≤ n * 2 ^ (q + c) := Nat.mul_le_mul_right _ n1
    · rw [he, Nat.pow_succ 2 (c + L - M - 1)] at hgt
      rw [Nat.pow_succ 2 q]
      generalize 2 ^ (c + L - M - 1) = P at *
      have e : 2 ^ q * (d * (P * 2)) = 2 ^ q * 2 * (d * P) := by
        rw [Nat.mul_comm P 2, ← Nat.mul_assoc d, Nat.mul_comm d 2, Nat.mul_assoc 2, Nat.mul_assoc]
      rw [e] at hgt
      exact Nat.lt_of_not_le hgt

/-- the error is at most half a unit in the last place: one part in `2 ^ (q + 1)` -/
theorem roundBin_error {q k n d : Nat} (hd : d ≠ 0) (hq : q ≤ k) (h : n ≠ 0 → d.log2 < (k - q) + n.log2) :
    2 * 2 ^ q * (roundBin q k n d * d) ≤ 2 * 2 ^ q * (n * 2 ^ k) + n * 2 ^ k ∧
    2 * 2 ^ q * (n * 2 ^ k) ≤ 2 * 2 ^ q * (roundBin q k n d * d) + n * 2 ^ k := by
  by_cases hn : n = 0
  · subst hn
    simp [roundBin]
  · obtain ⟨e1, _⟩ := expoBin_spec hn hd hq (h hn)
    rw [roundBin_eq hn]
    generalize expoBin q k n d = p at *
    have hb : 0 < d * 2 ^ p := Nat.mul_pos (by omega) (Nat.two_pow_pos _)
    obtain ⟨b1, b2, _⟩ := roundEven_bounds (n * 2 ^ k) (d * 2 ^ p) hb
    generalize roundEven (n * 2 ^ k) (d * 2 ^ p) = m at *
    have hl : m * 2 ^ p * d = m * (d * 2 ^ p) := by rw [Nat.mul_assoc, Nat.mul_comm (2 ^ p)]
    rw [hl]
    generalize m * (d * 2 ^ p) = y at *
    generalize d * 2 ^ p = z at *
    generalize n * 2 ^ k = w at *
    have c1 := Nat.mul_le_mul_left (2 ^ q) b1
    have c2 := Nat.mul_le_mul_left (2 ^ q) b2
    rw [Nat.mul_add] at c1 c2
    have r1 : 2 ^ q * (2 * y) = 2 * 2 ^ q * y := by rw [← Nat.mul_assoc, Nat.mul_comm (2 ^ q) 2]
    have r2 : 2 ^ q * (2 * w) = 2 * 2 ^ q * w := by rw [← Nat.mul_assoc, Nat.mul_comm (2 ^ q) 2]
    rw [r1, r2] at c1 c2
    generalize 2 * 2 ^ q * y = Y at *
    generalize 2 * 2 ^ q * w = W at *
    omega

theorem roundEven_exact {a b : Nat} (hb : 0 < b) (h : a % b = 0) : roundEven a b * b = a := by
  unfold roundEven
  rw [if_pos (Or.inl (by omega))]
  exact Nat.div_mul_cancel (Nat.dvd_of_mod_eq_zero h)

/-- a quotient that is a floating point number is not changed -/
theorem roundBin_exact {q k n d m e : Nat} (hd : d ≠ 0) (hq : q ≤ k) (h : n ≠ 0 → d.log2 < (k - q) + n.log2)
    (he : n * 2 ^ k = m * 2 ^ e * d) (hm : m < 2 ^ (q + 1)) : roundBin q k n d = m * 2 ^ e := by
  have hd' : 0 < d := by omega
  by_cases hn : n = 0
  · subst hn
    rw [Nat.zero_mul] at he
    have : m * 2 ^ e = 0 := by
      rcases Nat.mul_eq_zero.1 he.symm with h | h
      · exact h
      · omega
    rw [this]
    rfl
  · obtain ⟨e1, _⟩ := expoBin_spec hn hd hq (h hn)
    rw [roundBin_eq hn]
    generalize expoBin q k n d = p at *
    have hp : p ≤ e := by
      have h1 : 2 ^ (q + p) * d < 2 ^ (q + 1 + e) * d := by
        calc 2 ^ (q + p) * d = 2 ^ q * (d * 2 ^ p) := by rw [Nat.pow_add, Nat.mul_comm d, Nat.mul_assoc]
          _ ≤ m * 2 ^ e * d := by rw [← he]; exact e1
          _ < 2 ^ (q + 1) * 2 ^ e * d := Nat.mul_lt_mul_of_pos_right (Nat.mul_lt_mul_of_pos_right hm (Nat.two_pow_pos _)) hd'
          _ = 2 ^ (q + 1 + e) * d := by rw [← Nat.pow_add]
      have h2 := Nat.lt_of_mul_lt_mul_right h1
      have h3 := (Nat.pow_lt_pow_iff_right (by decide : 1 < 2)).1 h2
      omega
    have hb : 0 < d * 2 ^ p := Nat.mul_pos hd' (Nat.two_pow_pos _)
    have hx : n * 2 ^ k = m * 2 ^ (e - p) * (d * 2 ^ p) := by
      rw [he, show 2 ^ e = 2 ^ (e - p) * 2 ^ p by rw [← Nat.pow_add]; congr 1; omega]
      rw [Nat.mul_comm d, ← Nat.mul_assoc, ← Nat.mul_assoc]
    have hr := roundEven_exact hb (by rw [hx, Nat.mul_mod_left] : n * 2 ^ k % (d * 2 ^ p) = 0)
    apply Nat.eq_of_mul_eq_mul_right hd'
    rw [← he, Nat.mul_assoc, Nat.mul_comm (2 ^ p)]
    exact hr

/-! ### Double precision -/

theorem log2_two_pow_mul {v : Nat} (hv : v ≠ 0) (K : Nat) : (v * 2 ^ K).log2 = v.log2 + K := by
  have h1 := Nat.log2_self_le hv
  have h2 := Nat.lt_log2_self (n := v)
  have hne : v * 2 ^ K ≠ 0 := Nat.mul_ne_zero hv (Nat.ne_of_gt (Nat.two_pow_pos _))
  apply Nat.le_antisymm
  · have : (v * 2 ^ K).log2 < v.log2 + K + 1 := by
      refine (Nat.log2_lt hne).2 ?_
      rw [show v.log2 + K + 1 = (v.log2 + 1) + K by omega, Nat.pow_add]
      exact Nat.mul_lt_mul_of_pos_right h2 (Nat.two_pow_pos _)
    omega
  · refine (Nat.le_log2 hne).2 ?_
    rw [Nat.pow_add]
    exact Nat.mul_le_mul_right _ h1

theorem log2_lt_of {v j : Nat} (h : v < 2 ^ j) : v.log2 ≤ j := by
  by_cases hv : v = 0
  · subst hv; simp
  · exact Nat.le_of_lt ((Nat.log2_lt hv).2 h)

theorem roundBin_nearest {q k n d : Nat} (hd : d ≠ 0) (hq : q ≤ k) (h : n ≠ 0 → d.log2 < (k - q) + n.log2) :
    (∃ m e, roundBin q k n d = m * 2 ^ e ∧ m < 2 ^ (q + 1)) ∧ ∀ m1 p1, m1 < 2 ^ (q + 1) →
      ((roundBin q k n d * d : Nat) - (n * 2 ^ k : Nat) : Int).natAbs ≤ ((m1 * 2 ^ p1 * d : Nat) - (n * 2 ^ k : Nat) : Int).natAbs := by
  by_cases hn : n = 0
  · subst hn
    refine ⟨⟨0, 0, rfl, Nat.two_pow_pos _⟩, fun m1 p1 _ => ?_⟩
    have e : roundBin q k 0 d = 0 := rfl
    rw [e, Nat.zero_mul, Nat.zero_mul]
    exact Nat.zero_le _
  · obtain ⟨e1, e2⟩ := expoBin_spec hn hd hq (h hn)
    rw [roundBin_eq hn]
    generalize expoBin q k n d = p at *
    have hb : 0 < d * 2 ^ p := Nat.mul_pos (by omega) (Nat.two_pow_pos _)
    generalize n * 2 ^ k = w at *
    have near := nearest_multiple w (d * 2 ^ p) (hb := hb)
    obtain ⟨_, _, r3, r4, _⟩ := roundEven_bounds w (d * 2 ^ p) hb
    have r6 : w / (d * 2 ^ p) < 2 ^ (q + 1) := (Nat.div_lt_iff_lt_mul hb).2 e2
    refine ⟨?_, ?_⟩
    · by_cases hm : roundEven w (d * 2 ^ p) = 2 ^ (q + 1)
      · refine ⟨2 ^ q, p + 1, ?_, Nat.pow_lt_pow_right (by decide) (by omega)⟩
        rw [hm, Nat.pow_succ 2 p, Nat.pow_succ 2 q, Nat.mul_comm (2 ^ p) 2, ← Nat.mul_assoc]
      · exact ⟨_, p, rfl, by omega⟩
    · intro m1 p1 hm1
      generalize roundEven w (d * 2 ^ p) = m at *
      have hl : m * 2 ^ p * d = m * (d * 2 ^ p) := by rw [Nat.mul_assoc, Nat.mul_comm (2 ^ p)]
      rw [hl]
      by_cases hc : p ≤ p1
      · have hx : m1 * 2 ^ p1 * d = m1 * 2 ^ (p1 - p) * (d * 2 ^ p) := by
          rw [show 2 ^ p1 = 2 ^ (p1 - p) * 2 ^ p by rw [← Nat.pow_add]; congr 1; omega]
          rw [Nat.mul_comm d, ← Nat.mul_assoc, ← Nat.mul_assoc]
        rw [hx]
        exact near _
      · have hx : m1 * 2 ^ p1 * d ≤ 2 ^ q * (d * 2 ^ p) := by
          calc m1 * 2 ^ p1 * d ≤ 2 ^ (q + 1) * 2 ^ p1 * d := Nat.mul_le_mul_right _ (Nat.mul_le_mul_right _ (Nat.le_of_lt hm1))
            _ = 2 ^ q * (d * 2 ^ (p1 + 1)) := by
              rw [Nat.pow_succ 2 p1, Nat.mul_comm d, Nat.pow_succ 2 q, Nat.mul_assoc (2 ^ q), Nat.mul_comm 2 (2 ^ p1), Nat.mul_assoc (2 ^ q)]
            _ ≤ 2 ^ q * (d * 2 ^ p) := Nat.mul_le_mul_left _ (Nat.mul_le_mul_left _ (Nat.pow_le_pow_right (by decide) (by omega)))
        have hn := near (2 ^ q)
        generalize m * (d * 2 ^ p) = y at *
        generalize m1 * 2 ^ p1 * d = x at *
        generalize 2 ^ q * (d * 2 ^ p) = z at *
        omega

/-- C87: the rounding of the model gives a binary64 number nearest to the exact value (for quotients above 2⁻¹⁰⁰⁰). -/
theorem C87_rounding (n d : Nat) (hd : d ≠ 0) (h : n ≠ 0 → d.log2 < 1000 + n.log2) : NearestDouble n d (roundBin 52 1074 n d) := by
  obtain ⟨h1, h2⟩ := roundBin_nearest (q := 52) (k := 1074) hd (by decide) (fun hn => by have := h hn; omega)
  refine ⟨h1, ?_⟩
  rintro y ⟨m1, p1, rfl, hm1⟩
  exact h2 m1 p1 hm1

/-- integers of up to 53 bits are exact -/
theorem double_exact {v : Nat} (h : v < 2 ^ 53) : (F64.ofNat v).units = v * 2 ^ 1074 := by
  refine roundBin_exact (q := 52) (k := 1074) (by decide) (by decide) ?_ (Nat.mul_one _).symm h
  intro _
  have : Nat.log2 1 = 0 := by decide
  omega

/-- a product with two factors: the exact product of the units, rounded -/
theorem mul_error {q k v x : Nat} (hq : q ≤ k) (hx : q < x.log2) :
    2 * 2 ^ q * roundBin q k (v * 2 ^ k * x) (2 ^ k * 2 ^ k) ≤ 2 * 2 ^ q * (v * x) + v * x ∧
    2 * 2 ^ q * (v * x) ≤ 2 * 2 ^ q * roundBin q k (v * 2 ^ k * x) (2 ^ k * 2 ^ k) + v * x := by
  have hB : 0 < 2 ^ k := Nat.two_pow_pos _
  have hlog : (2 ^ k * 2 ^ k).log2 = k + k := by
    rw [log2_two_pow_mul (Nat.ne_of_gt hB), Nat.log2_two_pow]
  have hx0 : x ≠ 0 := by
    rintro rfl
    simp at hx
  obtain ⟨h1, h2⟩ := roundBin_error (q := q) (k := k) (n := v * 2 ^ k * x) (d := 2 ^ k * 2 ^ k)
    (Nat.mul_ne_zero (Nat.ne_of_gt hB) (Nat.ne_of_gt hB)) hq (by
      intro hn
      have hv0 : v ≠ 0 := by
        rintro rfl
        simp at hn
      rw [hlog]
      have e : v * 2 ^ k * x = v * x * 2 ^ k := by rw [Nat.mul_right_comm]
      rw [e, log2_two_pow_mul (Nat.mul_ne_zero hv0 hx0)]
      have : x.log2 ≤ (v * x).log2 := by
        refine (Nat.le_log2 (Nat.mul_ne_zero hv0 hx0)).2 (Nat.le_trans (Nat.log2_self_le hx0) ?_)
        exact Nat.le_mul_of_pos_left _ (by omega)
      omega)
  generalize roundBin q k (v * 2 ^ k * x) (2 ^ k * 2 ^ k) = r at *
  generalize 2 ^ k = B at *
  have e : v * B * x * B = v * x * (B * B) := by
    rw [Nat.mul_right_comm v B x, Nat.mul_assoc]
  have hBB : 0 < B * B := Nat.mul_pos hB hB
  rw [e] at h1 h2
  generalize B * B = C at *
  rw [← Nat.mul_assoc, ← Nat.mul_assoc _ (v * x) C, ← Nat.add_mul] at h1
  rw [← Nat.mul_assoc, ← Nat.mul_assoc _ r C, ← Nat.add_mul] at h2
  exact ⟨Nat.le_of_mul_le_mul_right h1 hBB, Nat.le_of_mul_le_mul_right h2 hBB⟩

theorem roundEven_of_near {a b c : Nat} (h1 : 2 * a < 2 * (c * b) + b) (h2 : 2 * (c * b) < 2 * a + b) : roundEven a b = c := by
  have hb : 0 < b := by omega
  have h := Nat.div_add_mod a b
  have hm := Nat.mod_lt a hb
  have hc : b * (a / b) = a / b * b := Nat.mul_comm _ _
  rcases Nat.lt_or_ge a (c * b) with hlt | hge
  · have hq : a / b + 1 = c := by
      have hp : 0 < c := by
        rcases Nat.eq_zero_or_pos c with h0 | h0
        · subst h0; omega
        · exact h0
      obtain ⟨c', rfl⟩ : ∃ c', c = c' + 1 := ⟨c - 1, by omega⟩
      rw [Nat.add_mul, Nat.one_mul] at *
      congr 1
      apply Nat.div_eq_of_lt_le
      · omega
      · rw [Nat.add_mul, Nat.one_mul]; omega
    unfold roundEven
    rw [if_neg, hq]
    rw [← hq, Nat.add_mul, Nat.one_mul] at h2 hlt
    omega
  · have hq : a / b = c := by
      apply Nat.div_eq_of_lt_le
      · omega
      · rw [Nat.add_mul, Nat.one_mul]; omega
    unfold roundEven
    rw [if_pos, hq]
    rw [hq] at hc h
    omega

/-- `v * (u / D)` printed with the decimals of `D`: the arithmetic of the two errors -/
theorem near_product {Q B D u v x r : Nat} (hB : 0 < B)
    (x1 : 2 * Q * (x * D) ≤ 2 * Q * (u * B) + u * B) (x2 : 2 * Q * (u * B) ≤ 2 * Q * (x * D) + u * B)
    (r1 : 2 * Q * r ≤ 2 * Q * (v * x) + v * x) (r2 : 2 * Q * (v * x) ≤ 2 * Q * r + v * x) (hQ : 4 * (u * v) < Q) (hQ1 : 1 ≤ Q) :
    2 * (r * D) < 2 * (u * v * B) + B ∧ 2 * (u * v * B) < 2 * (r * D) + B := by
  -- multiply the first pair by `v`, the second by `D`
  have a1 := Nat.mul_le_mul_left v x1
  have a2 := Nat.mul_le_mul_left v x2
  have b1 := Nat.mul_le_mul_left D r1
  have b2 := Nat.mul_le_mul_left D r2
  have e1 : v * (2 * Q * (x * D)) = 2 * Q * (v * x * D) := by simp only [Nat.mul_assoc, Nat.mul_left_comm, Nat.mul_comm]
  have e2 : v * (2 * Q * (u * B)) = 2 * Q * (u * v * B) := by simp only [Nat.mul_assoc, Nat.mul_left_comm, Nat.mul_comm]
  have e3 : v * (u * B) = u * v * B := by rw [← Nat.mul_assoc, Nat.mul_comm v u]
  have e4 : D * (2 * Q * r) = 2 * Q * (r * D) := by simp only [Nat.mul_assoc, Nat.mul_left_comm, Nat.mul_comm]
  have e5 : D * (2 * Q * (v * x)) = 2 * Q * (v * x * D) := by simp only [Nat.mul_assoc, Nat.mul_left_comm, Nat.mul_comm]
  have e6 : D * (v * x) = v * x * D := Nat.mul_comm _ _
  rw [Nat.mul_add, e1, e2, e3] at a1
  rw [Nat.mul_add, e1, e2, e3] at a2
  rw [Nat.mul_add, e4, e5, e6] at b1
  rw [Nat.mul_add, e4, e5, e6] at b2
  have hW : 4 * (u * v * B) < Q * B := by
    rw [← Nat.mul_assoc]
    exact Nat.mul_lt_mul_of_pos_right hQ hB
  -- `v x D ≤ 2 u v B`
  have hle : v * x * D ≤ 2 * (u * v * B) := by
    have h1 : Q * (v * x * D) ≤ Q * (2 * (u * v * B)) := by
      have h2 : u * v * B ≤ Q * (u * v * B) := Nat.le_mul_of_pos_left _ hQ1
      have h3 : 2 * Q * (v * x * D) = 2 * (Q * (v * x * D)) := Nat.mul_assoc _ _ _
      have h4 : 2 * Q * (u * v * B) = 2 * (Q * (u * v * B)) := Nat.mul_assoc _ _ _
      have h5 : Q * (2 * (u * v * B)) = 2 * (Q * (u * v * B)) := Nat.mul_left_comm _ _ _
      omega
    exact Nat.le_of_mul_le_mul_left h1 hQ1
  have f1 : 2 * Q * (r * D) = Q * (2 * (r * D)) := by rw [Nat.mul_comm 2 Q, Nat.mul_assoc]
  have f2 : 2 * Q * (u * v * B) = Q * (2 * (u * v * B)) := by rw [Nat.mul_comm 2 Q, Nat.mul_assoc]
  refine ⟨Nat.lt_of_mul_lt_mul_left (a := Q) ?_, Nat.lt_of_mul_lt_mul_left (a := Q) ?_⟩
  · rw [Nat.mul_add]
    omega
  · rw [Nat.mul_add]
    omega

theorem printed_units {q k u D v : Nat} (hq : q ≤ k) (hD : D ≠ 0) (hlog : u ≠ 0 → D.log2 < (k - q) + u.log2)
    (hx : q < (roundBin q k u D).log2) (hQ : 4 * (u * v) < 2 ^ q) :
    roundEven (roundBin q k (v * 2 ^ k * roundBin q k u D) (2 ^ k * 2 ^ k) * D) (2 ^ k) = u * v := by
  obtain ⟨x1, x2⟩ := roundBin_error hD hq hlog
  obtain ⟨r1, r2⟩ := mul_error (v := v) hq hx
  obtain ⟨n1, n2⟩ := near_product (Nat.two_pow_pos k) x1 x2 r1 r2 hQ (Nat.two_pow_pos _)
  exact roundEven_of_near n1 n2

theorem printed {u D d v : Nat} (hd : 10 ^ d = D) (hv : v < 2 ^ 32) (hD : D ≠ 0) (hlog : u ≠ 0 → D.log2 < 1022 + u.log2)
    (hx : 52 < (roundBin 52 1074 u D).log2) (hQ : 4 * (u * v) < 2 ^ 52) :
    ((F64.ofNat v).mul (F64.literal u D)).printf d = putF d (u * v) := by
  have h := printed_units (q := 52) (k := 1074) (v := v) (by decide) hD hlog hx hQ
  unfold F64.printf F64.mul F64.literal
  rw [double_exact (Nat.lt_trans hv (by decide)), hd]
  exact congrArg (putF d) h

/-- C87: the texts the code prints with double precision arithmetic are those of the exact numbers `v * 0.00002`. -/
theorem C87_chroma (v : Nat) (h : v < 2 ^ 32) : printChroma v = putChroma v := by
  unfold printChroma putChroma
  rw [printed (d := 5) rfl h (by decide) (by decide +kernel) (by decide +kernel) (by omega)]

/-- C87: the texts the code prints with double precision arithmetic are those of the exact numbers `v * 0.0001`. -/
theorem C87_candela (v : Nat) (h : v < 2 ^ 32) : printCandela v = putCandela v := by
  unfold printCandela putCandela
  rw [printed (d := 4) rfl h (by decide) (by decide +kernel) (by decide +kernel) (by omega), Nat.one_mul]

/-! ### The ceiling of a quotient -/

theorem mul_one_exact {q k a : Nat} (hq : q < k) (ha : a < 2 ^ (q + 1)) :
    roundBin q k (1 * 2 ^ k * (a * 2 ^ k)) (2 ^ k * 2 ^ k) = a * 2 ^ k := by
  have hB : 0 < 2 ^ k := Nat.two_pow_pos _
  refine roundBin_exact (Nat.mul_ne_zero (Nat.ne_of_gt hB) (Nat.ne_of_gt hB)) (Nat.le_of_lt hq) ?_ ?_ ha
  · intro hn
    have ha0 : a ≠ 0 := by
      rintro rfl
      simp at hn
    have e : 1 * 2 ^ k * (a * 2 ^ k) = a * 2 ^ k * 2 ^ k := by rw [Nat.one_mul, Nat.mul_comm]
    rw [e, log2_two_pow_mul (Nat.ne_of_gt hB), Nat.log2_two_pow, log2_two_pow_mul (Nat.mul_ne_zero ha0 (Nat.ne_of_gt hB)), log2_two_pow_mul ha0]
    omega
  · generalize 2 ^ k = B
    rw [Nat.one_mul, Nat.mul_comm B (a * B), Nat.mul_assoc]

theorem quotient_units {q k a b : Nat} (hq : q < k) (hqk : q + 2 < k - q) (ha : a < 2 ^ q) (hb : 0 < b) (hb2 : b < 2 ^ (q + 1)) :
    ceilDiv (roundBin q k (a * 2 ^ k) (b * 2 ^ k)) (2 ^ k) = ceilDiv a b := by
  have hB : 0 < 2 ^ k := Nat.two_pow_pos _
  have hbl : b.log2 < q + 1 := (Nat.log2_lt (by omega)).2 hb2
  have hl : a * 2 ^ k ≠ 0 → (b * 2 ^ k).log2 < (k - q) + (a * 2 ^ k).log2 := by
    intro hn
    have ha0 : a ≠ 0 := by
      rintro rfl
      simp at hn
    rw [log2_two_pow_mul ha0, log2_two_pow_mul (by omega)]
    omega
  have hd : b * 2 ^ k ≠ 0 := Nat.mul_ne_zero (by omega) (Nat.ne_of_gt hB)
  have hdiv := Nat.div_add_mod a b
  have hmod := Nat.mod_lt a hb
  by_cases hr : a % b = 0
  · rw [roundBin_exact (m := a / b) (e := k) hd (Nat.le_of_lt hq) hl]
    · unfold ceilDiv
      rw [Nat.mul_mod_left, if_pos rfl, if_pos hr, Nat.mul_div_cancel _ hB]
    · have e : a = a / b * b := (Nat.div_mul_cancel (Nat.dvd_of_mod_eq_zero hr)).symm
      rw [← Nat.mul_assoc, Nat.mul_right_comm (a / b), ← e]
    · refine Nat.lt_of_le_of_lt (Nat.div_le_self a b) (Nat.lt_trans ha (Nat.pow_lt_pow_right (by decide) (by omega)))
  · obtain ⟨e1, e2⟩ := roundBin_error hd (Nat.le_of_lt hq) hl
    generalize roundBin q k (a * 2 ^ k) (b * 2 ^ k) = N at *
    generalize 2 ^ k = B at *
    generalize 2 ^ q = Q at *
    have hgoal : ceilDiv a b = a / b + 1 := by
      unfold ceilDiv
      rw [if_neg hr]
    rw [hgoal]
    generalize a / b = c at *
    generalize a % b = r at *
    -- cancel one factor `B`
    have f1 : 2 * Q * (N * b) ≤ 2 * Q * (a * B) + a * B := by
      refine Nat.le_of_mul_le_mul_right (c := B) ?_ hB
      rw [Nat.add_mul]
      simpa only [Nat.mul_assoc] using e1
    have f2 : 2 * Q * (a * B) ≤ 2 * Q * (N * b) + a * B := by
      refine Nat.le_of_mul_le_mul_right (c := B) ?_ hB
      rw [Nat.add_mul]
      simpa only [Nat.mul_assoc] using e2
    have haB : a * B < Q * B := Nat.mul_lt_mul_of_pos_right ha hB
    have hrB : Q * B ≤ Q * (r * B) := Nat.mul_le_mul_left _ (Nat.le_mul_of_pos_left _ (by omega))
    have hsB : Q * B ≤ Q * ((b - r) * B) := Nat.mul_le_mul_left _ (Nat.le_mul_of_pos_left _ (by omega))
    have ea : a * B = c * B * b + r * B := by
      rw [← hdiv, Nat.add_mul, Nat.mul_comm b c, Nat.mul_right_comm]
    have eb : (c + 1) * B * b = a * B + (b - r) * B := by
      rw [← Nat.add_mul, Nat.mul_right_comm]
      congr 1
      rw [Nat.add_mul, Nat.one_mul, Nat.mul_comm c b]
      omega
    have lo : c * B < N := by
      refine Nat.lt_of_mul_lt_mul_right (a := b) ?_
      refine Nat.lt_of_mul_lt_mul_left (a := 2 * Q) ?_
      have : 2 * Q * (a * B) = 2 * Q * (c * B * b) + 2 * (Q * (r * B)) := by
        rw [ea, Nat.mul_add, Nat.mul_assoc 2 Q (r * B)]
      omega
    have hi : N ≤ (c + 1) * B := by
      refine Nat.le_of_mul_le_mul_right (c := b) ?_ hb
      refine Nat.le_of_mul_le_mul_left (c := 2 * Q) ?_ (by omega)
      have : 2 * Q * ((c + 1) * B * b) = 2 * Q * (a * B) + 2 * (Q * ((b - r) * B)) := by
        rw [eb, Nat.mul_add, Nat.mul_assoc 2 Q ((b - r) * B)]
      omega
    unfold ceilDiv
    rcases Nat.eq_or_lt_of_le hi with h | h
    · rw [h, Nat.mul_mod_left, if_pos rfl, Nat.mul_div_cancel _ hB]
    · have hq1 : N / B = c := Nat.div_eq_of_lt_le (Nat.le_of_lt lo) h
      rw [hq1, if_neg]
      intro h0
      have := Nat.div_add_mod N B
      rw [h0, hq1, Nat.mul_comm] at this
      omega

/-- C87: the ceiling computed with double precision arithmetic is the exact one that the model uses … -/
theorem ceilOfQuotient_eq {a b : Nat} (ha : a < 2 ^ 32) (hb : 0 < b) (hb2 : b < 2 ^ 32) : ceilOfQuotient a b = ceilDiv a b := by
  have h := quotient_units (q := 52) (k := 1074) (by decide) (by decide) (Nat.lt_trans ha (by decide)) hb (Nat.lt_trans hb2 (by decide))
  have h1 : (F64.literal 1 1).units = 1 * 2 ^ 1074 := double_exact (v := 1) (by decide)
  have h2 : ((F64.literal 1 1).mul (F64.ofNat a)).units = a * 2 ^ 1074 := by
    have h3 := mul_one_exact (q := 52) (k := 1074) (a := a) (by decide) (Nat.lt_trans ha (by decide))
    unfold F64.mul
    rw [h1, double_exact (Nat.lt_trans ha (by decide))]
    dsimp only
    rw [h3]
  unfold ceilOfQuotient F64.ceil F64.div
  dsimp only
  rw [h2, double_exact (Nat.lt_trans hb2 (by decide)), h]

/-- C87: … so that it is the least number of blocks that covers the samples, for all 32 bit sizes. -/
theorem C87_ceil (a b : Nat) (ha : a < 2 ^ 32) (hb : 0 < b) (hb2 : b < 2 ^ 32) : IsCeil a b (ceilOfQuotient a b) := by
  rw [ceilOfQuotient_eq ha hb hb2]
  obtain ⟨h1, h2⟩ := ceilDiv_spec a b hb
  refine ⟨h1, fun c' hc => ?_⟩
  refine Nat.le_of_not_lt fun hlt => ?_
  have := Nat.mul_le_mul_right b (show c' + 1 ≤ ceilDiv a b from hlt)
  rw [Nat.add_mul, Nat.one_mul] at this
  omega

/-- C87: the numbers of coding tree blocks of every SPS that is parsed are those of the double precision computation. -/
theorem C87_sps (s : SpsBody) (hw : s.pic_width_in_luma_samples < 2 ^ 32) (hh : s.pic_height_in_luma_samples < 2 ^ 32) (hc : s.getCtbLog2SizeY < 32) :
    s.getPicWidthInCtbsY = ceilOfQuotient s.pic_width_in_luma_samples s.getCtbSizeY ∧
    s.getPicHeightInCtbsY = ceilOfQuotient s.pic_height_in_luma_samples s.getCtbSizeY := by
  have h2 : s.getCtbSizeY < 2 ^ 32 := Nat.pow_lt_pow_right (by decide) hc
  exact ⟨(ceilOfQuotient_eq hw (Nat.two_pow_pos _) h2).symm, (ceilOfQuotient_eq hh (Nat.two_pow_pos _) h2).symm⟩

/-! ### The ceiling of a logarithm -/

/-- Bernoulli's inequality, as much as is needed -/
theorem bernoulli (x n : Nat) : x ^ n + n * x ^ (n - 1) ≤ (x + 1) ^ n := by
  induction n with
  | zero => simp
  | succ n ih =>
    rw [Nat.pow_succ (x + 1) n, Nat.mul_add, Nat.mul_one, Nat.pow_succ x n, Nat.add_sub_cancel]
    have h1 := Nat.mul_le_mul_right x ih
    rw [Nat.add_mul] at h1
    have h2 : x ^ n ≤ (x + 1) ^ n := Nat.pow_le_pow_left (by omega) n
    have h3 : n * x ^ (n - 1) * x = n * x ^ n := by
      cases n with
      | zero => simp
      | succ n => rw [Nat.add_sub_cancel, Nat.mul_assoc, ← Nat.pow_succ]
    rw [Nat.add_mul, Nat.one_mul]
    omega

/-- `(2 ^ k + 1) ^ (2 ^ s)` is at least twice `2 ^ (k * 2 ^ s)` if `k ≤ s` -/
theorem double_power {k s : Nat} (h : k ≤ s) : 2 ^ (k * 2 ^ s + 1) ≤ (2 ^ k + 1) ^ 2 ^ s := by
  refine Nat.le_trans ?_ (bernoulli (2 ^ k) (2 ^ s))
  have hs : 0 < 2 ^ s := Nat.two_pow_pos _
  have e1 : (2 ^ k) ^ 2 ^ s = 2 ^ (k * 2 ^ s) := by rw [← Nat.pow_mul]
  have e2 : 2 ^ (k * 2 ^ s) ≤ 2 ^ s * (2 ^ k) ^ (2 ^ s - 1) := by
    refine Nat.le_trans (Nat.le_of_eq ?_) (Nat.mul_le_mul_right _ (Nat.pow_le_pow_right (by decide) h))
    have : 2 ^ k * (2 ^ k) ^ (2 ^ s - 1) = (2 ^ k) ^ (2 ^ s - 1 + 1) := by rw [Nat.pow_succ, Nat.mul_comm]
    rw [this, show 2 ^ s - 1 + 1 = 2 ^ s by omega, e1]
  rw [Nat.pow_succ, e1]
  omega

theorem clog2From_spec (x : Nat) : ∀ (fuel k : Nat), x ≤ 2 ^ (k + fuel) → (∀ j, j < k → 2 ^ j < x) → IsCeilLog2 x (clog2From x fuel k)
  | 0, k, h, hk => ⟨h, fun k' h' => Nat.le_of_not_lt fun hlt => by have := hk k' hlt; omega⟩
  | fuel + 1, k, h, hk => by
    unfold clog2From
    split
    · rename_i hle
      exact ⟨hle, fun k' h' => Nat.le_of_not_lt fun hlt => by have := hk k' hlt; omega⟩
    · rename_i hgt
      refine clog2From_spec x fuel (k + 1) (by rw [show k + 1 + fuel = k + (fuel + 1) by omega]; exact h) ?_
      intro j hj
      rcases Nat.eq_or_lt_of_le (Nat.le_of_lt_succ hj) with rfl | hlt
      · omega
      · exact hk j hlt

theorem ceilLog2f_spec {x : Nat} (h : x ≤ 2 ^ 20) : IsCeilLog2 x (ceilLog2f x) := by
  unfold ceilLog2f
  rw [if_pos h]
  exact clog2From_spec x 20 0 (by simpa using h) (fun j hj => absurd hj (Nat.not_lt_zero _))

theorem IsCeilLog2.unique {x a b : Nat} (ha : IsCeilLog2 x a) (hb : IsCeilLog2 x b) : a = b :=
  Nat.le_antisymm (ha.2 b hb.1) (hb.2 a ha.1)

/-- C87: up to 2²⁰, the ceiling of whatever an accurate `log2f` returns is the exact ceiling of the logarithm, which the model uses. -/
theorem C87_log2 (x m s : Nat) (hx : 0 < x) (hx2 : x ≤ 2 ^ 20) (h : AccurateLog2 x m s) :
    IsCeilLog2 x (ceilLog2f x) ∧ IsCeil m (2 ^ s) (ceilLog2f x) := by
  refine ⟨ceilLog2f_spec hx2, ?_⟩
  have hs : 0 < 2 ^ s := Nat.two_pow_pos _
  have hspec := ceilLog2f_spec hx2
  generalize ceilLog2f x = c at *
  by_cases hp : ∃ k, x = 2 ^ k
  · obtain ⟨k, rfl⟩ := hp
    have hk : c = k := IsCeilLog2.unique hspec ⟨Nat.le_refl _, fun k' h' => (Nat.pow_le_pow_iff_right (by decide)).1 h'⟩
    rw [h.exact k rfl, hk]
    exact ⟨Nat.le_refl _, fun c' hc => Nat.le_of_mul_le_mul_right hc hs⟩
  · have hne : ∀ k, x ≠ 2 ^ k := fun k hk => hp ⟨k, hk⟩
    obtain ⟨d1, d2⟩ := h.digits hne
    have lo := h.below hne
    have hi := h.above hne
    -- `2 ^ k < x < 2 ^ (k + 1)` with `c = k + 1`
    obtain ⟨k, rfl⟩ : ∃ k, c = k + 1 := by
      refine ⟨c - 1, ?_⟩
      rcases Nat.eq_zero_or_pos c with h0 | h0
      · subst h0
        exact absurd (Nat.le_antisymm hspec.1 hx) (hne 0)
      · omega
    have hlt : 2 ^ k < x := by
      refine Nat.lt_of_not_le fun hle => ?_
      have := hspec.2 k hle
      omega
    have hk : k < 20 := (Nat.pow_lt_pow_iff_right (by decide : 1 < 2)).1 (Nat.lt_of_lt_of_le hlt hx2)
    have up : m ≤ (k + 1) * 2 ^ s := by
      have h1 : x ^ 2 ^ s ≤ 2 ^ ((k + 1) * 2 ^ s) := by
        rw [Nat.pow_mul]
        exact Nat.pow_le_pow_left hspec.1 _
      have h2 := (Nat.pow_lt_pow_iff_right (by decide : 1 < 2)).1 (Nat.lt_of_lt_of_le lo h1)
      omega
    have h19 : k ≤ s := by
      refine Nat.le_of_not_lt fun hlt' => ?_
      have h1 : (k + 1) * 2 ^ s ≤ 20 * 2 ^ 18 := Nat.mul_le_mul (by omega) (Nat.pow_le_pow_right (by decide) (by omega))
      have : (20 : Nat) * 2 ^ 18 < 2 ^ 23 := by decide
      omega
    have dn : k * 2 ^ s < m := by
      have h1 : (2 ^ k + 1) ^ 2 ^ s ≤ x ^ 2 ^ s := Nat.pow_le_pow_left hlt _
      have h2 := Nat.lt_of_le_of_lt (Nat.le_trans (double_power h19) h1) hi
      have h3 := (Nat.pow_lt_pow_iff_right (by decide : 1 < 2)).1 h2
      omega
    refine ⟨up, fun c' hc => Nat.le_of_not_lt fun hlt' => ?_⟩
    have := Nat.mul_le_mul_right (2 ^ s) (Nat.le_of_lt_succ hlt')
    omega

/-! ### Concrete cases -/

/-- the double nearest to `0.00002` is `0x1.4f8b588e368f1p-16`, that nearest to `0.0001` is `0x1.a36e2eb1c432dp-14`: neither is exact -/
example : F64.literal 2 100000 = ⟨0x14f8b588e368f1 * 2 ^ (1074 - 68)⟩ ∧ F64.literal 1 10000 = ⟨0x1a36e2eb1c432d * 2 ^ (1074 - 66)⟩ := by
  decide +kernel

/-- the red primary and the luminance of a mastering display, printed with doubles -/
example : printChroma 34000 = "34000 (0.68000)".toList ∧ printChroma 65535 = "65535 (1.31070)".toList ∧
    printCandela 10000001 = "10000001 (1000.0001 cd/m^2)".toList := by decide +kernel

/-- 1080 lines are 17 rows of 64, 16.875 rounded up -/
example : ceilOfQuotient 1080 64 = 17 ∧ ceilOfQuotient 1920 64 = 30 ∧ ceilOfQuotient (2 ^ 32 - 1) 3 = 1431655765 := by decide +kernel

/-- the `float` nearest to `log2 3 = 1.5849625…` is `0xcae00d / 2 ^ 23` -/
theorem log2_of_three : AccurateLog2 3 0xcae00d 23 := by
  have hne : ∀ k, 3 ≠ 2 ^ k := by
    intro k h
    cases k with
    | zero => omega
    | succ k => rw [Nat.pow_succ] at h; omega
  refine ⟨fun k h => absurd h (hne k), fun _ => by decide, fun _ => ?_, fun _ => ?_⟩
  · decide +kernel
  · decide +kernel

example : IsCeil 0xcae00d (2 ^ 23) 2 := (C87_log2 3 _ _ (by decide) (by decide) log2_of_three).2

end H265
