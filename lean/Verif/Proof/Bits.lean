/- Lemmas about the specification's bit strings. -/
import Verif.Spec.Bits

namespace H265.Spec

theorem val_append (a b : List Bool) : val (a ++ b) = val a * 2 ^ b.length + val b := by
  have key : ∀ (b : List Bool) (x : Nat),
      b.foldl (fun acc b => 2 * acc + b.toNat) x
        = x * 2 ^ b.length + b.foldl (fun acc b => 2 * acc + b.toNat) 0 := by
    intro b
    induction b with
    | nil => intro x; simp
    | cons c b ih =>
      intro x
      simp only [List.foldl_cons, List.length_cons]
      rw [ih, ih (2 * 0 + c.toNat)]
      simp only [Nat.pow_succ, Nat.add_mul]
      have : 2 * x * 2 ^ b.length = x * (2 ^ b.length * 2) := by
        rw [Nat.mul_comm 2 x, Nat.mul_assoc, Nat.mul_comm 2]
      omega
  unfold val
  rw [List.foldl_append, key]

@[simp] theorem val_nil : val [] = 0 := rfl

theorem val_cons (c : Bool) (b : List Bool) : val (c :: b) = c.toNat * 2 ^ b.length + val b := by
  have := val_append [c] b
  simpa [val] using this

theorem val_lt (l : List Bool) : val l < 2 ^ l.length := by
  induction l with
  | nil => simp
  | cons c l ih =>
    rw [val_cons, List.length_cons, Nat.pow_succ]
    have : c.toNat ≤ 1 := by cases c <;> simp
    have : c.toNat * 2 ^ l.length ≤ 1 * 2 ^ l.length := Nat.mul_le_mul_right _ this
    omega

@[simp] theorem u_length (n v : Nat) : (u n v).length = n := by
  induction n with
  | zero => rfl
  | succ n ih => simp [u, ih]

theorem u_zero_val (n : Nat) : u n 0 = List.replicate n false := by
  induction n with
  | zero => rfl
  | succ n ih => simp [u, ih, List.replicate_succ]

theorem u_mod (n v m : Nat) (h : n ≤ m) : u n (v % 2 ^ m) = u n v := by
  induction n with
  | zero => rfl
  | succ n ih =>
    simp only [u]
    rw [ih (by omega), Nat.testBit_mod_two_pow]
    have : n < m := by omega
    simp [this]

theorem val_u (n v : Nat) : val (u n v) = v % 2 ^ n := by
  induction n with
  | zero => simp [u, Nat.mod_one]
  | succ n ih =>
    rw [u, val_cons, ih, u_length, Nat.mod_pow_succ, Nat.testBit_eq_decide_div_mod_eq]
    have h2 : v / 2 ^ n % 2 < 2 := Nat.mod_lt _ (by omega)
    have h3 : v / 2 ^ n % 2 = 0 ∨ v / 2 ^ n % 2 = 1 := by omega
    rcases h3 with h | h <;> simp [h] <;> omega

theorem u_val (l : List Bool) : u l.length (val l) = l := by
  induction l with
  | nil => rfl
  | cons c l ih =>
    rw [List.length_cons, u, val_cons]
    have h1 : u l.length (c.toNat * 2 ^ l.length + val l) = l := by
      rw [← u_mod l.length _ l.length (Nat.le_refl _), Nat.add_comm,
        Nat.add_mul_mod_self_right, u_mod _ _ _ (Nat.le_refl _), ih]
    rw [h1]
    congr 1
    rw [Nat.testBit_eq_decide_div_mod_eq, Nat.mul_comm, Nat.mul_add_div (Nat.two_pow_pos _),
      Nat.div_eq_of_lt (val_lt l)]
    cases c <;> simp

theorem val_u_of_lt {n v : Nat} (h : v < 2 ^ n) : val (u n v) = v := by
  rw [val_u, Nat.mod_eq_of_lt h]

theorem val_inj {a b : List Bool} (hl : a.length = b.length) (hv : val a = val b) : a = b := by
  rw [← u_val a, ← u_val b, hl, hv]

theorem u_inj {n a b : Nat} (ha : a < 2 ^ n) (hb : b < 2 ^ n) (h : u n a = u n b) : a = b := by
  rw [← val_u_of_lt ha, ← val_u_of_lt hb, h]

theorem u_append (k m v : Nat) : u (k + m) v = u k (v / 2 ^ m) ++ u m v := by
  induction k with
  | zero => simp [u]
  | succ k ih =>
    rw [show k + 1 + m = (k + m) + 1 by omega]
    simp only [u, ih, Nat.testBit_div_two_pow, List.cons_append]

@[simp] theorem byteBits_length (b : UInt8) : (byteBits b).length = 8 := rfl

theorem byteBits_eq_u (b : UInt8) : byteBits b = u 8 b.toNat := rfl

@[simp] theorem bitsOf_nil : bitsOf [] = [] := rfl
@[simp] theorem bitsOf_cons (b : UInt8) (bs : List UInt8) :
    bitsOf (b :: bs) = byteBits b ++ bitsOf bs := rfl

@[simp] theorem bitsOf_append (a b : List UInt8) : bitsOf (a ++ b) = bitsOf a ++ bitsOf b := by
  induction a with
  | nil => rfl
  | cons x a ih => simp [ih, List.append_assoc]

@[simp] theorem bitsOf_length (bs : List UInt8) : (bitsOf bs).length = 8 * bs.length := by
  induction bs with
  | nil => rfl
  | cons b bs ih => simp [ih]; omega

theorem bitsOf_drop (k : Nat) (bs : List UInt8) : bitsOf (bs.drop k) = (bitsOf bs).drop (8 * k) := by
  induction bs generalizing k with
  | nil => simp
  | cons b bs ih =>
    cases k with
    | zero => simp
    | succ k =>
      rw [List.drop_succ_cons, ih, bitsOf_cons, List.drop_append, byteBits_length]
      rw [List.drop_eq_nil_of_le (as := byteBits b) (by simp; omega), List.nil_append]
      congr 1

theorem bitsOf_take (k : Nat) (bs : List UInt8) : bitsOf (bs.take k) = (bitsOf bs).take (8 * k) := by
  induction bs generalizing k with
  | nil => simp
  | cons b bs ih =>
    cases k with
    | zero => simp
    | succ k =>
      rw [List.take_succ_cons, bitsOf_cons, ih, bitsOf_cons, List.take_append, byteBits_length]
      rw [List.take_of_length_le (l := byteBits b) (by simp; omega)]
      congr 2

theorem byteBits_inj {a b : UInt8} (h : byteBits a = byteBits b) : a = b := by
  rw [byteBits_eq_u, byteBits_eq_u] at h
  have ha : a.toNat < 2 ^ 8 := a.toNat_lt
  have hb : b.toNat < 2 ^ 8 := b.toNat_lt
  exact UInt8.toNat_inj.mp (u_inj ha hb h)

theorem bitsOf_inj {a b : List UInt8} (h : bitsOf a = bitsOf b) : a = b := by
  induction a generalizing b with
  | nil =>
    cases b with
    | nil => rfl
    | cons y b => have := congrArg List.length h; simp at this; omega
  | cons x a ih =>
    cases b with
    | nil => have := congrArg List.length h; simp at this
    | cons y b =>
      simp only [bitsOf_cons] at h
      have := List.append_inj h (by simp)
      rw [byteBits_inj this.1, ih this.2]

/-! ### ue(v) -/

@[simp] theorem ue_length (v : Nat) : (ue v).length = 2 * Nat.log2 (v + 1) + 1 := by
  simp [ue]; omega

theorem log2_bounds (v : Nat) : 2 ^ Nat.log2 (v + 1) ≤ v + 1 ∧ v + 1 < 2 ^ (Nat.log2 (v + 1) + 1) := by
  constructor
  · exact Nat.log2_self_le (by omega)
  · exact Nat.lt_log2_self

theorem u_head_true {n v : Nat} (h1 : 2 ^ n ≤ v) (h2 : v < 2 ^ (n + 1)) :
    u (n + 1) v = true :: u n v := by
  simp only [u]
  congr 1
  rw [Nat.testBit_eq_decide_div_mod_eq]
  have : v / 2 ^ n = 1 := by
    apply Nat.div_eq_of_lt_le <;> rw [Nat.pow_succ] at * <;> omega
  simp [this]

theorem ue_eq (v : Nat) : ue v = List.replicate (Nat.log2 (v + 1)) false ++ true :: u (Nat.log2 (v + 1)) (v + 1) := by
  obtain ⟨h1, h2⟩ := log2_bounds v
  rw [ue, u_head_true h1 h2]

/-- ue(v) code words are prefix-free and injective. -/
theorem ue_append_inj {a b : Nat} {r s : List Bool} (h : ue a ++ r = ue b ++ s) : a = b ∧ r = s := by
  rw [ue_eq, ue_eq, List.append_assoc, List.append_assoc] at h
  have key : ∀ (m n : Nat) (x y : List Bool),
      List.replicate m false ++ true :: x = List.replicate n false ++ true :: y → m = n ∧ x = y := by
    intro m
    induction m with
    | zero =>
      intro n x y h
      cases n with
      | zero => simpa using h
      | succ n => simp [List.replicate_succ] at h
    | succ m ih =>
      intro n x y h
      cases n with
      | zero => simp [List.replicate_succ] at h
      | succ n =>
        simp only [List.replicate_succ, List.cons_append, List.cons.injEq, true_and] at h
        have := ih n x y h
        exact ⟨by omega, this.2⟩
  obtain ⟨hl, hx⟩ := key _ _ _ _ h
  rw [hl] at hx
  obtain ⟨h1, h2⟩ := List.append_inj hx (by simp)
  refine ⟨?_, h2⟩
  obtain ⟨ha1, ha2⟩ := log2_bounds a
  obtain ⟨hb1, hb2⟩ := log2_bounds b
  have : u (Nat.log2 (b + 1) + 1) (a + 1) = u (Nat.log2 (b + 1) + 1) (b + 1) := by
    rw [u_head_true hb1 hb2, ← h1, u_head_true (by rw [← hl]; exact ha1) (by rw [← hl]; exact ha2)]
  have := u_inj (by rw [← hl]; exact ha2) hb2 this
  omega

end H265.Spec
