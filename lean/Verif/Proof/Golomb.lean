/- `ReadExponentialGolomb` against the ue(v) code of the specification. -/
import Verif.Proof.BitBuffer

namespace H265
open Spec

/-- Number of leading zero bits. -/
def lz : List Bool → Nat
  | [] => 0
  | true :: _ => 0
  | false :: l => lz l + 1

/-- Split a ue(v) code word of a value below `2^32 - 1` off a bit string. -/
def ueSplit (r : List Bool) : Option (Nat × List Bool) :=
  if lz r ≤ 31 ∧ 2 * lz r + 1 ≤ r.length then
    some (val ((r.drop (lz r)).take (lz r + 1)) - 1, r.drop (2 * lz r + 1))
  else none

theorem lz_le (r : List Bool) : lz r ≤ r.length := by
  induction r with
  | nil => simp [lz]
  | cons b r ih => cases b <;> simp [lz] <;> omega

theorem lz_replicate (n : Nat) (r : List Bool) : lz (List.replicate n false ++ true :: r) = n := by
  induction n with
  | zero => rfl
  | succ n ih => simp [List.replicate_succ, lz, ih]

theorem eq_of_lz_lt (r : List Bool) (h : lz r < r.length) :
    ∃ t, r = List.replicate (lz r) false ++ true :: t := by
  induction r with
  | nil => simp at h
  | cons b r ih =>
    cases b with
    | true => exact ⟨r, rfl⟩
    | false =>
      simp only [lz, List.length_cons] at h
      obtain ⟨t, ht⟩ := ih (by omega)
      exact ⟨t, by simp only [lz, List.replicate_succ, List.cons_append]; rw [← ht]⟩

theorem ueSplit_ue {v : Nat} (hv : v < 2 ^ 32 - 1) (r : List Bool) :
    ueSplit (ue v ++ r) = some (v, r) := by
  obtain ⟨h1, h2⟩ := log2_bounds v
  have hl : lz (ue v ++ r) = Nat.log2 (v + 1) := by
    rw [ue_eq, List.append_assoc, List.cons_append, lz_replicate]
  have hz : Nat.log2 (v + 1) ≤ 31 := by
    have : 2 ^ Nat.log2 (v + 1) < 2 ^ 32 := Nat.lt_of_le_of_lt h1 (by omega)
    have := (Nat.pow_lt_pow_iff_right (a := 2) (by omega)).mp this
    omega
  unfold ueSplit
  rw [hl, if_pos ⟨hz, by simp⟩]
  have hd : (ue v ++ r).drop (Nat.log2 (v + 1)) = u (Nat.log2 (v + 1) + 1) (v + 1) ++ r := by
    rw [ue, List.append_assoc, List.drop_append_of_le_length (by simp)]
    simp
  rw [hd, List.take_append_of_le_length (by simp), List.take_of_length_le (by simp), val_u_of_lt h2]
  have hd2 : (ue v ++ r).drop (2 * Nat.log2 (v + 1) + 1) = r := by
    rw [List.drop_append_of_le_length (by simp), List.drop_of_length_le (by simp)]; rfl
  rw [hd2]; simp

theorem ueSplit_some {r r' : List Bool} {v : Nat} (h : ueSplit r = some (v, r')) :
    r = ue v ++ r' ∧ v < 2 ^ 32 - 1 := by
  unfold ueSplit at h
  split at h
  · rename_i hc
    simp only [Option.some.injEq, Prod.mk.injEq] at h
    obtain ⟨hv, hr⟩ := h
    obtain ⟨t, ht⟩ := eq_of_lz_lt r (by omega)
    generalize lz r = z at *
    subst ht
    have hlen : z ≤ t.length := by
      simp only [List.length_append, List.length_replicate, List.length_cons] at hc; omega
    have hd : (List.replicate z false ++ true :: t).drop z = true :: t := by simp
    rw [hd, List.take_succ_cons, val_cons, List.length_take, Nat.min_eq_left hlen] at hv
    simp only [Bool.toNat_true, Nat.one_mul] at hv
    have hvl : val (t.take z) < 2 ^ z := Nat.lt_of_lt_of_eq (val_lt _) (by rw [List.length_take, Nat.min_eq_left hlen])
    have hpos : 0 < 2 ^ z := Nat.two_pow_pos z
    have hv1 : v + 1 = 2 ^ z + val (t.take z) := by omega
    have hlog : Nat.log2 (v + 1) = z := by
      apply (Nat.log2_eq_iff (by omega)).mpr
      rw [Nat.pow_succ]; omega
    have hz : 2 ^ z ≤ 2 ^ 31 := Nat.pow_le_pow_right (by omega) hc.1
    refine ⟨?_, by omega⟩
    rw [ue_eq, hlog]
    have hu : u z (v + 1) = t.take z := by
      rw [← u_mod z (v + 1) z (Nat.le_refl _), hv1, Nat.add_mod_left, Nat.mod_eq_of_lt hvl]
      conv => lhs; rw [show z = (t.take z).length by rw [List.length_take, Nat.min_eq_left hlen]]
      have := u_val (t.take z)
      rw [List.length_take, Nat.min_eq_left hlen] at this
      rw [List.length_take, Nat.min_eq_left hlen]
      exact this
    rw [hu, ← hr, List.append_assoc, List.cons_append]
    have hd2 : (List.replicate z false ++ true :: t).drop (2 * z + 1) = t.drop z := by
      rw [show 2 * z + 1 = z + (z + 1) by omega, ← List.drop_drop, hd]; rfl
    rw [hd2, List.take_append_drop]
  · cases h

theorem ueSplit_none {r : List Bool} (h : ueSplit r = none) :
    ∀ v r', v < 2 ^ 32 - 1 → r ≠ ue v ++ r' := by
  intro v r' hv he
  rw [he, ueSplit_ue hv] at h
  cases h

namespace BB

theorem rem_nil_or {bb : BB} : bb.rem = [] ∨ ∃ b t, bb.rem = b :: t := by
  cases bb.rem with
  | nil => exact .inl rfl
  | cons b t => exact .inr ⟨b, t, rfl⟩

theorem peek1_nil {bb : BB} (h : bb.WF) (hr : bb.rem = []) : peekBits 32 1 bb = .fail bb :=
  peekBits_fail h (by omega) (by simp [hr])

theorem peek1_cons {bb : BB} (h : bb.WF) {b : Bool} {t : List Bool} (hr : bb.rem = b :: t) :
    peekBits 32 1 bb = .ok b.toNat bb := by
  rw [peekBits_ok h (by omega) (by omega) (by simp [hr]), hr]
  cases b <;> rfl

theorem adv_adv (a b : Nat) (bb : BB) : (bb.adv a).adv b = bb.adv (a + b) := by
  simp only [adv, BB.mk.injEq, true_and]; omega

theorem adv_zero {bb : BB} (h : bb.WF) : bb.adv 0 = bb := by
  obtain ⟨h1, h2, h3⟩ := h
  obtain ⟨bs, o, p⟩ := bb
  simp only [adv, BB.mk.injEq, true_and] at *; omega

theorem zeroLoop_eq : ∀ (fuel zeros : Nat) (bb : BB), bb.WF → lz bb.rem < fuel →
    zeroLoop fuel zeros bb = .ok (zeros + lz bb.rem) (bb.adv (lz bb.rem)) := by
  intro fuel
  induction fuel with
  | zero => intro zeros bb _ h; omega
  | succ fuel ih =>
    intro zeros bb hwf hf
    unfold zeroLoop
    rcases rem_nil_or (bb := bb) with hr | ⟨b, t, hr⟩
    · rw [peek1_nil hwf hr, hr]; simp [lz, adv_zero hwf]
    · rw [peek1_cons hwf hr]
      cases b with
      | true => rw [hr]; simp [lz, adv_zero hwf]
      | false =>
        simp only [Bool.toNat_false]
        have hlen : 1 ≤ bb.rem.length := by rw [hr]; simp
        rw [consumeBits_ok hwf hlen]
        simp only
        have hrem : (bb.adv 1).rem = t := by rw [rem_adv, hr]; rfl
        rw [ih (zeros + 1) (bb.adv 1) (hwf.adv hlen) (by rw [hrem]; rw [hr] at hf; simp [lz] at hf; omega)]
        rw [hrem, hr, adv_adv]
        simp only [lz]
        rw [show zeros + 1 + lz t = zeros + (lz t + 1) by omega, show 1 + lz t = lz t + 1 by omega]

theorem seek_back {bb bb1 : BB} (h : bb.WF) (hb : bb1.bytes = bb.bytes) :
    seek bb.byteOff bb.bitOff bb1 = .ok () bb := by
  obtain ⟨h1, h2, h3⟩ := h
  unfold seek
  rw [if_neg]
  · congr 1; cases bb; cases bb1; simp_all
  · rw [hb]; omega

/-- Complete description of `ReadExponentialGolomb`. -/
theorem readUE_eq {bb : BB} (h : bb.WF) :
    readUE bb = match ueSplit bb.rem with
      | some (v, r') => .ok v (bb.adv (bb.rem.length - r'.length))
      | none => .fail bb := by
  have hz : lz bb.rem ≤ bb.rem.length := lz_le _
  unfold readUE
  rw [zeroLoop_eq _ _ _ h (by rw [remaining_eq h]; omega)]
  simp only [Nat.zero_add]
  have hwf1 := h.adv hz
  have hrem1 : (bb.adv (lz bb.rem)).rem = bb.rem.drop (lz bb.rem) := rem_adv _ _
  rw [seek_back h (adv_bytes _ _)]
  simp only
  rw [readBits_eq hwf1 (by omega)]
  have hback : ∀ (c : Prop), c → ∀ (x : Res Nat), (if lz bb.rem + 1 > 32 then Res.fail bb else
      match (if lz bb.rem + 1 ≤ 32 ∧ lz bb.rem + 1 ≤ (bb.adv (lz bb.rem)).rem.length then
        Res.ok (val ((bb.adv (lz bb.rem)).rem.take (lz bb.rem + 1))) ((bb.adv (lz bb.rem)).adv (lz bb.rem + 1))
        else Res.fail (bb.adv (lz bb.rem))) with
      | .ok v bb2 => Res.ok ((v + 2 ^ 32 - 1) % 2 ^ 32) bb2
      | .fail _ => Res.fail bb
      | .bad k => Res.bad k) = (match ueSplit bb.rem with
      | some (v, r') => .ok v (bb.adv (bb.rem.length - r'.length))
      | none => .fail bb) := by
    intro _ _ _
    unfold ueSplit
    by_cases hc : lz bb.rem ≤ 31 ∧ 2 * lz bb.rem + 1 ≤ bb.rem.length
    · have hlen : lz bb.rem + 1 ≤ (bb.adv (lz bb.rem)).rem.length := by
        rw [hrem1, List.length_drop]; omega
      rw [if_neg (by omega), if_pos ⟨by omega, hlen⟩, if_pos hc]
      simp only
      rw [hrem1, adv_adv, List.length_drop]
      refine (Res.ok.injEq ..).mpr ⟨?_, ?_⟩
      · obtain ⟨t, ht⟩ := eq_of_lz_lt bb.rem (by omega)
        have hd : bb.rem.drop (lz bb.rem) = true :: t := by
          conv => lhs; rw [ht, lz_replicate]
          simp
        have hlt : (t.take (lz bb.rem)).length = lz bb.rem := by
          rw [hrem1, hd, List.length_cons] at hlen
          rw [List.length_take]; omega
        rw [hd, List.take_succ_cons, val_cons, hlt]
        have hvl := val_lt (t.take (lz bb.rem))
        rw [hlt] at hvl
        have hp : 2 ^ lz bb.rem ≤ 2 ^ 31 := Nat.pow_le_pow_right (by omega) hc.1
        have hp0 : 0 < 2 ^ lz bb.rem := Nat.two_pow_pos _
        simp only [Bool.toNat_true, Nat.one_mul]
        omega
      · congr 1; omega
    · rw [if_neg hc]
      simp only
      by_cases h32 : lz bb.rem + 1 > 32
      · rw [if_pos h32]
      · rw [if_neg h32, if_neg]
        rw [hrem1, List.length_drop]; omega
  rcases rem_nil_or (bb := bb.adv (lz bb.rem)) with hr | ⟨b, t, hr⟩
  · rw [peek1_nil hwf1 hr]
    exact hback True trivial (.fail bb)
  · rw [peek1_cons hwf1 hr]
    cases b with
    | true => exact hback True trivial (.fail bb)
    | false =>
      exfalso
      rw [hrem1] at hr
      have hlt : lz bb.rem < bb.rem.length := by
        have := congrArg List.length hr
        simp only [List.length_drop, List.length_cons] at this; omega
      obtain ⟨t2, ht⟩ := eq_of_lz_lt bb.rem hlt
      rw [ht, lz_replicate] at hr
      simp at hr

end BB
end H265
