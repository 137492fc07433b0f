/- Exp-Golomb and non-symmetric codes on the writer/reader models. -/
import Verif.Proof.BitWriter
import Verif.Proof.Golomb
import Verif.Spec.NonSymmetric

namespace H265
open Spec
namespace BB

theorem countBitsLoop_eq : ∀ (fuel v cnt : Nat), v < 2 ^ fuel →
    countBitsLoop fuel v cnt = cnt + (if v = 0 then 0 else Nat.log2 v + 1) := by
  intro fuel
  induction fuel with
  | zero =>
    intro v cnt hv
    have : v = 0 := by simpa using hv
    simp [countBitsLoop, this]
  | succ fuel ih =>
    intro v cnt hv
    unfold countBitsLoop
    by_cases h0 : v = 0
    · simp [h0]
    · rw [if_neg h0, if_neg h0]
      have hsh : v >>> 1 = v / 2 := rfl
      rw [hsh, ih (v / 2) (cnt + 1) (by rw [Nat.pow_succ] at hv; omega)]
      by_cases h1 : v / 2 = 0
      · rw [if_pos h1]
        have : v = 1 := by omega
        subst this
        rfl
      · rw [if_neg h1]
        have : Nat.log2 v = Nat.log2 (v / 2) + 1 := by
          conv => lhs; rw [Nat.log2_def]
          rw [if_pos (by omega)]
        omega

theorem countBits_eq {v : Nat} (h0 : 0 < v) (h : v < 2 ^ 64) : countBits v = Nat.log2 v + 1 := by
  unfold countBits
  rw [countBitsLoop_eq _ _ _ h, if_neg (by omega)]; omega

theorem u_add (a b v : Nat) : u (a + b) v = u a (v >>> b) ++ u b v := by
  have h1 := u_take (a + b) a v (by omega)
  have h2 := u_drop_low (a + b) b v (by omega)
  rw [show a + b - a = b by omega] at h1
  rw [show a + b - b = a by omega] at h2
  rw [← h1, ← h2, List.take_append_drop]

theorem ue_as_u (v : Nat) : ue v = u (2 * Nat.log2 (v + 1) + 1) (v + 1) := by
  unfold ue
  rw [show 2 * Nat.log2 (v + 1) + 1 = Nat.log2 (v + 1) + (Nat.log2 (v + 1) + 1) by omega,
    u_add (Nat.log2 (v + 1)) (Nat.log2 (v + 1) + 1)]
  congr 1
  have := (log2_bounds v).2
  rw [Nat.shiftRight_eq_div_pow, Nat.div_eq_of_lt this, u_zero_val]

theorem log2_lt32 {v : Nat} (h : v < 2 ^ 32 - 1) : Nat.log2 (v + 1) < 32 := by
  rw [Nat.log2_lt (by omega)]; omega

theorem writeUE_eq {bb : BB} (h : bb.WF) {v : Nat} (hv : v < 2 ^ 32 - 1) :
    ((ue v).length ≤ bb.rem.length → ∃ bb', writeUE v bb = .ok () bb' ∧ bb'.WF ∧
        bb'.bytes.length = bb.bytes.length ∧ bb'.pos = bb.pos + (ue v).length ∧
        bitsOf bb'.bytes = bb.patched (ue v)) ∧
    (¬ (ue v).length ≤ bb.rem.length → writeUE v bb = .fail bb) := by
  have hlog := log2_lt32 hv
  have hn : countBits (v + 1) * 2 - 1 = 2 * Nat.log2 (v + 1) + 1 := by
    rw [countBits_eq (by omega) (by omega)]; omega
  have := writeBits_eq h (v + 1) (n := 2 * Nat.log2 (v + 1) + 1) (by omega) (by omega)
  rw [← ue_as_u] at this
  unfold writeUE
  rw [if_neg (by omega), hn, ue_length]
  refine ⟨fun hl => ?_, this.2⟩
  obtain ⟨bb', h1, h2, h3, h4, _, _, h5⟩ := this.1 hl
  exact ⟨bb', h1, h2, h3, h4, h5⟩

theorem writeSE_eq {v : Int} (h1 : -(2 ^ 31) < v) (h2 : v < 2 ^ 31) (bb : BB) :
    writeSE v bb = writeUE (seCodeNum v) bb ∧ seCodeNum v < 2 ^ 32 - 1 := by
  have hlt : seCodeNum v < 2 ^ 32 - 1 := by unfold seCodeNum; split <;> omega
  refine ⟨?_, hlt⟩
  unfold writeSE seCodeNum at *
  by_cases h0 : v = 0
  · rw [if_pos h0, h0]; rfl
  · rw [if_neg h0]
    by_cases hp : 0 < v
    · rw [if_pos hp, if_pos hp]
      have : (v.toNat * 2 + 2 ^ 32 - 1) % 2 ^ 32 = 2 * v.toNat - 1 := by omega
      rw [this]
    · rw [if_neg (by omega), if_neg (by omega), if_neg hp]
      have : ((-v).toNat * 2) % 2 ^ 32 = 2 * (-v).toNat := by omega
      rw [this]

/-! ### non-symmetric codes -/

theorem ns_facts {n : Nat} (h2 : 2 ≤ n) (h31 : n < 2 ^ 31) :
    countBits n = Nat.log2 n + 1 ∧ 1 ≤ Nat.log2 n ∧ Nat.log2 n < 31 ∧ 2 ^ Nat.log2 n ≤ n ∧
      n < 2 * 2 ^ Nat.log2 n ∧ 2 ^ (Nat.log2 n + 1) = 2 * 2 ^ Nat.log2 n := by
  have hlo : 2 ^ Nat.log2 n ≤ n := Nat.log2_self_le (by omega)
  have hhi : n < 2 ^ (Nat.log2 n + 1) := Nat.lt_log2_self
  have hp : 2 ^ (Nat.log2 n + 1) = 2 * 2 ^ Nat.log2 n := by rw [Nat.pow_succ]; omega
  refine ⟨countBits_eq (by omega) (by omega), ?_, ?_, hlo, by omega, hp⟩
  · rw [Nat.le_log2 (by omega)]; omega
  · rw [Nat.log2_lt (by omega)]; omega

theorem u_succ_low (k v : Nat) : u (k + 1) v = u k (v / 2) ++ [v.testBit 0] := by
  rw [u_add k 1 v]; rfl

/-- Complete description of `ReadNonSymmetric` for `2 ≤ n < 2^31`. -/
theorem readNonSymmetric_eq {bb : BB} (h : bb.WF) {n : Nat} (h2 : 2 ≤ n) (h31 : n < 2 ^ 31) :
    (∀ v, v < n → ∀ r, bb.rem = nonSymmetric n v ++ r →
      readNonSymmetric n bb = .ok v (bb.adv (nonSymmetric n v).length)) ∧
    ((∀ v r, v < n → bb.rem ≠ nonSymmetric n v ++ r) → ∃ bb', readNonSymmetric n bb = .fail bb' ∧
      bb'.WF ∧ bb'.bytes = bb.bytes) := by
  obtain ⟨hc, hl1, hl31, hlo, hhi, hpow⟩ := ns_facts h2 h31
  have hpos : 0 < 2 ^ Nat.log2 n := Nat.pow_pos (by omega)
  have hbig : 2 ^ (Nat.log2 n + 1) ≤ 2 ^ 31 := Nat.pow_le_pow_right (by omega) (by omega)
  have hunf : ∀ bb : BB, readNonSymmetric n bb =
      match readBits 32 (Nat.log2 n) bb with
      | .ok v bb1 =>
        if v < 2 ^ (Nat.log2 n + 1) - n then .ok v bb1
        else
          match readBits 32 1 bb1 with
          | .ok e bb2 => .ok (((v <<< 1) % 2 ^ 32 + e - (2 ^ (Nat.log2 n + 1) - n)) % 2 ^ 32) bb2
          | r => r
      | r => r := by
    intro bb
    unfold readNonSymmetric
    rw [if_neg (by omega), hc, if_neg (by omega), Nat.one_shiftLeft]
    rfl
  rw [hunf, readBits_eq h (by omega)]
  by_cases hlen : Nat.log2 n ≤ 32 ∧ Nat.log2 n ≤ bb.rem.length
  · rw [if_pos hlen]
    simp only
    have hadv : (bb.adv (Nat.log2 n)).WF := h.adv hlen.2
    have hx : val (bb.rem.take (Nat.log2 n)) < 2 ^ Nat.log2 n := by
      have := val_lt (bb.rem.take (Nat.log2 n))
      rwa [List.length_take, Nat.min_eq_left hlen.2] at this
    have hxu : bb.rem.take (Nat.log2 n) = u (Nat.log2 n) (val (bb.rem.take (Nat.log2 n))) := by
      have := u_val (bb.rem.take (Nat.log2 n))
      rw [List.length_take, Nat.min_eq_left hlen.2] at this
      exact this.symm
    constructor
    · intro v hv r hr
      by_cases hvm : v < 2 ^ (Nat.log2 n + 1) - n
      · have hns : nonSymmetric n v = u (Nat.log2 n) v := by unfold nonSymmetric; rw [if_pos hvm]
        rw [hns] at hr ⊢
        have hval : val (bb.rem.take (Nat.log2 n)) = v := by
          rw [hr, List.take_append_of_le_length (by simp), List.take_of_length_le (by simp), val_u_of_lt (by omega)]
        rw [hval, if_pos hvm, u_length]
      · have hns : nonSymmetric n v = u (Nat.log2 n + 1) (v + (2 ^ (Nat.log2 n + 1) - n)) := by
          unfold nonSymmetric; rw [if_neg hvm]
        rw [hns] at hr ⊢
        generalize hm : 2 ^ (Nat.log2 n + 1) - n = m at *
        have hhalf : (v + m) / 2 < 2 ^ Nat.log2 n := by omega
        have hr' := hr
        rw [u_succ_low] at hr'
        have hval : val (bb.rem.take (Nat.log2 n)) = (v + m) / 2 := by
          rw [hr', List.append_assoc, List.take_append_of_le_length (by simp), List.take_of_length_le (by simp),
            val_u_of_lt hhalf]
        rw [hval, if_neg (by omega), readBits_eq hadv (by omega), rem_adv]
        have hd : bb.rem.drop (Nat.log2 n) = [(v + m).testBit 0] ++ r := by
          rw [hr', List.append_assoc, List.drop_append_of_le_length (by simp), List.drop_of_length_le (by simp)]
          rfl
        rw [hd, if_pos (by simp)]
        simp only [List.cons_append, List.nil_append, List.take_succ_cons, List.take_zero, u_length]
        rw [adv_adv]
        congr 1
        have hb : val [(v + m).testBit 0] = (v + m) % 2 := by
          rw [Nat.testBit_zero]
          by_cases hh : (v + m) % 2 = 1
          · simp [hh, val]
          · have : (v + m) % 2 = 0 := by omega
            simp [this, val]
        rw [hb, Nat.shiftLeft_eq]
        have : 2 ^ Nat.log2 n < 2 ^ 31 := Nat.pow_lt_pow_right (by omega) hl31
        omega
    · intro hno
      by_cases hxm : val (bb.rem.take (Nat.log2 n)) < 2 ^ (Nat.log2 n + 1) - n
      · exfalso
        refine hno (val (bb.rem.take (Nat.log2 n))) (bb.rem.drop (Nat.log2 n)) (by omega) ?_
        unfold nonSymmetric
        rw [if_pos hxm, ← hxu, List.take_append_drop]
      · rw [if_neg hxm, readBits_eq hadv (by omega), rem_adv]
        by_cases h1 : 1 ≤ 32 ∧ 1 ≤ (bb.rem.drop (Nat.log2 n)).length
        · exfalso
          obtain ⟨e, t, ht⟩ : ∃ e t, bb.rem.drop (Nat.log2 n) = e :: t := by
            cases hd : bb.rem.drop (Nat.log2 n) with
            | nil => rw [hd] at h1; simp at h1
            | cons e t => exact ⟨e, t, rfl⟩
          generalize hm : 2 ^ (Nat.log2 n + 1) - n = m at *
          generalize hxx : val (bb.rem.take (Nat.log2 n)) = x at *
          have hv' : 2 * x + e.toNat - m < n := by
            have : e.toNat ≤ 1 := by cases e <;> simp
            omega
          refine hno (2 * x + e.toNat - m) t hv' ?_
          have : ¬ (2 * x + e.toNat - m < m) := by omega
          unfold nonSymmetric
          rw [hm, if_neg this, show 2 * x + e.toNat - m + m = 2 * x + e.toNat by omega, u_succ_low,
            show (2 * x + e.toNat) / 2 = x by cases e <;> simp <;> omega, ← hxu]
          have he : (2 * x + e.toNat).testBit 0 = e := by
            rw [Nat.testBit_zero]; cases e <;> simp
          rw [he, List.append_assoc]
          show _ = _ ++ (e :: t)
          rw [← ht, List.take_append_drop]
        · rw [if_neg h1]
          exact ⟨_, rfl, hadv, rfl⟩
  · rw [if_neg hlen]
    simp only
    constructor
    · intro v hv r hr
      exfalso
      apply hlen
      refine ⟨by omega, ?_⟩
      rw [hr, List.length_append]
      unfold nonSymmetric
      split <;> simp <;> omega
    · intro _
      exact ⟨bb, rfl, h, rfl⟩

theorem writeNonSymmetric_eq {bb : BB} (h : bb.WF) {n v : Nat} (h2 : 2 ≤ n) (h31 : n < 2 ^ 31) (hv : v < n) :
    ((nonSymmetric n v).length ≤ bb.rem.length → ∃ bb', writeNonSymmetric v n bb = .ok () bb' ∧ bb'.WF ∧
        bb'.bytes.length = bb.bytes.length ∧ bb'.pos = bb.pos + (nonSymmetric n v).length ∧
        bitsOf bb'.bytes = bb.patched (nonSymmetric n v)) ∧
    (¬ (nonSymmetric n v).length ≤ bb.rem.length → writeNonSymmetric v n bb = .fail bb) ∧
    sizeNonSymmetricBits v n = .ok (nonSymmetric n v).length := by
  obtain ⟨hc, hl1, hl31, hlo, hhi, hpow⟩ := ns_facts h2 h31
  have hbig : 2 ^ (Nat.log2 n + 1) ≤ 2 ^ 31 := Nat.pow_le_pow_right (by omega) (by omega)
  have hw : writeNonSymmetric v n bb = if v < 2 ^ (Nat.log2 n + 1) - n then writeBits v (Nat.log2 n) bb
      else writeBits ((v + (2 ^ (Nat.log2 n + 1) - n)) % 2 ^ 32) (Nat.log2 n + 1) bb := by
    unfold writeNonSymmetric
    rw [if_neg (by omega), hc, if_neg (by omega), Nat.one_shiftLeft]
    rfl
  have hs : sizeNonSymmetricBits v n = .ok (if v < 2 ^ (Nat.log2 n + 1) - n then Nat.log2 n else Nat.log2 n + 1) := by
    unfold sizeNonSymmetricBits
    rw [if_neg (by omega), hc, if_neg (by omega), Nat.one_shiftLeft]
    rfl
  rw [hw, hs]
  unfold nonSymmetric
  by_cases hvm : v < 2 ^ (Nat.log2 n + 1) - n
  · simp only [if_pos hvm, u_length]
    have := writeBits_eq h v (n := Nat.log2 n) (by omega) (by omega)
    refine ⟨fun hl => ?_, this.2, trivial⟩
    obtain ⟨bb', h1, h2, h3, h4, _, _, h5⟩ := this.1 hl
    exact ⟨bb', h1, h2, h3, h4, h5⟩
  · simp only [if_neg hvm, u_length]
    rw [Nat.mod_eq_of_lt (by omega)]
    have := writeBits_eq h (v + (2 ^ (Nat.log2 n + 1) - n)) (n := Nat.log2 n + 1) (by omega) (by omega)
    refine ⟨fun hl => ?_, this.2, trivial⟩
    obtain ⟨bb', h1, h2, h3, h4, _, _, h5⟩ := this.1 hl
    exact ⟨bb', h1, h2, h3, h4, h5⟩

end BB
end H265
