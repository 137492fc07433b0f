/- Refinement of the statement-level `BitBuffer` model by the bit-list view. -/
import Verif.Model.BitBuffer
import Verif.Proof.Bits

namespace H265
open Spec

namespace BB

/-- The positions `Seek` accepts (src/rtc_common.cc:290-291): inside the buffer or exactly at
its end. -/
def WF (bb : BB) : Prop :=
  bb.byteOff ≤ bb.bytes.length ∧ bb.bitOff ≤ 7 ∧ (bb.byteOff = bb.bytes.length → bb.bitOff = 0)

/-- Absolute bit position. -/
def pos (bb : BB) : Nat := 8 * bb.byteOff + bb.bitOff

/-- The bits not yet read. -/
def rem (bb : BB) : List Bool := (bitsOf bb.bytes).drop bb.pos

/-- The reader moved forward by `n` bits. -/
def adv (n : Nat) (bb : BB) : BB :=
  { bb with byteOff := bb.byteOff + (bb.bitOff + n) / 8, bitOff := (bb.bitOff + n) % 8 }

theorem rem_length (bb : BB) : bb.rem.length = 8 * bb.bytes.length - bb.pos := by
  simp [rem]

theorem WF.pos_le {bb : BB} (h : bb.WF) : bb.pos ≤ 8 * bb.bytes.length := by
  obtain ⟨h1, h2, h3⟩ := h; unfold pos
  by_cases he : bb.byteOff = bb.bytes.length
  · rw [h3 he, he]; omega
  · omega

theorem remaining_eq {bb : BB} (h : bb.WF) : bb.remaining = bb.rem.length := by
  rw [rem_length]
  have := h.pos_le
  obtain ⟨h1, h2, h3⟩ := h
  unfold remaining pos
  omega

theorem pos_adv (n : Nat) (bb : BB) : (bb.adv n).pos = bb.pos + n := by
  simp only [adv, pos]; omega

theorem adv_bytes (n : Nat) (bb : BB) : (bb.adv n).bytes = bb.bytes := rfl

theorem rem_adv (n : Nat) (bb : BB) : (bb.adv n).rem = bb.rem.drop n := by
  unfold rem; rw [pos_adv, adv_bytes, List.drop_drop]

theorem WF.adv {bb : BB} (h : bb.WF) {n : Nat} (hn : n ≤ bb.rem.length) : (bb.adv n).WF := by
  have hp := h.pos_le
  rw [rem_length] at hn
  obtain ⟨h1, h2, h3⟩ := h
  unfold pos at hn hp
  refine ⟨?_, ?_, ?_⟩ <;> simp only [BB.adv] <;> omega

theorem WF.init (bytes : List UInt8) : (BB.init bytes).WF :=
  ⟨Nat.zero_le _, Nat.zero_le _, fun _ => rfl⟩

@[simp] theorem rem_init (bytes : List UInt8) : (BB.init bytes).rem = bitsOf bytes := by
  simp [rem, init, pos]

theorem rem_eq {bb : BB} : bb.rem = (bitsOf (bb.bytes.drop bb.byteOff)).drop bb.bitOff := by
  rw [rem, pos, bitsOf_drop, List.drop_drop]

/-- The reader is byte aligned exactly when a whole number of bytes is left. -/
theorem bitOff_eq {bb : BB} (h : bb.WF) : (bb.bitOff = 0) ↔ bb.rem.length % 8 = 0 := by
  have := h.pos_le
  rw [rem_length]
  obtain ⟨h1, h2, h3⟩ := h
  unfold pos at *
  omega

/-! ### byte level lemmas, by evaluation over all bytes -/

theorem lowestBits_eq (b : UInt8) (o : Nat) (ho : o ≤ 7) :
    lowestBits b.toNat (8 - o) = val ((byteBits b).drop o) := by
  have key : ∀ b < 256, ∀ o < 8, lowestBits b (8 - o) = val ((u 8 b).drop o) := by decide +kernel
  rw [byteBits_eq_u]
  exact key b.toNat b.toNat_lt o (by omega)

theorem highestBits_eq (b : UInt8) (k : Nat) (hk : k ≤ 8) :
    highestBits b.toNat k = val ((byteBits b).take k) := by
  have key : ∀ b < 256, ∀ k < 9, highestBits b k = val ((u 8 b).take k) := by decide +kernel
  rw [byteBits_eq_u]
  exact key b.toNat b.toNat_lt k (by omega)

theorem highest_lowest_eq (b : UInt8) (o n : Nat) (h : n < 8 - o) :
    highestBits (lowestBits b.toNat (8 - o)) (o + n) = val (((byteBits b).drop o).take n) := by
  have key : ∀ b < 256, ∀ o < 8, ∀ n < 8 - o,
      highestBits (lowestBits b (8 - o)) (o + n) = val (((u 8 b).drop o).take n) := by decide +kernel
  rw [byteBits_eq_u]
  exact key b.toNat b.toNat_lt o (by omega) n h

theorem shl_or (x k y : Nat) (h : y < 2 ^ k) : (x <<< k) ||| y = x * 2 ^ k + y := by
  rw [← Nat.shiftLeft_add_eq_or_of_lt h, Nat.shiftLeft_eq]

theorem peekLoop_eq (w : Nat) : ∀ (k off : Nat) (bytes pre post : List UInt8) (bits m : Nat),
    bytes.drop off = pre ++ post → pre.length = k → bits < 2 ^ m → m + 8 * k ≤ w →
    peekLoop bytes w k off bits = some (off + k, bits * 2 ^ (8 * k) + val (bitsOf pre)) := by
  intro k
  induction k with
  | zero =>
    intro off bytes pre post bits m _ hp _ _
    have : pre = [] := List.eq_nil_of_length_eq_zero hp
    subst this
    simp [peekLoop]
  | succ k ih =>
    intro off bytes pre post bits m hd hp hb hm
    match pre, hp with
    | b :: pre, hp =>
      have hget : bytes[off]? = some b := by
        have h := congrArg (fun l => l[0]?) hd
        simpa [List.getElem?_drop] using h
      have hd' : bytes.drop (off + 1) = pre ++ post := by
        rw [← List.drop_drop, hd]; rfl
      have hshift : bits * 2 ^ 8 + b.toNat < 2 ^ (m + 8) := by
        have : b.toNat < 2 ^ 8 := b.toNat_lt
        rw [Nat.pow_add]
        have : bits * 2 ^ 8 + 2 ^ 8 ≤ 2 ^ m * 2 ^ 8 := by
          rw [← Nat.succ_mul]; exact Nat.mul_le_mul_right _ hb
        omega
      have hw : bits * 2 ^ 8 < 2 ^ w := by
        have h1 : 2 ^ (m + 8) ≤ 2 ^ w := Nat.pow_le_pow_right (by omega) (by omega)
        exact Nat.lt_of_lt_of_le (Nat.lt_of_le_of_lt (Nat.le_add_right _ _) hshift) h1
      unfold peekLoop
      rw [hget]
      simp only
      rw [Nat.shiftLeft_eq, Nat.mod_eq_of_lt hw, ← Nat.shiftLeft_eq, shl_or _ 8 _ b.toNat_lt]
      rw [ih (off + 1) bytes pre post _ (m + 8) hd' (by simpa using hp) hshift (by omega)]
      rw [bitsOf_cons, val_append, byteBits_eq_u, val_u_of_lt b.toNat_lt, bitsOf_length]
      have hpl : pre.length = k := by simpa using hp
      rw [hpl]
      simp only [Option.some.injEq, Prod.mk.injEq]
      refine ⟨by omega, ?_⟩
      rw [Nat.add_mul, Nat.mul_assoc, ← Nat.pow_add, show 8 + 8 * k = 8 * (k + 1) by omega]
      omega

theorem peekBits_ok {bb : BB} (h : bb.WF) {w n : Nat} (h0 : 0 < n) (hw : n ≤ w)
    (hr : n ≤ bb.rem.length) : peekBits w n bb = .ok (val (bb.rem.take n)) bb := by
  have hrl := hr
  rw [rem_length] at hrl
  have hp := h.pos_le
  obtain ⟨h1, h2, h3⟩ := h
  have hlt : bb.byteOff < bb.bytes.length := by
    unfold pos at *
    omega
  obtain ⟨b, tl, hbt⟩ : ∃ b tl, bb.bytes.drop bb.byteOff = b :: tl := by
    cases hd : bb.bytes.drop bb.byteOff with
    | nil => have := congrArg List.length hd; simp at this; omega
    | cons b tl => exact ⟨b, tl, rfl⟩
  have hget : bb.bytes[bb.byteOff]? = some b := by
    have h := congrArg (fun l => l[0]?) hbt
    simpa [List.getElem?_drop] using h
  have hrem : bb.rem = (byteBits b).drop bb.bitOff ++ bitsOf tl := by
    rw [rem_eq, hbt, bitsOf_cons, List.drop_append, byteBits_length,
      show bb.bitOff - 8 = 0 by omega]; rfl
  have htl : bb.bytes.drop (bb.byteOff + 1) = tl := by rw [← List.drop_drop, hbt]; rfl
  have htll : tl.length = bb.bytes.length - (bb.byteOff + 1) := by rw [← htl]; simp
  have hnr : ¬ (n > bb.remaining ∨ n > w) := by
    unfold remaining pos at *; omega
  unfold peekBits
  rw [if_neg (by omega), if_neg hnr, hget]
  simp only
  by_cases hc : n < 8 - bb.bitOff
  · rw [if_pos hc, highest_lowest_eq b _ _ hc, hrem, List.take_append_of_le_length (by simp; omega)]
  · rw [if_neg hc]
    have hsplit : tl = tl.take ((n - (8 - bb.bitOff)) / 8) ++ tl.drop ((n - (8 - bb.bitOff)) / 8) :=
      (List.take_append_drop _ _).symm
    have hq : (n - (8 - bb.bitOff)) / 8 ≤ tl.length := by
      rw [htll]; unfold pos at *; omega
    rw [peekLoop_eq w _ (bb.byteOff + 1) bb.bytes (tl.take ((n - (8 - bb.bitOff)) / 8))
      (tl.drop ((n - (8 - bb.bitOff)) / 8)) _ (8 - bb.bitOff) (by rw [htl]; exact hsplit)
      (by rw [List.length_take]; omega)
      (by rw [lowestBits_eq b _ h2]; exact Nat.lt_of_lt_of_eq (val_lt _) (by simp)) (by omega)]
    simp only
    rw [lowestBits_eq b _ h2]
    have hpre : val ((byteBits b).drop bb.bitOff) * 2 ^ (8 * ((n - (8 - bb.bitOff)) / 8)) +
        val (bitsOf (tl.take ((n - (8 - bb.bitOff)) / 8)))
        = val ((byteBits b).drop bb.bitOff ++ bitsOf (tl.take ((n - (8 - bb.bitOff)) / 8))) := by
      rw [val_append, bitsOf_length, List.length_take, Nat.min_eq_left hq]
    rw [hpre]
    have htake : bb.rem.take n = (byteBits b).drop bb.bitOff ++ (bitsOf tl).take (n - (8 - bb.bitOff)) := by
      rw [hrem, List.take_append, List.take_of_length_le (by simp; omega)]; simp
    by_cases hm : (n - (8 - bb.bitOff)) % 8 > 0
    · rw [if_pos hm]
      obtain ⟨b2, tl2, hb2⟩ : ∃ b2 tl2, tl.drop ((n - (8 - bb.bitOff)) / 8) = b2 :: tl2 := by
        cases hd : tl.drop ((n - (8 - bb.bitOff)) / 8) with
        | nil =>
          have := congrArg List.length hd
          simp only [List.length_drop, List.length_nil, htll] at this
          unfold pos at *; omega
        | cons b tl => exact ⟨b, tl, rfl⟩
      have hget2 : bb.bytes[bb.byteOff + 1 + (n - (8 - bb.bitOff)) / 8]? = some b2 := by
        have h := congrArg (fun l => l[0]?) hb2
        rw [← htl] at h
        simpa [List.getElem?_drop] using h
      rw [hget2]
      simp only
      rw [highestBits_eq b2 _ (by omega), Nat.shiftLeft_eq]
      have hlen1 : ((byteBits b).drop bb.bitOff ++ bitsOf (tl.take ((n - (8 - bb.bitOff)) / 8))).length
          + (n - (8 - bb.bitOff)) % 8 = n := by
        simp only [List.length_append, List.length_drop, byteBits_length, bitsOf_length,
          List.length_take, Nat.min_eq_left hq]
        omega
      have hltw : val ((byteBits b).drop bb.bitOff ++ bitsOf (tl.take ((n - (8 - bb.bitOff)) / 8)))
          * 2 ^ ((n - (8 - bb.bitOff)) % 8) < 2 ^ w := by
        have h1 := val_lt ((byteBits b).drop bb.bitOff ++ bitsOf (tl.take ((n - (8 - bb.bitOff)) / 8)))
        have h2 : 2 ^ n ≤ 2 ^ w := Nat.pow_le_pow_right (by omega) hw
        refine Nat.lt_of_lt_of_le ?_ h2
        have h4 := Nat.mul_lt_mul_of_pos_right h1 (Nat.two_pow_pos ((n - (8 - bb.bitOff)) % 8))
        rw [← Nat.pow_add, hlen1] at h4
        exact h4
      rw [Nat.mod_eq_of_lt hltw, ← Nat.shiftLeft_eq, shl_or _ _ _
        (Nat.lt_of_lt_of_eq (val_lt _) (by rw [List.length_take, byteBits_length, Nat.min_eq_left (by omega)]))]
      have hfin : (bitsOf tl).take (n - (8 - bb.bitOff))
          = bitsOf (tl.take ((n - (8 - bb.bitOff)) / 8)) ++ (byteBits b2).take ((n - (8 - bb.bitOff)) % 8) := by
        conv => lhs; rw [hsplit, bitsOf_append, hb2]
        rw [List.take_append, bitsOf_length, List.length_take, Nat.min_eq_left hq,
          List.take_of_length_le (by rw [bitsOf_length, List.length_take, Nat.min_eq_left hq]; omega),
          bitsOf_cons, List.take_append_of_le_length (by rw [byteBits_length]; omega)]
        congr 2
        omega
      rw [htake, hfin, ← List.append_assoc]
      conv => rhs; rw [val_append]
      rw [List.length_take, byteBits_length, Nat.min_eq_left (by omega)]
    · rw [if_neg hm, htake]
      congr 3
      rw [bitsOf_take]
      congr 1
      omega

theorem peekBits_fail {bb : BB} (h : bb.WF) {w n : Nat} (h0 : 0 < n)
    (hr : ¬ (n ≤ w ∧ n ≤ bb.rem.length)) : peekBits w n bb = .fail bb := by
  unfold peekBits
  rw [if_neg (by omega), if_pos]
  rw [remaining_eq h]; omega

theorem consumeBits_ok {bb : BB} (h : bb.WF) {n : Nat} (hr : n ≤ bb.rem.length) :
    consumeBits n bb = .ok () (bb.adv n) := by
  unfold consumeBits
  rw [remaining_eq h, if_neg (by omega)]; rfl

theorem consumeBits_fail {bb : BB} (h : bb.WF) {n : Nat} (hr : ¬ n ≤ bb.rem.length) :
    consumeBits n bb = .fail bb := by
  unfold consumeBits
  rw [remaining_eq h, if_pos (by omega)]

/-- Complete description of `ReadBits`. -/
theorem readBits_eq {bb : BB} (h : bb.WF) {w n : Nat} (h0 : 0 < n) :
    readBits w n bb = if n ≤ w ∧ n ≤ bb.rem.length then .ok (val (bb.rem.take n)) (bb.adv n)
      else .fail bb := by
  unfold readBits
  split
  · rename_i v bb1 heq
    by_cases hc : n ≤ w ∧ n ≤ bb.rem.length
    · rw [peekBits_ok h h0 hc.1 hc.2] at heq
      cases heq
      rw [consumeBits_ok h hc.2, if_pos hc]
    · rw [peekBits_fail h h0 hc] at heq; cases heq
  · rename_i r hr
    by_cases hc : n ≤ w ∧ n ≤ bb.rem.length
    · rw [peekBits_ok h h0 hc.1 hc.2] at hr
      exact absurd rfl (hr _ _)
    · rw [if_neg hc, peekBits_fail h h0 hc]

theorem readBits_zero (bb : BB) (w : Nat) : readBits w 0 bb = .bad .assertion := by
  simp [readBits, peekBits]

end BB
end H265
