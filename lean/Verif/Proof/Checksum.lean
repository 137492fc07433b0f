/- The NAL unit checksum. -/
import Verif.Model.Common
import Verif.Spec.ByteStream
import Verif.Proof.BitBuffer

namespace H265
open Spec BB

theorem val_byte (b : UInt8) : val (byteBits b) = b.toNat := by
  rw [byteBits_eq_u]; exact val_u_of_lt b.toNat_lt

theorem readUInt8_cons {bb : BB} (h : bb.WF) {a : UInt8} {t : List UInt8} (hr : bb.rem = bitsOf (a :: t)) :
    bb.readUInt8 = .ok a.toNat (bb.adv 8) ∧ (bb.adv 8).rem = bitsOf t ∧ (bb.adv 8).WF := by
  have hl : 8 ≤ bb.rem.length := by rw [hr]; simp
  refine ⟨?_, ?_, h.adv hl⟩
  · unfold readUInt8
    have hv : val (bb.rem.take 8) = a.toNat := by
      rw [hr, bitsOf_cons, List.take_append_of_le_length (by simp), List.take_of_length_le (by simp), val_byte]
    rw [readBits_eq h (by omega), if_pos ⟨by omega, hl⟩]
    simp only [hv]
    rw [if_pos (by have := a.toNat_lt; omega)]
  · rw [rem_adv, hr, bitsOf_cons, List.drop_append_of_le_length (by simp), List.drop_of_length_le (by simp), List.nil_append]

theorem val4 (a b c d : UInt8) : val (bitsOf [a, b, c, d]) = a.toNat * 2 ^ 24 + b.toNat * 2 ^ 16 + c.toNat * 2 ^ 8 + d.toNat := by
  simp only [bitsOf_cons, bitsOf_nil, List.append_nil]
  rw [val_append, val_append, val_append]
  simp only [List.length_append, byteBits_length, val_byte]
  omega

theorem readUInt32_cons {bb : BB} (h : bb.WF) {a b c d : UInt8} {t : List UInt8} (hr : bb.rem = bitsOf (a :: b :: c :: d :: t)) :
    bb.readUInt32 = .ok (a.toNat * 2 ^ 24 + b.toNat * 2 ^ 16 + c.toNat * 2 ^ 8 + d.toNat) (bb.adv 32) ∧
      (bb.adv 32).rem = bitsOf t ∧ (bb.adv 32).WF := by
  have hl : 32 ≤ bb.rem.length := by rw [hr]; simp; omega
  have hs : bitsOf (a :: b :: c :: d :: t) = bitsOf [a, b, c, d] ++ bitsOf t := by rw [← bitsOf_append]; rfl
  refine ⟨?_, ?_, h.adv hl⟩
  · unfold readUInt32
    rw [readBits_eq h (by omega), if_pos ⟨by omega, hl⟩]
    rw [hr, hs, List.take_append_of_le_length (by simp), List.take_of_length_le (by simp), val4]
  · rw [rem_adv, hr, hs, List.drop_append_of_le_length (by simp), List.drop_of_length_le (by simp), List.nil_append]

theorem readUInt32_short {bb : BB} (h : bb.WF) {t : List UInt8} (hr : bb.rem = bitsOf t) (ht : t.length < 4) :
    bb.readUInt32 = .fail bb := by
  unfold readUInt32
  rw [readBits_eq h (by omega), if_neg]
  rintro ⟨_, hl⟩
  rw [hr] at hl; simp at hl; omega

theorem checksumWords_eq : ∀ (fuel sum : Nat) (bb : BB) (l : List UInt8), bb.WF → bb.rem = bitsOf l → l.length < fuel →
    sum + 2 ^ 32 * l.length < 2 ^ 64 →
    ∃ ws t bb1, checksumWords fuel sum bb = .ok (sum + ws.sum) bb1 ∧ bb1.WF ∧ bb1.bytes = bb.bytes ∧
      bb1.rem = bitsOf t ∧ t.length < 4 ∧ words32 l = ws ++ words32 t ∧ ws.sum ≤ 2 ^ 32 * (l.length - t.length) ∧
      t.length ≤ l.length := by
  intro fuel
  induction fuel with
  | zero => intro _ _ _ _ _ h; omega
  | succ fuel ih =>
    intro sum bb l hwf hr hf hb
    have short : l.length < 4 → ∃ ws t bb1, checksumWords (fuel + 1) sum bb = .ok (sum + ws.sum) bb1 ∧ bb1.WF ∧ bb1.bytes = bb.bytes ∧
        bb1.rem = bitsOf t ∧ t.length < 4 ∧ words32 l = ws ++ words32 t ∧ ws.sum ≤ 2 ^ 32 * (l.length - t.length) ∧
        t.length ≤ l.length := by
      intro hl
      refine ⟨[], l, bb, ?_, hwf, rfl, hr, hl, rfl, by simp, Nat.le_refl _⟩
      unfold checksumWords
      rw [readUInt32_short hwf hr hl]; simp
    match l, hr, hf, hb, short with
    | [], _, _, _, short => exact short (by simp)
    | [_], _, _, _, short => exact short (by simp)
    | [_, _], _, _, _, short => exact short (by simp)
    | [_, _, _], _, _, _, short => exact short (by simp)
    | a :: b :: c :: d :: l', hr, hf, hb, _ =>
      obtain ⟨h1, h2, h3⟩ := readUInt32_cons hwf hr
      have ha := a.toNat_lt; have hb' := b.toNat_lt; have hc := c.toNat_lt; have hd := d.toNat_lt
      simp only [List.length_cons] at hf hb
      obtain ⟨ws, t, bb1, e1, e2, e3, e4, e5, e6, e7, e8⟩ :=
        ih ((sum + (a.toNat * 2 ^ 24 + b.toNat * 2 ^ 16 + c.toNat * 2 ^ 8 + d.toNat)) % 2 ^ 64) (bb.adv 32) l' h3 h2 (by omega)
          (by rw [Nat.mod_eq_of_lt (by omega)]; omega)
      rw [Nat.mod_eq_of_lt (by omega)] at e1
      refine ⟨(a.toNat * 2 ^ 24 + b.toNat * 2 ^ 16 + c.toNat * 2 ^ 8 + d.toNat) :: ws, t, bb1, ?_, e2, e3, e4, e5, ?_, ?_, ?_⟩
      · unfold checksumWords
        rw [h1]
        simp only
        rw [Nat.mod_eq_of_lt (by omega), e1, List.sum_cons, Nat.add_assoc]
      · rw [words32, e6]; rfl
      · simp only [List.sum_cons, List.length_cons]; omega
      · simp only [List.length_cons]; omega

theorem shl8_or {x y k m : Nat} (hy : y < 2 ^ k) (hk : k ≤ m) : (x <<< m) ||| y = x * 2 ^ m + y :=
  shl_or x m y (Nat.lt_of_lt_of_le hy (Nat.pow_le_pow_right (by omega) hk))

theorem shift_byte (a : UInt8) (k : Nat) (hk : k ≤ 24) : (a.toNat <<< k) % 2 ^ 32 = a.toNat * 2 ^ k := by
  rw [Nat.shiftLeft_eq, Nat.mod_eq_of_lt]
  have ha := a.toNat_lt
  calc a.toNat * 2 ^ k < 2 ^ 8 * 2 ^ k := Nat.mul_lt_mul_of_pos_right ha (Nat.two_pow_pos k)
    _ = 2 ^ (8 + k) := (Nat.pow_add _ _ _).symm
    _ ≤ 2 ^ 32 := Nat.pow_le_pow_right (by omega) (by omega)

theorem checksumTail_step {bb : BB} (h : bb.WF) {a : UInt8} {t : List UInt8} (hr : bb.rem = bitsOf (a :: t)) {fuel i v8 v : Nat} (hi : i ≤ 3) :
    checksumTail (fuel + 1) i v8 v bb = checksumTail fuel (i + 1) a.toNat (v ||| (a.toNat * 2 ^ (8 * (3 - i)))) (bb.adv 8) := by
  conv => lhs; unfold checksumTail
  rw [remaining_eq h, if_pos (by rw [hr]; simp; omega), (readUInt8_cons h hr).1]
  simp only
  rw [if_neg (by omega), shift_byte _ _ (by omega)]

theorem checksumTail_end {bb : BB} (h : bb.WF) (hr : bb.rem = []) {fuel i v8 v : Nat} :
    checksumTail (fuel + 1) i v8 v bb = .ok (i, v) bb := by
  unfold checksumTail
  rw [remaining_eq h, if_neg (by rw [hr]; simp)]

theorem or_zeros {x y k : Nat} (hy : y < 2 ^ k) : (x * 2 ^ k) ||| y = x * 2 ^ k + y := by
  have := shl_or x k y hy
  rwa [Nat.shiftLeft_eq] at this

theorem checksumTail_eq {bb : BB} (h : bb.WF) {t : List UInt8} (hr : bb.rem = bitsOf t) (ht : t.length < 4) (fuel : Nat) :
    ∃ bb2 v, checksumTail (t.length + 1 + fuel) 0 0 0 bb = .ok (t.length, v) bb2 ∧ bb2.WF ∧ bb2.bytes = bb.bytes ∧
      (words32 t).sum = v ∧ v < 2 ^ 32 := by
  match t, ht with
  | [], _ =>
    refine ⟨bb, 0, ?_, h, rfl, by simp [words32], by omega⟩
    rw [show ([] : List UInt8).length + 1 + fuel = fuel + 1 by simp; omega]
    exact checksumTail_end h hr
  | [a], _ =>
    obtain ⟨h1, h2, h3⟩ := readUInt8_cons h hr
    have ha := a.toNat_lt
    refine ⟨bb.adv 8, a.toNat * 2 ^ 24, ?_, h3, rfl, by simp [words32], by omega⟩
    rw [show [a].length + 1 + fuel = fuel + 1 + 1 by simp; omega, checksumTail_step h hr (by omega), checksumTail_end h3 h2]
    simp
  | [a, b], _ =>
    obtain ⟨h1, h2, h3⟩ := readUInt8_cons h hr
    obtain ⟨h4, h5, h6⟩ := readUInt8_cons h3 h2
    have ha := a.toNat_lt
    have hb := b.toNat_lt
    refine ⟨(bb.adv 8).adv 8, a.toNat * 2 ^ 24 + b.toNat * 2 ^ 16, ?_, h6, rfl, by simp [words32], by omega⟩
    rw [show [a, b].length + 1 + fuel = fuel + 1 + 1 + 1 by simp; omega, checksumTail_step h hr (by omega), checksumTail_step h3 h2 (by omega), checksumTail_end h6 h5]
    rw [Nat.zero_or, show (8 * (3 - 0)) = 24 by rfl, or_zeros (k := 24)]
    · simp
    · simp; omega
  | [a, b, c], _ =>
    obtain ⟨h1, h2, h3⟩ := readUInt8_cons h hr
    obtain ⟨h4, h5, h6⟩ := readUInt8_cons h3 h2
    obtain ⟨h7, h8, h9⟩ := readUInt8_cons h6 h5
    have ha := a.toNat_lt
    have hb := b.toNat_lt
    have hc := c.toNat_lt
    refine ⟨((bb.adv 8).adv 8).adv 8, a.toNat * 2 ^ 24 + b.toNat * 2 ^ 16 + c.toNat * 2 ^ 8, ?_, h9, rfl, by simp [words32], by omega⟩
    rw [show [a, b, c].length + 1 + fuel = fuel + 1 + 1 + 1 + 1 by simp; omega, checksumTail_step h hr (by omega), checksumTail_step h3 h2 (by omega), checksumTail_step h6 h5 (by omega), checksumTail_end h9 h8]
    rw [Nat.zero_or, show (8 * (3 - 0)) = 24 by rfl, or_zeros (k := 24) (by simp; omega)]
    rw [show a.toNat * 2 ^ 24 + b.toNat * 2 ^ (8 * (3 - (0 + 1))) = (a.toNat * 2 ^ 8 + b.toNat) * 2 ^ 16 by simp; omega, or_zeros (k := 16)]
    · simp
    · simp; omega

theorem onesFold (ws : List Nat) : ∀ acc, acc < 2 ^ 32 → (∀ w ∈ ws, w < 2 ^ 32) →
    ws.foldl onesAdd acc < 2 ^ 32 ∧ (ws.foldl onesAdd acc) % (2 ^ 32 - 1) = (acc + ws.sum) % (2 ^ 32 - 1) ∧
      (ws.foldl onesAdd acc = 0 ↔ acc + ws.sum = 0) := by
  induction ws with
  | nil => intro acc h _; exact ⟨h, by simp, by simp⟩
  | cons w ws ih =>
    intro acc h hw
    have hw0 := hw w (by simp)
    have h1 : onesAdd acc w < 2 ^ 32 := by unfold onesAdd; split <;> omega
    obtain ⟨a, b, c⟩ := ih (onesAdd acc w) h1 (fun x hx => hw x (by simp [hx]))
    rw [List.foldl_cons]
    refine ⟨a, ?_, ?_⟩
    · rw [b, List.sum_cons]; unfold onesAdd; split <;> omega
    · rw [c, List.sum_cons]; unfold onesAdd; split <;> omega

theorem words32_lt : ∀ l : List UInt8, ∀ w ∈ words32 l, w < 2 ^ 32
  | [], w, h => by simp [words32] at h
  | [a], w, h => by have := a.toNat_lt; simp [words32] at h; omega
  | [a, b], w, h => by have := a.toNat_lt; have := b.toNat_lt; simp [words32] at h; omega
  | [a, b, c], w, h => by have := a.toNat_lt; have := b.toNat_lt; have := c.toNat_lt; simp [words32] at h; omega
  | a :: b :: c :: d :: l, w, h => by
    have := a.toNat_lt; have := b.toNat_lt; have := c.toNat_lt; have := d.toNat_lt
    rw [words32] at h
    cases h with
    | head => omega
    | tail _ h => exact words32_lt l w h

/-- the folding of the code, as a function of the 64-bit sum -/
def fold32 (s : Nat) : Nat :=
  let s := (s >>> 32) + (s &&& 0xffffffff)
  (s + (s >>> 32)) % 2 ^ 64

theorem fold32_eq {s : Nat} (h : s < 2 ^ 63) : fold32 s % 2 ^ 32 < 2 ^ 32 ∧
    (fold32 s % 2 ^ 32) % (2 ^ 32 - 1) = s % (2 ^ 32 - 1) ∧ (fold32 s % 2 ^ 32 = 0 ↔ s = 0) ∧ fold32 s < 2 ^ 33 := by
  have e1 : s &&& 0xffffffff = s % 2 ^ 32 := Nat.and_two_pow_sub_one_eq_mod s 32
  unfold fold32
  simp only [e1, Nat.shiftRight_eq_div_pow]
  have hs : s = 2 ^ 32 * (s / 2 ^ 32) + s % 2 ^ 32 := (Nat.div_add_mod s (2 ^ 32)).symm
  have hlo : s % 2 ^ 32 < 2 ^ 32 := Nat.mod_lt _ (by omega)
  have hhi : s / 2 ^ 32 < 2 ^ 31 := by omega
  clear e1
  generalize s / 2 ^ 32 = hi at *
  generalize s % 2 ^ 32 = lo at *
  subst hs
  have hm : (2 ^ 32 * hi + lo) % (2 ^ 32 - 1) = (hi + lo) % (2 ^ 32 - 1) := by
    rw [show 2 ^ 32 * hi + lo = (hi + lo) + (2 ^ 32 - 1) * hi by omega, Nat.add_mul_mod_self_left]
  rw [hm]
  by_cases hc : hi + lo < 2 ^ 32
  · rw [Nat.div_eq_of_lt hc, Nat.add_zero, Nat.mod_eq_of_lt (show hi + lo < 2 ^ 64 by omega), Nat.mod_eq_of_lt hc]
    omega
  · have : (hi + lo) / 2 ^ 32 = 1 := by omega
    rw [this, Nat.mod_eq_of_lt (show hi + lo + 1 < 2 ^ 64 by omega)]
    have e : (hi + lo + 1) % 2 ^ 32 = hi + lo + 1 - 2 ^ 32 := by omega
    rw [e]
    refine ⟨by omega, ?_, by omega, by omega⟩
    have : hi + lo = (hi + lo + 1 - 2 ^ 32) + (2 ^ 32 - 1) := by omega
    conv => rhs; rw [this, Nat.add_mod_right]

theorem ones_unique {a b : Nat} (ha : a < 2 ^ 32) (hb : b < 2 ^ 32) (h : a % (2 ^ 32 - 1) = b % (2 ^ 32 - 1))
    (h0 : a = 0 ↔ b = 0) : a = b := by omega

theorem getNaluChecksum_eq {bb : BB} (h : bb.WF) (hal : bb.bitOff = 0) (hlen : bb.bytes.length < 2 ^ 32) :
    bb.getNaluChecksum = .ok (beBytes 4 (checksum32 (bb.bytes.drop bb.byteOff))) bb := by
  have hr : bb.rem = bitsOf (bb.bytes.drop bb.byteOff) := by
    rw [rem_eq, hal, List.drop_zero]
  generalize hd : bb.bytes.drop bb.byteOff = l at hr
  have hll : l.length < 2 ^ 32 - 0 := by
    have := congrArg List.length hd; rw [List.length_drop] at this; omega
  have hrl : bb.remaining = 8 * l.length := by rw [remaining_eq h, hr, bitsOf_length]
  have hl30 : (2:Nat) ^ 32 * l.length < 2 ^ 64 := by omega
  obtain ⟨ws, t, bb1, e1, e2, e3, e4, e5, e6, e7, e8⟩ :=
    checksumWords_eq (bb.remaining + 1) 0 bb l h hr (by omega) (by omega)
  have hwsum : ∀ l : List UInt8, 4 * (words32 l).sum ≤ 2 ^ 32 * (l.length + 3) := by
    intro l
    induction l using words32.induct with
    | case1 => simp [words32]
    | case2 a => have := a.toNat_lt; simp [words32]; omega
    | case3 a b => have := a.toNat_lt; have := b.toNat_lt; simp [words32]; omega
    | case4 a b c => have := a.toNat_lt; have := b.toNat_lt; have := c.toNat_lt; simp [words32]; omega
    | case5 a b c d l ih =>
      have := a.toNat_lt; have := b.toNat_lt; have := c.toNat_lt; have := d.toNat_lt
      simp only [words32, List.sum_cons, List.length_cons]; omega
  have hws := hwsum l
  have hr1 : bb1.remaining = 8 * t.length := by rw [remaining_eq e2, e4, bitsOf_length]
  obtain ⟨bb2, v, f1, f2, f3, f4, f5⟩ := checksumTail_eq e2 e4 e5 (7 * t.length + 4)
  rw [show t.length + 1 + (7 * t.length + 4) = bb1.remaining + 5 by omega] at f1
  have hsum : (words32 l).sum = ws.sum + v := by rw [e6, List.sum_append, f4]
  have hs62 : (words32 l).sum < 2 ^ 63 := by omega
  unfold getNaluChecksum
  rw [e1]
  simp only
  rw [f1]
  simp only
  have hsel : (if t.length > 0 then (0 + ws.sum + v) % 2 ^ 64 else 0 + ws.sum) = (words32 l).sum := by
    rw [hsum]
    by_cases ht : t.length > 0
    · rw [if_pos ht, Nat.mod_eq_of_lt (by omega)]; omega
    · rw [if_neg ht]
      have : t = [] := List.length_eq_zero_iff.mp (by omega)
      subst this
      simp only [words32, List.sum_nil] at f4
      omega
  rw [hsel]
  have hseek : bb2.seek bb.byteOff bb.bitOff = .ok () bb := by
    unfold seek
    obtain ⟨w1, w2, w3⟩ := h
    rw [f3, e3, if_neg]
    rw [hal]; omega
  rw [hseek]
  simp only
  change Res.ok [UInt8.ofNat (((2 ^ 64 - 1 - fold32 (words32 l).sum) % 2 ^ 32) >>> 24),
    UInt8.ofNat (((2 ^ 64 - 1 - fold32 (words32 l).sum) % 2 ^ 32) >>> 16),
    UInt8.ofNat (((2 ^ 64 - 1 - fold32 (words32 l).sum) % 2 ^ 32) >>> 8),
    UInt8.ofNat ((2 ^ 64 - 1 - fold32 (words32 l).sum) % 2 ^ 32)] bb = _
  have hans : (2 ^ 64 - 1 - fold32 (words32 l).sum) % 2 ^ 32 = checksum32 l := by
    unfold checksum32
    obtain ⟨a, b, c, d⟩ := fold32_eq hs62
    obtain ⟨a', b', c'⟩ := onesFold (words32 l) 0 (by omega) (words32_lt l)
    rw [Nat.zero_add] at b' c'
    have := ones_unique a a' (b.trans b'.symm) (c.trans c'.symm)
    rw [← this]
    omega
  rw [hans]
  simp only [beBytes, Nat.shiftRight_eq_div_pow]
  congr 1
  simp

theorem words32_append (a b : List UInt8) (h : a.length % 4 = 0) : words32 (a ++ b) = words32 a ++ words32 b := by
  induction a using words32.induct with
  | case1 => rfl
  | case2 x => simp at h
  | case3 x y => simp at h
  | case4 x y z => simp at h
  | case5 x y z w l ih =>
    simp only [List.length_cons] at h
    simp only [List.cons_append, words32]
    rw [ih (by omega)]

theorem words32_zeros (n : Nat) : ∀ w ∈ words32 (List.replicate n 0), w = 0 := by
  generalize hl : List.replicate n (0 : UInt8) = l
  induction l using words32.induct generalizing n with
  | case1 => simp [words32]
  | case2 a => intro w; have : a ∈ List.replicate n (0:UInt8) := by rw [hl]; simp
               simp [List.mem_replicate] at this; simp [words32, this]
  | case3 a b =>
    have h1 : a ∈ List.replicate n (0:UInt8) := by rw [hl]; simp
    have h2 : b ∈ List.replicate n (0:UInt8) := by rw [hl]; simp
    simp [List.mem_replicate] at h1 h2; simp [words32, h1, h2]
  | case4 a b c =>
    have h1 : a ∈ List.replicate n (0:UInt8) := by rw [hl]; simp
    have h2 : b ∈ List.replicate n (0:UInt8) := by rw [hl]; simp
    have h3 : c ∈ List.replicate n (0:UInt8) := by rw [hl]; simp
    simp [List.mem_replicate] at h1 h2 h3; simp [words32, h1, h2, h3]
  | case5 a b c d l ih =>
    have h1 : a ∈ List.replicate n (0:UInt8) := by rw [hl]; simp
    have h2 : b ∈ List.replicate n (0:UInt8) := by rw [hl]; simp
    have h3 : c ∈ List.replicate n (0:UInt8) := by rw [hl]; simp
    have h4 : d ∈ List.replicate n (0:UInt8) := by rw [hl]; simp
    simp [List.mem_replicate] at h1 h2 h3 h4
    have hl' : List.replicate (n - 4) (0:UInt8) = l := by
      have := congrArg (List.drop 4) hl
      simpa using this
    intro w hw
    rw [words32] at hw
    cases hw with
    | head => simp [h1, h2, h3, h4]
    | tail _ hw => exact ih (n - 4) hl' w hw

end H265
