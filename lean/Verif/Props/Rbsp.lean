/- C16-C18, C20: checksum, more_rbsp_data, rbsp_trailing_bits, NAL unit type classes. -/
import Verif.Proof.Checksum
import Verif.Proof.Denote

namespace H265
open Spec BB

/-! ### C16 -/

/-- C16: on a byte-aligned reader, `GetNaluChecksum` is the complement of the one's complement sum
of the remaining bytes (big-endian 32-bit words, zero padded), stored big-endian; the reader is
unchanged. -/
theorem C16_checksum {bb : BB} (h : bb.WF) (hal : bb.bitOff = 0) (hlen : bb.bytes.length < 2 ^ 32) :
    bb.getNaluChecksum = .ok (beBytes 4 (checksum32 (bb.bytes.drop bb.byteOff))) bb :=
  getNaluChecksum_eq h hal hlen

/-- C16: trailing zero bytes after whole words do not change the checksum. -/
theorem C16_zero_padding (data : List UInt8) (n : Nat) (h : data.length % 4 = 0) :
    checksum32 (data ++ List.replicate n 0) = checksum32 data := by
  unfold checksum32
  rw [words32_append _ _ h, List.foldl_append]
  have : ∀ (ws : List Nat) (a : Nat), (∀ w ∈ ws, w = 0) → a < 2 ^ 32 → ws.foldl onesAdd a = a := by
    intro ws
    induction ws with
    | nil => intro a _ _; rfl
    | cons w ws ih =>
      intro a hw ha
      rw [List.foldl_cons, hw w (by simp)]
      have : onesAdd a 0 = a := by unfold onesAdd; rw [if_pos (by omega)]; omega
      rw [this]; exact ih a (fun x hx => hw x (by simp [hx])) ha
  rw [this _ _ (words32_zeros n) (onesFold _ 0 (by omega) (words32_lt data)).1]

theorem checksumWords_unaligned : ∀ (fuel sum : Nat) (bb : BB), bb.WF → bb.rem.length % 8 ≠ 0 → bb.rem.length < fuel →
    ∃ s bb1, checksumWords fuel sum bb = .ok s bb1 ∧ bb1.WF ∧ bb1.rem.length % 8 ≠ 0 := by
  intro fuel
  induction fuel with
  | zero => intro _ _ _ _ h; omega
  | succ fuel ih =>
    intro sum bb h hm hf
    unfold checksumWords readUInt32
    rw [readBits_eq h (by omega)]
    by_cases hl : 32 ≤ bb.rem.length
    · rw [if_pos ⟨by omega, hl⟩]
      exact ih _ _ (h.adv hl) (by rw [rem_adv, List.length_drop]; omega) (by rw [rem_adv, List.length_drop]; omega)
    · rw [if_neg (fun q => hl q.2)]
      exact ⟨sum, bb, rfl, h, hm⟩

theorem checksumTail_unaligned : ∀ (fuel i v8 v : Nat) (bb : BB), bb.WF → bb.rem.length % 8 ≠ 0 → i ≤ 4 → 5 ≤ fuel + i →
    checksumTail fuel i v8 v bb = .bad .shift := by
  intro fuel
  induction fuel with
  | zero => intros; omega
  | succ fuel ih =>
    intro i v8 v bb h hm hi hf
    unfold checksumTail
    rw [remaining_eq h, if_pos (by omega)]
    unfold readUInt8
    rw [readBits_eq h (by omega)]
    by_cases hl : 8 ≤ bb.rem.length
    · rw [if_pos ⟨by omega, hl⟩]
      have hv := val_lt (bb.rem.take 8)
      rw [List.length_take, Nat.min_eq_left hl] at hv
      simp only
      rw [if_pos (by omega)]
      simp only
      by_cases h3 : i > 3
      · rw [if_pos h3]
      · rw [if_neg h3]
        exact ih _ _ _ _ (h.adv hl) (by rw [rem_adv, List.length_drop]; omega) (by omega) (by omega)
    · rw [if_neg (fun q => hl q.2)]
      simp only
      by_cases h3 : i > 3
      · rw [if_pos h3]
      · rw [if_neg h3]
        exact ih _ _ _ _ h hm (by omega) (by omega)

/-- C16 needs the alignment: off a byte boundary the loop over "unread bytes" never consumes the last bits, and the shift amount becomes negative. -/
theorem C16_unaligned_is_undefined {bb : BB} (h : bb.WF) (hal : bb.bitOff ≠ 0) : bb.getNaluChecksum = .bad .shift := by
  have hm : bb.rem.length % 8 ≠ 0 := by
    have := h.pos_le
    obtain ⟨h1, h2, h3⟩ := h
    rw [rem_length]
    unfold BB.pos at *
    omega
  obtain ⟨s, b1, e1, e2, e3⟩ := checksumWords_unaligned (bb.remaining + 1) 0 bb h hm (by rw [remaining_eq h]; omega)
  unfold getNaluChecksum
  rw [e1]
  simp only
  rw [checksumTail_unaligned _ _ _ _ _ e2 e3 (by omega) (by omega)]

example : (BB.mk [0xff] 0 1).getNaluChecksum = .bad .shift ∧ (BB.mk [0xff] 0 7).WF := ⟨by decide +kernel, by decide, by decide, by decide⟩

example : (BB.mk [0x40, 0x01, 0xff, 0xff, 0xff, 0xff, 0x80] 2 0).WF := by
  refine ⟨by decide, by decide, by decide⟩
example : checksum32 [0xff, 0xff, 0xff, 0xff, 0x80] = 0x7fffffff := by decide

/-! ### C17 -/

theorem val_pow (n : Nat) : val (true :: List.replicate n false) = 2 ^ n := by
  have h0 : val (List.replicate n false) = 0 := by
    rw [← u_zero_val, val_u]; exact Nat.zero_mod _
  rw [val_cons, h0]; simp

/-- a reader is determined by its buffer and its remaining bits -/
theorem BB.eq_of_rem {a b : BB} (ha : a.WF) (hb : b.WF) (h1 : a.bytes = b.bytes) (h2 : a.rem = b.rem) : a = b := by
  have h3 := congrArg List.length h2
  rw [rem_length, rem_length, h1] at h3
  have h4 := ha.pos_le
  have h5 := hb.pos_le
  rw [h1] at h4
  obtain ⟨_, a2, _⟩ := ha
  obtain ⟨_, b2, _⟩ := hb
  unfold BB.pos at *
  cases a; cases b
  simp only at *
  subst h1
  simp only [BB.mk.injEq, true_and]
  omega

/-- `more_rbsp_data` on the remaining bits -/
def moreData (r : List Bool) : Bool := decide (r ≠ [] ∧ (8 < r.length ∨ r ≠ true :: List.replicate (r.length - 1) false))

theorem moreRbspData_denote (r : List Bool) : Prog.moreRbspData.denote r = .ok (moreData r) r := by
  unfold Prog.moreRbspData
  rw [Prog.denote]
  unfold moreData
  by_cases h0 : r.length = 0
  · have hn : r = [] := List.length_eq_zero_iff.mp h0
    subst hn; simp
  · rw [if_neg h0]
    have hne : r ≠ [] := fun hn => h0 (by simp [hn])
    by_cases h8 : r.length > 8
    · rw [if_pos h8]; simp [hne, h8]
    · rw [if_neg h8, Prog.denote, if_neg h0, if_pos ⟨by omega, Nat.le_refl _⟩]
      simp only [Prog.denote]
      congr 1
      rw [List.take_length, Nat.shiftLeft_eq, Nat.one_mul, ← val_pow]
      have : val r = val (true :: List.replicate (r.length - 1) false) ↔ r = true :: List.replicate (r.length - 1) false := by
        constructor
        · intro hv; exact val_inj (by simp; omega) hv
        · intro hv; exact congrArg val hv
      simp only [this]
      simp [hne, h8]

theorem run_of_denote_ok {α : Type} {p : Prog α} {bb : BB} (h : bb.WF) {a : α} {r : List Bool} (hd : p.denote bb.rem = .ok a r) :
    ∃ bb', p.run bb = .ok a bb' ∧ bb'.WF ∧ bb'.bytes = bb.bytes ∧ bb'.rem = r := by
  have hag := Prog.run_agrees p bb h
  rw [hd] at hag
  revert hag
  cases p.run bb with
  | ok a' bb' => rintro ⟨rfl, h1, h2, h3⟩; exact ⟨bb', rfl, h1, h2, h3⟩
  | fail r => intro h; exact h.elim
  | bad k => intro h; exact h.elim

theorem moreRbspData_run {bb : BB} (h : bb.WF) : Prog.moreRbspData.run bb = .ok (moreData bb.rem) bb := by
  obtain ⟨bb', h1, h2, h3, h4⟩ := run_of_denote_ok h (moreRbspData_denote bb.rem)
  rw [h1, BB.eq_of_rem h2 h h3 h4]

/-- C17: when what is left is `w` followed by the stop bit and at most 7 zero bits,
`more_rbsp_data` says whether `w` is non-empty, and does not move the reader. -/
theorem C17_more_rbsp_data {bb : BB} (h : bb.WF) {w : List Bool} {k : Nat} (hk : k ≤ 7)
    (hr : bb.rem = w ++ true :: List.replicate k false) :
    Prog.moreRbspData.run bb = .ok (decide (w ≠ [])) bb := by
  rw [moreRbspData_run h, hr]
  congr 1
  unfold moreData
  cases w with
  | nil => simp; omega
  | cons c w =>
    have : (c :: w) ++ true :: List.replicate k false ≠
        true :: List.replicate (((c :: w) ++ true :: List.replicate k false).length - 1) false := by
      intro he
      simp only [List.cons_append, List.cons.injEq] at he
      have hm : true ∈ w ++ true :: List.replicate k false := by simp
      rw [he.2, List.mem_replicate] at hm
      exact absurd hm.2 (by decide)
    rw [decide_eq_true (⟨by simp, Or.inr this⟩ : _ ∧ _), decide_eq_true (by simp)]

/-- C17: the bits of a buffer whose last byte is not zero end with a 1 and at most 7 zeros. -/
theorem C17_stop_bit_exists (bytes : List UInt8) (b : UInt8) (hl : bytes.getLast? = some b) (hb : b ≠ 0) :
    ∃ w k, k ≤ 7 ∧ bitsOf bytes = w ++ true :: List.replicate k false := by
  obtain ⟨l, rfl⟩ : ∃ l, bytes = l ++ [b] := by
    rcases List.eq_nil_or_concat bytes with rfl | ⟨l, q, rfl⟩
    · simp at hl
    · rw [List.concat_eq_append] at *
      simp at hl; subst hl; exact ⟨l, rfl⟩
  have key : ∀ l : List Bool, true ∈ l → ∃ w k, k < l.length ∧ l = w ++ true :: List.replicate k false := by
    intro l
    induction l with
    | nil => intro h; cases h
    | cons c l ih =>
      intro h
      by_cases hm : true ∈ l
      · obtain ⟨w, k, hk, rfl⟩ := ih hm
        exact ⟨c :: w, k, by simp; omega, by simp⟩
      · have hc : c = true := by
          cases h with
          | head => rfl
          | tail _ h => exact absurd h hm
        subst hc
        refine ⟨[], l.length, by simp, ?_⟩
        rw [List.nil_append]
        congr 1
        apply List.eq_replicate_of_mem
        intro x hx
        cases x with
        | false => rfl
        | true => exact absurd hx hm
  have hbit : true ∈ byteBits b := by
    by_cases hm : true ∈ byteBits b
    · exact hm
    · exfalso; apply hb
      apply byteBits_inj
      have : byteBits b = List.replicate 8 false := by
        apply List.eq_replicate_of_mem
        intro x hx
        cases x with
        | false => rfl
        | true => exact absurd hx hm
      rw [this]; decide
  obtain ⟨w, k, hk, he⟩ := key _ hbit
  refine ⟨bitsOf l ++ w, k, by simp at hk; omega, ?_⟩
  rw [bitsOf_append, bitsOf_cons, bitsOf_nil, List.append_nil, he, List.append_assoc]

/-- C17: at the end of the buffer there is no more data. -/
theorem C17_at_end {bb : BB} (h : bb.WF) (hr : bb.remaining = 0) : Prog.moreRbspData.run bb = .ok false bb := by
  rw [remaining_eq h] at hr
  rw [moreRbspData_run h, List.length_eq_zero_iff.mp hr]; rfl

/-- C17: the exact answer at every position of every buffer: there is no more data exactly when
nothing is left or when what is left is a 1 followed by at most 7 zeros. -/
theorem C17_exact {bb : BB} (h : bb.WF) :
    ∃ more, Prog.moreRbspData.run bb = .ok more bb ∧
      (more = false ↔ bb.rem = [] ∨ ∃ k, k ≤ 7 ∧ bb.rem = true :: List.replicate k false) := by
  refine ⟨_, moreRbspData_run h, ?_⟩
  unfold moreData
  rw [decide_eq_false_iff_not]
  constructor
  · intro hn
    by_cases h0 : bb.rem = []
    · exact .inl h0
    · refine .inr ⟨bb.rem.length - 1, ?_, ?_⟩
      · by_cases h8 : 8 < bb.rem.length
        · exact absurd ⟨h0, .inl h8⟩ hn
        · omega
      · by_cases he : bb.rem = true :: List.replicate (bb.rem.length - 1) false
        · exact he
        · exact absurd ⟨h0, .inr he⟩ hn
  · rintro (h0 | ⟨k, hk, he⟩) ⟨h1, h2⟩
    · exact h1 h0
    · rw [he] at h2
      simp at h2
      omega

/-- C17: with 8 or more zero bits after the last 1 bit (zero bytes at the end of the buffer, such as
cabac_zero_words) `more_rbsp_data` answers true even at the stop bit, where the standard says false. -/
theorem C17_trailing_zero_bytes {bb : BB} (h : bb.WF) {k : Nat} (hk : 8 ≤ k)
    (hr : bb.rem = true :: List.replicate k false) : Prog.moreRbspData.run bb = .ok true bb := by
  rw [moreRbspData_run h, hr]
  congr 1
  unfold moreData
  simp
  omega

/-- C17: past the last 1 bit, before the end, the answer is true. -/
theorem C17_only_zero_bits_left {bb : BB} (h : bb.WF) {k : Nat} (hk : 0 < k)
    (hr : bb.rem = List.replicate k false) : Prog.moreRbspData.run bb = .ok true bb := by
  rw [moreRbspData_run h, hr]
  congr 1
  unfold moreData
  cases k with
  | zero => omega
  | succ k => simp [List.replicate_succ]

example : (BB.mk [0x80, 0x00] 0 0).WF ∧ (BB.mk [0x80, 0x00] 0 0).rem = true :: List.replicate 15 false := by
  refine ⟨⟨by decide, by decide, by decide⟩, by decide⟩

/-- C17 says nothing past the stop bit, and there the function is wrong: with only alignment zero
bits left it answers `true`. -/
theorem C17_past_stop_bit : Prog.moreRbspData.run ⟨[0x80], 0, 1⟩ = .ok true ⟨[0x80], 0, 1⟩ := by decide +kernel

example : (BB.mk [0x42, 0x80] 0 3).WF ∧ (BB.mk [0x42, 0x80] 0 3).rem = [false, false, false, true, false] ++ true :: List.replicate 7 false := by
  refine ⟨⟨by decide, by decide, by decide⟩, by decide⟩

/-! ### C18 -/

theorem trailLoop_denote : ∀ (fuel : Nat) (r : List Bool), r.length % 8 < fuel →
    (r.take (r.length % 8) = List.replicate (r.length % 8) false →
      (Prog.trailLoop fuel).denote r = .ok true (r.drop (r.length % 8))) ∧
    (r.take (r.length % 8) ≠ List.replicate (r.length % 8) false →
      ∃ r', (Prog.trailLoop fuel).denote r = .ok false r') := by
  intro fuel
  induction fuel with
  | zero => intro r h; omega
  | succ fuel ih =>
    intro r hf
    rw [Prog.trailLoop, Prog.denote]
    by_cases h0 : r.length % 8 = 0
    · rw [h0]; simp
    · simp only [h0, beq_iff_eq, if_false]
      cases r with
      | nil => simp at h0
      | cons c r =>
        have hl : (c :: r).length % 8 = r.length % 8 + 1 := by simp at h0 ⊢; omega
        rw [Prog.denote, if_neg (by omega), if_pos ⟨by omega, by simp⟩, hl]
        simp only [List.take_succ_cons, List.take_zero, List.drop_succ_cons, List.drop_zero, List.replicate_succ, List.cons.injEq, ne_eq]
        cases c with
        | true => simp [val]
        | false =>
          simp only [val, List.foldl_cons, List.foldl_nil, Bool.toNat_false, Nat.mul_zero, Nat.add_zero, not_true, if_false, true_and]
          exact ih r (by omega)

theorem trailingBits_denote (r : List Bool) :
    (∀ k rest, k ≤ 7 → rest.length % 8 = 0 → r = true :: List.replicate k false ++ rest →
      Prog.rbspTrailingBits.denote r = .ok true rest) ∧
    ((¬ ∃ k rest, k ≤ 7 ∧ rest.length % 8 = 0 ∧ r = true :: List.replicate k false ++ rest) →
      ∃ r', Prog.rbspTrailingBits.denote r = .ok false r') := by
  unfold Prog.rbspTrailingBits
  cases r with
  | nil => simp [Prog.denote]
  | cons c r =>
    rw [Prog.denote, if_neg (by omega), if_pos ⟨by omega, by simp⟩]
    simp only [List.take_succ_cons, List.take_zero, List.drop_succ_cons, List.drop_zero]
    cases c with
    | false => simp [val]
    | true =>
      simp only [val, List.foldl_cons, List.foldl_nil, Bool.toNat_true, Nat.mul_zero, Nat.zero_add, ne_eq, not_true, if_false]
      obtain ⟨h1, h2⟩ := trailLoop_denote 8 r (by omega)
      constructor
      · intro k rest hk hm he
        simp only [List.cons_append, List.cons.injEq, true_and] at he
        have hlen : r.length % 8 = k := by rw [he]; simp; omega
        rw [hlen] at h1
        rw [h1]
        · rw [he, List.drop_append_of_le_length (by simp), List.drop_of_length_le (by simp), List.nil_append]
        · rw [he, List.take_append_of_le_length (by simp), List.take_of_length_le (by simp)]
      · intro hn
        apply h2
        intro he
        apply hn
        refine ⟨r.length % 8, r.drop (r.length % 8), by omega, by rw [List.length_drop]; omega, ?_⟩
        rw [List.cons_append, ← he, List.take_append_drop]

/-- C18: `rbsp_trailing_bits` returns true exactly when the next bits are a 1 and the zeros up to
the next byte boundary (`k` zeros), and then it has consumed exactly these. -/
theorem C18_trailing_bits {bb : BB} (h : bb.WF) :
    (∀ k rest, k ≤ 7 → rest.length % 8 = 0 → bb.rem = true :: List.replicate k false ++ rest →
      ∃ bb', Prog.rbspTrailingBits.run bb = .ok true bb' ∧ bb'.WF ∧ bb'.bitOff = 0 ∧ bb'.rem = rest) ∧
    ((¬ ∃ k rest, k ≤ 7 ∧ rest.length % 8 = 0 ∧ bb.rem = true :: List.replicate k false ++ rest) →
      ∃ bb', Prog.rbspTrailingBits.run bb = .ok false bb' ∧ bb'.WF) := by
  constructor
  · intro k rest hk hm he
    obtain ⟨bb', h1, h2, h3, h4⟩ := run_of_denote_ok h ((trailingBits_denote bb.rem).1 k rest hk hm he)
    exact ⟨bb', h1, h2, (bitOff_eq h2).mpr (by rw [h4]; exact hm), h4⟩
  · intro hn
    obtain ⟨r', hr⟩ := (trailingBits_denote bb.rem).2 hn
    obtain ⟨bb', h1, h2, _⟩ := run_of_denote_ok h hr
    exact ⟨bb', h1, h2⟩

example : (BB.mk [0x04, 0xff] 0 5).rem = true :: List.replicate 2 false ++ bitsOf [0xff] := by decide

/-! ### C20 -/

theorem mem_range_list {t a n : Nat} : t ∈ List.range' a n ↔ a ≤ t ∧ t < a + n := List.mem_range'_1

/-- C20: Table 7-1. -/
theorem C20_type_classes (t : Nat) :
    (isSliceSegment t = true ↔ t ≤ 9 ∨ (16 ≤ t ∧ t ≤ 21)) ∧
    (isNalUnitTypeVcl t = true ↔ t ≤ 31) ∧
    (isNalUnitTypeNonVcl t = true ↔ 32 ≤ t ∧ t ≤ 63) ∧
    (isNalUnitTypeUnspecified t = true ↔ 48 ≤ t ∧ t ≤ 63) := by
  unfold isSliceSegment isNalUnitTypeVcl isNalUnitTypeNonVcl isNalUnitTypeUnspecified
  simp only [List.contains_iff_mem, List.mem_cons, List.not_mem_nil, or_false]
  omega

end H265
