/- C07-C09: the bit writer.  `BB` is both reader and writer; `bytes` is the buffer content. -/
import Verif.Props.Reader

namespace H265
open Spec BB

/-! ### C07 -/

/-- C07: with `1 ≤ n ≤ 64` bits, `WriteBits` succeeds iff `n` bits are left.  Then the new buffer
is the old one with exactly the `n` bits at the position replaced by the low `n` bits of `val`,
the position advanced by `n`; otherwise nothing changes. -/
theorem C07_writeBits {bb : BB} (h : bb.WF) (v n : Nat) (h0 : 0 < n) (h64 : n ≤ 64) :
    (n ≤ bb.remaining → ∃ bb', bb.writeBits v n = .ok () bb' ∧
      bitsOf bb'.bytes = (bitsOf bb.bytes).take bb.pos ++ u n v ++ (bitsOf bb.bytes).drop (bb.pos + n) ∧
      bb'.bytes.length = bb.bytes.length ∧ bb'.pos = bb.pos + n ∧ bb'.WF) ∧
    (¬ n ≤ bb.remaining → bb.writeBits v n = .fail bb) := by
  rw [remaining_eq h]
  have := writeBits_eq h v h0 h64
  refine ⟨fun hl => ?_, this.2⟩
  obtain ⟨bb', h1, h2, h3, h4, _, _, h5⟩ := this.1 hl
  refine ⟨bb', h1, ?_, h3, h4, h2⟩
  rw [h5]; unfold patched; rw [u_length]

/-- C07: reading back `n` bits from the old position of the written buffer returns `v mod 2^n`. -/
theorem C07_read_back {bb bb' : BB} (h : bb.WF) {v n : Nat} (h0 : 0 < n) (h64 : n ≤ 64)
    (hw : bb.writeBits v n = .ok () bb') :
    ∃ bb2, BB.readBits 64 n { bb' with byteOff := bb.byteOff, bitOff := bb.bitOff } = .ok (v % 2 ^ n) bb2 ∧
      bb2.pos = bb'.pos := by
  have hc : n ≤ bb.rem.length := by
    by_cases hl : n ≤ bb.rem.length
    · exact hl
    · rw [(writeBits_eq h v h0 h64).2 hl] at hw; cases hw
  obtain ⟨bb1, h1, h2, h3, h4, _, _, h5⟩ := (writeBits_eq h v h0 h64).1 hc
  rw [hw] at h1; cases h1
  have hrem := rem_patched (bb := bb) (bb' := bb') (w := u n v) (by simpa using hc) h5
  have hwf : ({ bb' with byteOff := bb.byteOff, bitOff := bb.bitOff } : BB).WF := by
    obtain ⟨a, b, c⟩ := h; exact ⟨by simpa [h3] using a, b, by simpa [h3] using c⟩
  refine ⟨BB.adv n { bb' with byteOff := bb.byteOff, bitOff := bb.bitOff }, ?_, ?_⟩
  · rw [readBits_eq hwf h0, hrem, if_pos ⟨h64, by simp⟩, List.take_append_of_le_length (by simp),
      List.take_of_length_le (by simp), val_u]
  · rw [pos_adv, h4]; rfl

/-- C07 for the byte-sized calls: `WriteUInt8/16/32` write exactly 8, 16 or 32 bits. -/
theorem C07_writeUInt {bb : BB} (h : bb.WF) (v : Nat) :
    ∀ n f, (n, f) ∈ [(8, BB.writeUInt8), (16, BB.writeUInt16), (32, BB.writeUInt32)] →
      (n ≤ bb.remaining → ∃ bb', f v bb = .ok () bb' ∧
        bitsOf bb'.bytes = (bitsOf bb.bytes).take bb.pos ++ u n v ++ (bitsOf bb.bytes).drop (bb.pos + n) ∧
        bb'.bytes.length = bb.bytes.length ∧ bb'.pos = bb.pos + n ∧ bb'.WF) ∧
      (¬ n ≤ bb.remaining → f v bb = .fail bb) := by
  intro n f hm
  simp only [List.mem_cons, Prod.mk.injEq, List.not_mem_nil, or_false] at hm
  rcases hm with ⟨rfl, rfl⟩ | ⟨rfl, rfl⟩ | ⟨rfl, rfl⟩ <;> exact C07_writeBits h v _ (by omega) (by omega)

/-- outside the legal bit counts the value is shifted by 64 or more: undefined behaviour -/
theorem C07_writeBits_zero_is_undefined (bb : BB) (v : Nat) : bb.writeBits v 0 = .bad .shift := by
  simp [writeBits]

example : (BB.mk [0xff, 0x00, 0xff] 0 5).WF ∧ 10 ≤ (BB.mk [0xff, 0x00, 0xff] 0 5).remaining := by
  refine ⟨⟨by decide, by decide, by decide⟩, by decide⟩

/-! ### C08 -/

/-- C08: every value below `UINT32_MAX` is written as its ue(v) code word (all other bits kept), if
it fits in the rest of the buffer; otherwise the call fails without effect. -/
theorem C08_writeUE {bb : BB} (h : bb.WF) {v : Nat} (hv : v ≤ 2 ^ 32 - 2) :
    ((ue v).length ≤ bb.remaining → ∃ bb', bb.writeUE v = .ok () bb' ∧
      bitsOf bb'.bytes = (bitsOf bb.bytes).take bb.pos ++ ue v ++ (bitsOf bb.bytes).drop (bb.pos + (ue v).length) ∧
      bb'.bytes.length = bb.bytes.length ∧ bb'.pos = bb.pos + (ue v).length ∧ bb'.WF) ∧
    (¬ (ue v).length ≤ bb.remaining → bb.writeUE v = .fail bb) := by
  rw [remaining_eq h]
  have := writeUE_eq h (v := v) (by omega)
  refine ⟨fun hl => ?_, this.2⟩
  obtain ⟨bb', h1, h2, h3, h4, h5⟩ := this.1 hl
  exact ⟨bb', h1, h5, h3, h4, h2⟩

theorem C08_writeUE_max (bb : BB) : bb.writeUE (2 ^ 32 - 1) = .fail bb := by simp [writeUE]

theorem writeUE_inv {bb bb' : BB} (h : bb.WF) {v : Nat} (hv : v < 2 ^ 32 - 1) (hw : bb.writeUE v = .ok () bb') :
    (ue v).length ≤ bb.rem.length ∧ bb'.bytes.length = bb.bytes.length ∧ bb'.pos = bb.pos + (ue v).length ∧
      bitsOf bb'.bytes = bb.patched (ue v) := by
  by_cases hl : (ue v).length ≤ bb.rem.length
  · obtain ⟨bb1, h1, h2, h3, h4, h5⟩ := (writeUE_eq h hv).1 hl
    rw [hw] at h1; cases h1
    exact ⟨hl, h3, h4, h5⟩
  · rw [(writeUE_eq h hv).2 hl] at hw; cases hw

/-- C08: reading back at the old position returns the value written and ends where the writer
ended. -/
theorem C08_ue_roundtrip {bb bb' : BB} (h : bb.WF) {v : Nat} (hv : v < 2 ^ 32) (hw : bb.writeUE v = .ok () bb') :
    ∃ bb2, BB.readUE { bb' with byteOff := bb.byteOff, bitOff := bb.bitOff } = .ok v bb2 ∧ bb2.pos = bb'.pos := by
  have hv' : v < 2 ^ 32 - 1 := by
    by_cases hm : v = 2 ^ 32 - 1
    · subst hm; rw [C08_writeUE_max] at hw; cases hw
    · omega
  obtain ⟨hl, h3, h4, h5⟩ := writeUE_inv h hv' hw
  have hrem := rem_patched (bb := bb) (bb' := bb') hl h5
  have hwf : ({ bb' with byteOff := bb.byteOff, bitOff := bb.bitOff } : BB).WF := by
    obtain ⟨a, b, c⟩ := h; exact ⟨by simpa [h3] using a, b, by simpa [h3] using c⟩
  have := C05_readUE_complete hwf (by omega) hrem
  exact ⟨_, this.1, by rw [pos_adv, h4]; rfl⟩

/-- C08, signed: `-2^31 < v < 2^31` is written as its se(v) code word. -/
theorem C08_writeSE {bb : BB} (h : bb.WF) {v : Int} (h1 : -(2 ^ 31) < v) (h2 : v < 2 ^ 31) :
    ((se v).length ≤ bb.remaining → ∃ bb', bb.writeSE v = .ok () bb' ∧
      bitsOf bb'.bytes = (bitsOf bb.bytes).take bb.pos ++ se v ++ (bitsOf bb.bytes).drop (bb.pos + (se v).length) ∧
      bb'.bytes.length = bb.bytes.length ∧ bb'.pos = bb.pos + (se v).length ∧ bb'.WF) ∧
    (¬ (se v).length ≤ bb.remaining → bb.writeSE v = .fail bb) := by
  obtain ⟨he, hlt⟩ := writeSE_eq h1 h2 bb
  rw [he]
  exact C08_writeUE h (by omega)

theorem C08_writeSE_min (bb : BB) : bb.writeSE (-(2 ^ 31)) = .fail bb := by simp [writeSE]

/-- C08, signed round trip, for values below `2^30` (C06 shows that the reader is wrong above). -/
theorem C08_se_roundtrip_below {bb bb' : BB} (h : bb.WF) {v : Int} (h1 : -(2 ^ 31) ≤ v) (h2 : v < 2 ^ 30)
    (hw : bb.writeSE v = .ok () bb') :
    ∃ bb2, BB.readSE { bb' with byteOff := bb.byteOff, bitOff := bb.bitOff } = .ok v bb2 ∧ bb2.pos = bb'.pos := by
  have h1' : -(2 ^ 31) < v := by
    by_cases hm : v = -(2 ^ 31)
    · subst hm; rw [C08_writeSE_min] at hw; cases hw
    · omega
  obtain ⟨he, hlt⟩ := writeSE_eq h1' (by omega) bb
  rw [he] at hw
  obtain ⟨hl, h3, h4, h5⟩ := writeUE_inv h hlt hw
  have hrem := rem_patched (bb := bb) (bb' := bb') hl h5
  have hwf : ({ bb' with byteOff := bb.byteOff, bitOff := bb.bitOff } : BB).WF := by
    obtain ⟨a, b, c⟩ := h; exact ⟨by simpa [h3] using a, b, by simpa [h3] using c⟩
  have := C06_readSE_below hwf h1' h2 hrem
  exact ⟨_, this.1, by rw [pos_adv, h4]; rfl⟩

/-- C08, the signed round trip, exact: whatever value was accepted by the writer, reading at the old
position returns it if it is below `2^30`, computes `INT32_MAX + 1` if it is `2^30`, and returns
`v - 2^31` above. -/
theorem C08_se_roundtrip_exact {bb bb' : BB} (h : bb.WF) {v : Int} (h1 : -(2 ^ 31) ≤ v) (h2 : v < 2 ^ 31)
    (hw : bb.writeSE v = .ok () bb') :
    ∃ bb2 : BB, bb2.pos = bb'.pos ∧
      BB.readSE { bb' with byteOff := bb.byteOff, bitOff := bb.bitOff } =
        if v < 2 ^ 30 then .ok v bb2 else if v = 2 ^ 30 then .bad .signedOverflow
        else .ok (v - 2 ^ 31) bb2 := by
  have h1' : -(2 ^ 31) < v := by
    by_cases hm : v = -(2 ^ 31)
    · subst hm; rw [C08_writeSE_min] at hw; cases hw
    · omega
  obtain ⟨he, hlt⟩ := writeSE_eq h1' (by omega) bb
  rw [he] at hw
  obtain ⟨hl, h3, h4, h5⟩ := writeUE_inv h hlt hw
  have hrem := rem_patched (bb := bb) (bb' := bb') hl h5
  have hwf : ({ bb' with byteOff := bb.byteOff, bitOff := bb.bitOff } : BB).WF := by
    obtain ⟨a, b, c⟩ := h; exact ⟨by simpa [h3] using a, b, by simpa [h3] using c⟩
  have := (C06_readSE_exact hwf).1 v _ h1' h2 hrem
  exact ⟨_, by rw [pos_adv, h4]; rfl, this.2⟩

/-- The full signed round trip is false: `2^30 + 1` is written correctly but read back as
`1 - 2^30`. -/
theorem C08_se_roundtrip_counterexample :
    (BB.init [0, 0, 0, 0, 0, 0, 0, 0]).writeSE (2 ^ 30 + 1) = .ok () ⟨[0, 0, 0, 1, 0, 0, 0, 4], 7, 7⟩ ∧
    (BB.init [0, 0, 0, 1, 0, 0, 0, 4]).readSE = .ok (1 - 2 ^ 30) ⟨[0, 0, 0, 1, 0, 0, 0, 4], 7, 7⟩ := by
  decide +kernel

example : (BB.mk [0xff, 0xff] 0 2).writeSE (-2) = .ok () ⟨[0xcb, 0xff], 0, 7⟩ := by decide

/-! ### C09 -/

/-- C09: for `2 ≤ n < 2^31` and `v < n`, `WriteNonSymmetric` writes the ns(n) code word of `v`,
`SizeNonSymmetricBits` is its length. -/
theorem C09_writeNonSymmetric {bb : BB} (h : bb.WF) {n v : Nat} (h2 : 2 ≤ n) (h31 : n < 2 ^ 31) (hv : v < n) :
    sizeNonSymmetricBits v n = .ok (nonSymmetric n v).length ∧
    ((nonSymmetric n v).length ≤ bb.remaining → ∃ bb', bb.writeNonSymmetric v n = .ok () bb' ∧
      bitsOf bb'.bytes = (bitsOf bb.bytes).take bb.pos ++ nonSymmetric n v ++
        (bitsOf bb.bytes).drop (bb.pos + (nonSymmetric n v).length) ∧
      bb'.bytes.length = bb.bytes.length ∧ bb'.pos = bb.pos + (nonSymmetric n v).length) ∧
    (¬ (nonSymmetric n v).length ≤ bb.remaining → bb.writeNonSymmetric v n = .fail bb) := by
  rw [remaining_eq h]
  obtain ⟨a, b, c⟩ := writeNonSymmetric_eq h h2 h31 hv
  refine ⟨c, fun hl => ?_, b⟩
  obtain ⟨bb', h1, h2, h3, h4, h5⟩ := a hl
  exact ⟨bb', h1, h5, h3, h4⟩

/-- C09: reading back at the old position returns the value. -/
theorem C09_roundtrip {bb bb' : BB} (h : bb.WF) {n v : Nat} (h2 : 2 ≤ n) (h31 : n < 2 ^ 31) (hv : v < n)
    (hw : bb.writeNonSymmetric v n = .ok () bb') :
    ∃ bb2, BB.readNonSymmetric n { bb' with byteOff := bb.byteOff, bitOff := bb.bitOff } = .ok v bb2 ∧
      bb2.pos = bb'.pos := by
  obtain ⟨a, b, c⟩ := writeNonSymmetric_eq h h2 h31 hv
  by_cases hl : (nonSymmetric n v).length ≤ bb.rem.length
  · obtain ⟨bb1, h1, _, h3, h4, h5⟩ := a hl
    rw [hw] at h1; cases h1
    have hrem := rem_patched (bb := bb) (bb' := bb') hl h5
    have hwf : ({ bb' with byteOff := bb.byteOff, bitOff := bb.bitOff } : BB).WF := by
      obtain ⟨a, b, c⟩ := h; exact ⟨by simpa [h3] using a, b, by simpa [h3] using c⟩
    have := (readNonSymmetric_eq hwf h2 h31).1 v hv _ hrem
    exact ⟨_, this, by rw [pos_adv, h4]; rfl⟩
  · rw [b hl] at hw; cases hw

/-- C09: a successful read returned a value in range whose code word is exactly what was
consumed; the code is complete, so reading fails only for lack of bits. -/
theorem C09_readNonSymmetric_sound {bb bb' : BB} (h : bb.WF) {n v : Nat} (h2 : 2 ≤ n) (h31 : n < 2 ^ 31)
    (hr : bb.readNonSymmetric n = .ok v bb') : v < n ∧ bb.rem = nonSymmetric n v ++ bb'.rem := by
  have := readNonSymmetric_eq h h2 h31
  by_cases hex : ∃ v r, v < n ∧ bb.rem = nonSymmetric n v ++ r
  · obtain ⟨v', r, hv', hr'⟩ := hex
    rw [this.1 v' hv' r hr'] at hr
    cases hr
    refine ⟨hv', ?_⟩
    rw [rem_adv, hr']
    simp
  · obtain ⟨bb1, h1, _, _⟩ := this.2 (fun v r hv hr => hex ⟨v, r, hv, hr⟩)
    rw [h1] at hr; cases hr

/-- C09: the code is prefix-free. -/
theorem C09_prefix_free {n v v' : Nat} (h2 : 2 ≤ n) (h31 : n < 2 ^ 31) (hv : v < n) (hv' : v' < n)
    {r r' : List Bool} (he : nonSymmetric n v ++ r = nonSymmetric n v' ++ r') : v = v' := by
  -- run the reader on a buffer holding the common bit string (padded to whole bytes)
  obtain ⟨bytes, t, hb⟩ : ∃ (bytes : List UInt8) (t : List Bool), bitsOf bytes = nonSymmetric n v ++ (r ++ t) := by
    have key : ∀ (k : Nat) (w : List Bool), w.length = 8 * k → ∃ bytes : List UInt8, bitsOf bytes = w := by
      intro k
      induction k with
      | zero => intro w hw; exact ⟨[], by simp [List.length_eq_zero_iff.mp (by omega : w.length = 0)]⟩
      | succ k ih =>
        intro w hw
        obtain ⟨bs, hbs⟩ := ih (w.drop 8) (by simp; omega)
        refine ⟨UInt8.ofNat (val (w.take 8)) :: bs, ?_⟩
        have hl8 : (w.take 8).length = 8 := by simp; omega
        have hlt := val_lt (w.take 8)
        rw [hl8] at hlt
        rw [bitsOf_cons, hbs, byteBits_eq_u]
        have : (UInt8.ofNat (val (w.take 8))).toNat = val (w.take 8) := by
          simp; omega
        rw [this]
        have h3 := u_val (w.take 8)
        rw [hl8] at h3
        rw [h3, List.take_append_drop]
    have hlen : ((nonSymmetric n v ++ r) ++ List.replicate (7 * (nonSymmetric n v ++ r).length) false).length
        = 8 * (nonSymmetric n v ++ r).length := by
      rw [List.length_append, List.length_replicate]; omega
    obtain ⟨bytes, hb⟩ := key _ _ hlen
    exact ⟨bytes, List.replicate (7 * (nonSymmetric n v ++ r).length) false, by rw [hb, List.append_assoc]⟩
  have hb' : bitsOf bytes = nonSymmetric n v' ++ (r' ++ t) := by
    rw [hb, ← List.append_assoc, he, List.append_assoc]
  have hrd := readNonSymmetric_eq (WF.init bytes) h2 h31
  have e1 := hrd.1 v hv _ (by rw [rem_init]; exact hb)
  have e2 := hrd.1 v' hv' _ (by rw [rem_init]; exact hb')
  rw [e1] at e2
  cases e2
  rfl

/-- the documented precondition `num_values ≤ 2^31` is not enough: 1 and `2^31` are undefined -/
theorem C09_limits (bb : BB) : bb.readNonSymmetric 1 = .bad .assertion ∧
    bb.readNonSymmetric (2 ^ 31) = .bad .shift ∧ bb.writeNonSymmetric 0 1 = .bad .shift ∧
    bb.writeNonSymmetric 0 (2 ^ 31) = .bad .shift := by
  refine ⟨?_, ?_, ?_, ?_⟩
  · have : (countBits 1) = 1 := by decide
    simp [readNonSymmetric, this, readBits_zero]
  · have : (countBits (2 ^ 31)) = 32 := by decide
    unfold readNonSymmetric
    rw [if_neg (by decide), this]
    rfl
  · have : (countBits 1) = 1 := by decide
    unfold writeNonSymmetric
    rw [if_neg (by decide), this]
    simp [writeBits]
  · have : (countBits (2 ^ 31)) = 32 := by decide
    unfold writeNonSymmetric
    rw [if_neg (by decide), this]
    rfl

example : (BB.init [0xff]).writeNonSymmetric 3 5 = .ok () ⟨[0xdf], 0, 3⟩ := by decide

end H265
