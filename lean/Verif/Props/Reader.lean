/-
C01-C06: the bit reader.

Vocabulary: `bb.WF` — the reader is at a legal position (C03: every reachable reader is);
`bb.pos` — its absolute bit position; `bb.rem` — the bits of the buffer from there on.
-/
import Verif.Proof.Codec
import Verif.Proof.WriterCodes
import Verif.Proof.Run

namespace H265
open Spec BB

/-! ### C01 -/

/-- C01: `ReadBits(n)` with an out-parameter of `w` bits (`w` = 32 or 64) succeeds iff `n ≤ w` and
`n` bits are left; it returns the big-endian value of the next `n` bits, moves by exactly `n`
bits and does not touch the buffer. -/
theorem C01_readBits {bb : BB} (h : bb.WF) (w n : Nat) (h0 : 0 < n) :
    (n ≤ w ∧ n ≤ bb.remaining →
      ∃ bb', bb.readBits w n = .ok (val (((bitsOf bb.bytes).drop bb.pos).take n)) bb' ∧
        bb'.bytes = bb.bytes ∧ bb'.pos = bb.pos + n ∧ bb'.remaining = bb.remaining - n ∧ bb'.WF) ∧
    (¬ (n ≤ w ∧ n ≤ bb.remaining) → bb.readBits w n = .fail bb) := by
  rw [remaining_eq h, readBits_eq h h0]
  constructor
  · intro hc
    rw [if_pos hc]
    refine ⟨_, rfl, rfl, pos_adv _ _, ?_, h.adv hc.2⟩
    rw [remaining_eq (h.adv hc.2), rem_adv, List.length_drop]
  · intro hc
    rw [if_neg hc]

/-- the bits left are the bits of the buffer after the position -/
theorem C01_remaining {bb : BB} (h : bb.WF) : bb.pos + bb.remaining = 8 * bb.bytes.length := by
  rw [remaining_eq h, rem_length]
  have := h.pos_le
  omega

example : (BB.mk [0xAB, 0xCD, 0xEF] 0 3).WF ∧
    (BB.mk [0xAB, 0xCD, 0xEF] 0 3).readBits 32 9 = .ok 0xBC ⟨[0xAB, 0xCD, 0xEF], 1, 4⟩ := by
  refine ⟨⟨by decide, by decide, by decide⟩, by decide⟩

/-- C01 for the byte-sized calls: `ReadUInt8`, `ReadUInt16` and `ReadUInt32` succeed iff 8, 16 or 32
bits are left and return the big-endian value of exactly those bits. -/
theorem C01_readUInt {bb : BB} (h : bb.WF) :
    (∀ n f, (n, f) ∈ [(8, BB.readUInt8), (16, BB.readUInt16), (32, BB.readUInt32)] →
      (n ≤ bb.remaining → ∃ bb', f bb = .ok (val (((bitsOf bb.bytes).drop bb.pos).take n)) bb' ∧
        bb'.bytes = bb.bytes ∧ bb'.pos = bb.pos + n ∧ bb'.WF) ∧
      (¬ n ≤ bb.remaining → f bb = .fail bb)) := by
  have key : ∀ n (f : BB → Res Nat), 0 < n → n ≤ 32 →
      (∀ v b, v < 2 ^ n → bb.readBits 32 n = .ok v b → f bb = .ok v b) →
      (∀ b, bb.readBits 32 n = .fail b → f bb = .fail b) →
      (n ≤ bb.remaining → ∃ bb', f bb = .ok (val (((bitsOf bb.bytes).drop bb.pos).take n)) bb' ∧
        bb'.bytes = bb.bytes ∧ bb'.pos = bb.pos + n ∧ bb'.WF) ∧
      (¬ n ≤ bb.remaining → f bb = .fail bb) := by
    intro n f h0 h32 hok hfail
    have hc := C01_readBits h 32 n h0
    constructor
    · intro hn
      obtain ⟨bb', h1, h2, h3, _, h5⟩ := hc.1 ⟨h32, hn⟩
      refine ⟨bb', hok _ _ ?_ h1, h2, h3, h5⟩
      have hl := val_lt (((bitsOf bb.bytes).drop bb.pos).take n)
      exact Nat.lt_of_lt_of_le hl (Nat.pow_le_pow_right (by omega) (List.length_take_le _ _))
    · intro hn
      exact hfail _ (hc.2 (fun hh => hn hh.2))
  intro n f hm
  simp only [List.mem_cons, Prod.mk.injEq, List.not_mem_nil, or_false] at hm
  rcases hm with ⟨rfl, rfl⟩ | ⟨rfl, rfl⟩ | ⟨rfl, rfl⟩
  · refine key 8 _ (by omega) (by omega) ?_ ?_
    · intro v b hv hr; unfold readUInt8; rw [hr]; dsimp only; rw [if_pos (by omega)]
    · intro b hr; unfold readUInt8; rw [hr]
  · refine key 16 _ (by omega) (by omega) ?_ ?_
    · intro v b hv hr; unfold readUInt16; rw [hr]; dsimp only; rw [if_pos (by omega)]
    · intro b hr; unfold readUInt16; rw [hr]
  · exact key 32 _ (by omega) (by omega) (fun v b _ hr => hr) (fun b hr => hr)

/-- C01: `ReadBytes(n)` succeeds iff `8 n` bits are left; the `n` bytes returned, written one after
the other, are exactly the next `8 n` bits, at whatever bit offset the reader stands. -/
theorem C01_readBytes (n : Nat) : ∀ {bb : BB}, bb.WF →
    (8 * n ≤ bb.remaining → ∃ l bb', bb.readBytes n = .ok l bb' ∧ l.length = n ∧ (∀ v ∈ l, v < 256) ∧
      Spec.list (u 8) l = ((bitsOf bb.bytes).drop bb.pos).take (8 * n) ∧
      bb'.bytes = bb.bytes ∧ bb'.pos = bb.pos + 8 * n ∧ bb'.WF) ∧
    (¬ 8 * n ≤ bb.remaining → ∃ bb', bb.readBytes n = .fail bb') := by
  induction n with
  | zero =>
    intro bb h
    exact ⟨fun _ => ⟨[], bb, rfl, rfl, by simp, by simp [Spec.list], rfl, rfl, h⟩, fun hn => absurd (Nat.zero_le bb.remaining) hn⟩
  | succ n ih =>
    intro bb h
    have h8 := C01_readUInt h 8 BB.readUInt8 (by simp)
    have hrem := C01_remaining h
    by_cases h1 : 8 ≤ bb.remaining
    · obtain ⟨bb1, e1, hb1, hp1, hw1⟩ := h8.1 h1
      have hrem1 := C01_remaining hw1
      rw [hb1] at hrem1
      have ih' := ih hw1
      constructor
      · intro hn
        obtain ⟨l, bb2, e2, hl, hv, hs, hb2, hp2, hw2⟩ := ih'.1 (by omega)
        refine ⟨_ :: l, bb2, by unfold readBytes; rw [e1]; dsimp only; rw [e2], by simp [hl], ?_, ?_, hb2.trans hb1, by omega, hw2⟩
        · intro v hm
          rcases List.mem_cons.mp hm with rfl | hm
          · have hlt := val_lt (((bitsOf bb.bytes).drop bb.pos).take 8)
            exact Nat.lt_of_lt_of_le hlt (Nat.pow_le_pow_right (n := 2) (by omega) (List.length_take_le 8 _))
          · exact hv v hm
        · have hlen : (((bitsOf bb.bytes).drop bb.pos).take 8).length = 8 := by
            rw [List.length_take, List.length_drop, bitsOf_length]; omega
          have hu := u_val (((bitsOf bb.bytes).drop bb.pos).take 8)
          rw [hlen] at hu
          have : Spec.list (u 8) (val (((bitsOf bb.bytes).drop bb.pos).take 8) :: l) =
              u 8 (val (((bitsOf bb.bytes).drop bb.pos).take 8)) ++ Spec.list (u 8) l := rfl
          rw [this, hu, hs, hb1, hp1, show 8 * (n + 1) = 8 + 8 * n from by omega, List.take_add, List.drop_drop]
      · intro hn
        obtain ⟨bb2, e2⟩ := ih'.2 (by omega)
        exact ⟨bb2, by unfold readBytes; rw [e1]; dsimp only; rw [e2]⟩
    · exact ⟨fun hn => by omega, fun _ => ⟨bb, by unfold readBytes; rw [h8.2 h1]⟩⟩

/-- C01: on a byte boundary `ReadBytes(n)` returns the next `n` bytes of the buffer, in order. -/
theorem C01_readBytes_aligned {bb bb' : BB} (h : bb.WF) (ha : bb.bitOff = 0) {n : Nat} {l : List Nat}
    (hr : bb.readBytes n = .ok l bb') : l = ((bb.bytes.drop bb.byteOff).take n).map (·.toNat) := by
  have hc := C01_readBytes n h
  by_cases hn : 8 * n ≤ bb.remaining
  · obtain ⟨l', b', e, hl, hv, hs, _⟩ := hc.1 hn
    rw [e] at hr; cases hr
    have hp : bb.pos = 8 * bb.byteOff := by unfold BB.pos; omega
    rw [hp, ← bitsOf_drop, ← bitsOf_take] at hs
    generalize (bb.bytes.drop bb.byteOff).take n = bs at hs
    clear hl e hc hn
    induction l generalizing bs with
    | nil =>
      cases bs with
      | nil => rfl
      | cons b t => simp [Spec.list, byteBits] at hs
    | cons v l ih =>
      cases bs with
      | nil => simp [Spec.list, u] at hs
      | cons b t =>
        have e1 : Spec.list (u 8) (v :: l) = u 8 v ++ Spec.list (u 8) l := rfl
        have e2 : byteBits b = u 8 b.toNat := rfl
        rw [e1, bitsOf_cons, e2] at hs
        have hi := List.append_inj hs (by simp)
        have := u_inj (n := 8) (hv v (by simp)) b.toNat_lt hi.1
        rw [List.map_cons, ← this, ih (fun w hw => hv w (by simp [hw])) t hi.2]
  · obtain ⟨b, e⟩ := hc.2 hn
    rw [e] at hr; cases hr

/-- C01: `ConsumeBits(n)` / `ConsumeBytes(n)` succeed iff `n` bits / `8 n` bits are left and move by
exactly that; `Seek` succeeds iff the position is inside the buffer (or its end) and moves there. -/
theorem C01_moves {bb : BB} (h : bb.WF) (hsz : bb.bytes.length < 2 ^ 61) :
    (∀ n, (∃ b, bb.consumeBits n = .ok () b ∧ b.bytes = bb.bytes ∧ b.pos = bb.pos + n) ∧ n ≤ bb.remaining ∨
      bb.consumeBits n = .fail bb ∧ ¬ n ≤ bb.remaining) ∧
    (∀ n, (∃ b, bb.consumeBytes n = .ok () b ∧ b.bytes = bb.bytes ∧ b.pos = bb.pos + 8 * n) ∧ 8 * n ≤ bb.remaining ∨
      bb.consumeBytes n = .fail bb ∧ ¬ 8 * n ≤ bb.remaining) ∧
    (∀ i j, (bb.seek i j = .ok () ⟨bb.bytes, i, j⟩ ∧ j < 8 ∧ 8 * i + j ≤ 8 * bb.bytes.length) ∨
      bb.seek i j = .fail bb ∧ ¬ (j < 8 ∧ 8 * i + j ≤ 8 * bb.bytes.length)) := by
  have hcb : ∀ n, (∃ b, bb.consumeBits n = .ok () b ∧ b.bytes = bb.bytes ∧ b.pos = bb.pos + n) ∧ n ≤ bb.remaining ∨
      bb.consumeBits n = .fail bb ∧ ¬ n ≤ bb.remaining := by
    intro n
    by_cases hc : n ≤ bb.rem.length
    · exact Or.inl ⟨⟨_, consumeBits_ok h hc, rfl, pos_adv _ _⟩, by rw [remaining_eq h]; exact hc⟩
    · exact Or.inr ⟨consumeBits_fail h hc, by rw [remaining_eq h]; exact hc⟩
  refine ⟨hcb, ?_, ?_⟩
  · intro n
    have hrem := C01_remaining h
    unfold consumeBytes
    by_cases hc : n > (2 ^ 64 - 1) / 8
    · rw [if_pos hc]; exact Or.inr ⟨rfl, by omega⟩
    · rw [if_neg hc]
      rw [Nat.mul_comm n 8]
      exact hcb (8 * n)
  · intro i j
    unfold seek
    by_cases hc : i > bb.bytes.length ∨ j > 7 ∨ (i = bb.bytes.length ∧ j > 0)
    · rw [if_pos hc]; exact Or.inr ⟨rfl, by omega⟩
    · rw [if_neg hc]; exact Or.inl ⟨rfl, by omega, by omega⟩

example : (BB.mk [0xAB, 0xCD, 0xEF] 0 4).readBytes 2 = .ok [0xBC, 0xDE] ⟨[0xAB, 0xCD, 0xEF], 2, 4⟩ ∧
    (BB.mk [0xAB, 0xCD, 0xEF] 1 0).readBytes 2 = .ok [0xCD, 0xEF] ⟨[0xAB, 0xCD, 0xEF], 3, 0⟩ := by decide

/-- The loops `rep n (u 8)` used in the models of SEI payloads and configuration boxes are
`ReadBytes(n)`: same bytes, same position, same failure. -/
theorem readBytes_eq_rep (n : Nat) : ∀ {bb : BB}, bb.WF → (Prog.rep n (Prog.u 8)).run bb = bb.readBytes n := by
  induction n with
  | zero => intro bb _; rfl
  | succ n ih =>
    intro bb h
    have h8 := C01_readUInt h 8 BB.readUInt8 (by simp)
    have hb8 := C01_readBits h 32 8 (by omega)
    have e : Prog.rep (n + 1) (Prog.u 8) = (Prog.u 8).bind fun a => (Prog.rep n (Prog.u 8)).bind fun l => Prog.ret (a :: l) := rfl
    rw [e, Prog.run_bind]
    unfold readBytes
    by_cases hc : 8 ≤ bb.remaining
    · obtain ⟨b1, e1, _, _, hw1⟩ := h8.1 hc
      obtain ⟨b2, e2, _⟩ := hb8.1 ⟨by omega, hc⟩
      have e3 : (Prog.u 8).run bb = .ok (val (((bitsOf bb.bytes).drop bb.pos).take 8)) b2 := by
        unfold Prog.u Prog.run; rw [e2]; rfl
      have : b1 = b2 := by
        unfold readUInt8 at e1; rw [e2] at e1; dsimp only at e1
        split at e1
        · cases e1; rfl
        · cases e1
      subst this
      rw [e3, e1]
      dsimp only [Res.andThen]
      rw [Prog.run_bind, ih hw1]
      cases bb1 : b1.readBytes n <;> rfl
    · rw [h8.2 hc]
      have e3 : (Prog.u 8).run bb = .fail bb := by
        unfold Prog.u Prog.run; rw [hb8.2 (fun hh => hc hh.2)]; rfl
      rw [e3]; rfl

/-! ### C02 -/

/-- C02: a failing call leaves the reader as it was. -/
theorem C02_failed_read_no_move {bb bb' : BB} (h : bb.WF) :
    (∀ w n, bb.readBits w n = .fail bb' → bb' = bb) ∧
    (∀ w n, bb.peekBits w n = .fail bb' → bb' = bb) ∧
    (bb.readUInt8 = .fail bb' → bb' = bb) ∧
    (bb.readUInt16 = .fail bb' → bb' = bb) ∧
    (bb.readUInt32 = .fail bb' → bb' = bb) ∧
    (bb.readUE = .fail bb' → bb' = bb) ∧
    (bb.readSE = .fail bb' → bb' = bb) ∧
    (∀ n, bb.consumeBits n = .fail bb' → bb' = bb) ∧
    (∀ n, bb.consumeBytes n = .fail bb' → bb' = bb) ∧
    (∀ a b, bb.seek a b = .fail bb' → bb' = bb) := by
  have hrb : ∀ w n, bb.readBits w n = .fail bb' → bb' = bb := by
    intro w n
    by_cases h0 : 0 < n
    · rw [readBits_eq h h0]
      split
      · intro h; cases h
      · intro h; cases h; rfl
    · have : n = 0 := by omega
      subst this
      rw [readBits_zero]; intro h; cases h
  have hcb : ∀ n, bb.consumeBits n = .fail bb' → bb' = bb := by
    intro n; unfold consumeBits
    split
    · intro h; cases h; rfl
    · intro h; cases h
  have hue : bb.readUE = .fail bb' → bb' = bb := by
    rw [readUE_eq h]
    split
    · intro h; cases h
    · intro h; cases h; rfl
  refine ⟨hrb, ?_, ?_, ?_, hrb 32 32, hue, ?_, hcb, ?_, ?_⟩
  · intro w n
    by_cases h0 : 0 < n
    · by_cases hc : n ≤ w ∧ n ≤ bb.rem.length
      · rw [peekBits_ok h h0 hc.1 hc.2]; intro h; cases h
      · rw [peekBits_fail h h0 hc]; intro h; cases h; rfl
    · have : n = 0 := by omega
      subst this
      simp [peekBits]
  · unfold readUInt8
    intro hh
    split at hh
    · split at hh <;> cases hh
    · exact hrb _ _ hh
  · unfold readUInt16
    intro hh
    split at hh
    · split at hh <;> cases hh
    · exact hrb _ _ hh
  · unfold readSE
    intro hh
    split at hh
    · split at hh <;> cases hh
    · rename_i heq; cases hh; exact hue heq
    · cases hh
  · intro n; unfold consumeBytes
    split
    · intro h; cases h; rfl
    · exact hcb _
  · intro a b; unfold seek
    split
    · intro h; cases h; rfl
    · intro h; cases h

/-- ReadBytes is not atomic: it fails after having moved. -/
theorem C02_readBytes_counterexample :
    ∃ bb bb' : BB, bb.WF ∧ bb.readBytes 2 = .fail bb' ∧ bb'.pos ≠ bb.pos :=
  ⟨⟨[0x11], 0, 0⟩, ⟨[0x11], 1, 0⟩, ⟨by decide, by decide, by decide⟩, by decide, by decide⟩

/-- ReadNonSymmetric is not atomic: it fails after having moved. -/
theorem C02_readNonSymmetric_counterexample :
    ∃ bb bb' : BB, bb.WF ∧ bb.readNonSymmetric 5 = .fail bb' ∧ bb'.pos ≠ bb.pos :=
  ⟨⟨[0x03], 0, 6⟩, ⟨[0x03], 1, 0⟩, ⟨by decide, by decide, by decide⟩, by decide, by decide⟩

-- a failing read that would need one bit more than is left
example : (BB.mk [0xAB] 0 3).readBits 32 6 = .fail ⟨[0xAB], 0, 3⟩ := by decide
-- an over-long Exp-Golomb prefix
example : (BB.mk [0, 0, 0, 0, 1] 0 1).readUE = .fail ⟨[0, 0, 0, 0, 1], 0, 1⟩ := by decide

/-! ### C03 -/

/-- A call of the public reader interface. -/
inductive ReaderOp where
  | readBits32 (n : Nat) | readBits64 (n : Nat) | peekBits32 (n : Nat) | peekBits64 (n : Nat)
  | readUInt8 | readUInt16 | readUInt32 | readBytes (n : Nat) | readNonSymmetric (n : Nat)
  | readUE | readSE | consumeBits (n : Nat) | consumeBytes (n : Nat) | seek (a b : Nat)

/-- The documented preconditions: positive bit counts, `2 ≤ num_values < 2^31`. -/
def ReaderOp.Legal : ReaderOp → Prop
  | readBits32 n | readBits64 n | peekBits32 n | peekBits64 n => 0 < n
  | readNonSymmetric n => 2 ≤ n ∧ n < 2 ^ 31
  | _ => True

/-- Outcome of one call, forgetting the value: the reader afterwards (whether the call reported
success or failure), or the undefined behaviour met. -/
def ReaderOp.exec (bb : BB) (op : ReaderOp) : Except Bad BB :=
  let st {α : Type} : Res α → Except Bad BB
    | .ok _ b => .ok b
    | .fail b => .ok b
    | .bad k => .error k
  match op with
  | readBits32 n => st (bb.readBits 32 n)
  | readBits64 n => st (bb.readBits 64 n)
  | peekBits32 n => st (bb.peekBits 32 n)
  | peekBits64 n => st (bb.peekBits 64 n)
  | readUInt8 => st bb.readUInt8
  | readUInt16 => st bb.readUInt16
  | readUInt32 => st bb.readUInt32
  | readBytes n => st (bb.readBytes n)
  | readNonSymmetric n => st (bb.readNonSymmetric n)
  | readUE => st bb.readUE
  | readSE => st bb.readSE
  | consumeBits n => st (bb.consumeBits n)
  | consumeBytes n => st (bb.consumeBytes n)
  | seek a b => st (bb.seek a b)

/-- A sequence of calls on one reader. -/
def ReaderOp.execAll (bb : BB) : List ReaderOp → Except Bad BB
  | [] => .ok bb
  | op :: ops =>
    match op.exec bb with
    | .ok bb' => execAll bb' ops
    | .error k => .error k

theorem readBits_step {bb : BB} (h : bb.WF) {w n : Nat} (h0 : 0 < n) :
    (∃ v, bb.readBits w n = .ok v (bb.adv n) ∧ v < 2 ^ n ∧ (bb.adv n).WF) ∨ bb.readBits w n = .fail bb := by
  rw [readBits_eq h h0]
  by_cases hc : n ≤ w ∧ n ≤ bb.rem.length
  · rw [if_pos hc]
    left
    refine ⟨_, rfl, ?_, h.adv hc.2⟩
    have := val_lt (bb.rem.take n)
    rwa [List.length_take, Nat.min_eq_left hc.2] at this
  · rw [if_neg hc]; right; rfl

theorem readUInt8_step {bb : BB} (h : bb.WF) :
    (∃ v, bb.readUInt8 = .ok v (bb.adv 8) ∧ v < 256 ∧ (bb.adv 8).WF) ∨ bb.readUInt8 = .fail bb := by
  unfold readUInt8
  rcases readBits_step h (w := 32) (n := 8) (by omega) with ⟨v, hv, hlt, hw⟩ | hf
  · rw [hv]; simp only
    rw [if_pos (by omega)]
    exact Or.inl ⟨v, rfl, by omega, hw⟩
  · rw [hf]; exact Or.inr rfl

theorem readBytes_step (n : Nat) : ∀ {bb : BB}, bb.WF →
    (∃ l bb', bb.readBytes n = .ok l bb' ∧ bb'.WF ∧ bb'.bytes = bb.bytes) ∨
    (∃ bb', bb.readBytes n = .fail bb' ∧ bb'.WF ∧ bb'.bytes = bb.bytes) := by
  induction n with
  | zero => intro bb h; exact Or.inl ⟨[], bb, rfl, h, rfl⟩
  | succ n ih =>
    intro bb h
    unfold readBytes
    rcases readUInt8_step h with ⟨v, hv, hlt, hw⟩ | hf
    · rw [hv]; simp only
      rcases ih hw with ⟨l, bb', h1, h2, h3⟩ | ⟨bb', h1, h2, h3⟩
      · rw [h1]; exact Or.inl ⟨_, _, rfl, h2, h3⟩
      · rw [h1]; exact Or.inr ⟨_, rfl, h2, h3⟩
    · rw [hf]; exact Or.inr ⟨_, rfl, h, rfl⟩

theorem ReaderOp.exec_step {bb : BB} (h : bb.WF) (op : ReaderOp) (hl : op.Legal) :
    (∃ bb', op.exec bb = .ok bb' ∧ bb'.WF ∧ bb'.bytes = bb.bytes) ∨
    (op = .readSE ∧ op.exec bb = .error .signedOverflow) := by
  have hrb : ∀ w n, 0 < n → (∃ v b, bb.readBits w n = .ok v b ∧ b.WF ∧ b.bytes = bb.bytes) ∨
      bb.readBits w n = .fail bb := by
    intro w n h0
    rcases readBits_step h (w := w) h0 with ⟨v, hv, _, hw⟩ | hf
    · exact Or.inl ⟨v, _, hv, hw, rfl⟩
    · exact Or.inr hf
  have hpk : ∀ w n, 0 < n → (∃ v, bb.peekBits w n = .ok v bb) ∨ bb.peekBits w n = .fail bb := by
    intro w n h0
    by_cases hc : n ≤ w ∧ n ≤ bb.rem.length
    · exact Or.inl ⟨_, peekBits_ok h h0 hc.1 hc.2⟩
    · exact Or.inr (peekBits_fail h h0 hc)
  have hcb : ∀ n, ∃ b, (bb.consumeBits n = .ok () b ∨ bb.consumeBits n = .fail b) ∧ b.WF ∧ b.bytes = bb.bytes := by
    intro n
    by_cases hc : n ≤ bb.rem.length
    · exact ⟨_, Or.inl (consumeBits_ok h hc), h.adv hc, rfl⟩
    · exact ⟨_, Or.inr (consumeBits_fail h hc), h, rfl⟩
  have hue : (∃ v b, bb.readUE = .ok v b ∧ b.WF ∧ b.bytes = bb.bytes) ∨ bb.readUE = .fail bb := by
    rw [readUE_eq h]
    cases hs : ueSplit bb.rem with
    | none => exact Or.inr rfl
    | some vr =>
      exact Or.inl ⟨_, _, rfl, h.adv (by omega), rfl⟩
  cases op with
  | readBits32 n =>
    rcases hrb 32 n hl with ⟨v, b, h1, h2, h3⟩ | h1 <;> simp only [exec, h1] <;> left
    · exact ⟨_, rfl, h2, h3⟩
    · exact ⟨_, rfl, h, rfl⟩
  | readBits64 n =>
    rcases hrb 64 n hl with ⟨v, b, h1, h2, h3⟩ | h1 <;> simp only [exec, h1] <;> left
    · exact ⟨_, rfl, h2, h3⟩
    · exact ⟨_, rfl, h, rfl⟩
  | peekBits32 n =>
    rcases hpk 32 n hl with ⟨v, h1⟩ | h1 <;> simp only [exec, h1] <;> exact Or.inl ⟨_, rfl, h, rfl⟩
  | peekBits64 n =>
    rcases hpk 64 n hl with ⟨v, h1⟩ | h1 <;> simp only [exec, h1] <;> exact Or.inl ⟨_, rfl, h, rfl⟩
  | readUInt8 =>
    left
    rcases readUInt8_step h with ⟨v, h1, _, h2⟩ | h1 <;> simp only [exec, h1]
    · exact ⟨_, rfl, h2, rfl⟩
    · exact ⟨_, rfl, h, rfl⟩
  | readUInt16 =>
    left
    simp only [exec]
    unfold BB.readUInt16
    rcases readBits_step h (w := 32) (n := 16) (by omega) with ⟨v, hv, hlt, hw⟩ | hf
    · rw [hv]; simp only
      rw [if_pos (by omega)]
      exact ⟨_, rfl, hw, rfl⟩
    · rw [hf]; exact ⟨_, rfl, h, rfl⟩
  | readUInt32 =>
    rcases hrb 32 32 (by omega) with ⟨v, b, h1, h2, h3⟩ | h1 <;> simp only [exec, BB.readUInt32, h1] <;> left
    · exact ⟨_, rfl, h2, h3⟩
    · exact ⟨_, rfl, h, rfl⟩
  | readBytes n =>
    rcases readBytes_step n h with ⟨l, bb', h1, h2, h3⟩ | ⟨bb', h1, h2, h3⟩ <;> simp only [exec, h1] <;>
      exact Or.inl ⟨_, rfl, h2, h3⟩
  | readNonSymmetric n =>
    left
    have := readNonSymmetric_eq h hl.1 hl.2
    by_cases hex : ∃ v r, v < n ∧ bb.rem = nonSymmetric n v ++ r
    · obtain ⟨v, r, hv, hr⟩ := hex
      simp only [exec, this.1 v hv r hr]
      exact ⟨_, rfl, h.adv (by rw [hr]; simp), rfl⟩
    · obtain ⟨bb', h1, h2, h3⟩ := this.2 (fun v r hv hr => hex ⟨v, r, hv, hr⟩)
      simp only [exec, h1]
      exact ⟨_, rfl, h2, h3⟩
  | readUE =>
    rcases hue with ⟨v, b, h1, h2, h3⟩ | h1 <;> simp only [exec, h1] <;> left
    · exact ⟨_, rfl, h2, h3⟩
    · exact ⟨_, rfl, h, rfl⟩
  | readSE =>
    simp only [exec]
    unfold BB.readSE
    rcases hue with ⟨v, b, h1, h2, h3⟩ | h1
    · rw [h1]; simp only
      cases seOfUe v with
      | none => exact Or.inr ⟨trivial, rfl⟩
      | some x => exact Or.inl ⟨_, rfl, h2, h3⟩
    · rw [h1]; exact Or.inl ⟨_, rfl, h, rfl⟩
  | consumeBits n =>
    obtain ⟨b, h1 | h1, h2, h3⟩ := hcb n <;> simp only [exec, h1] <;> exact Or.inl ⟨_, rfl, h2, h3⟩
  | consumeBytes n =>
    simp only [exec]
    unfold BB.consumeBytes
    by_cases hc : n > (2 ^ 64 - 1) / 8
    · rw [if_pos hc]; exact Or.inl ⟨_, rfl, h, rfl⟩
    · rw [if_neg hc]
      obtain ⟨b, h1 | h1, h2, h3⟩ := hcb (n * 8) <;> rw [h1] <;> exact Or.inl ⟨_, rfl, h2, h3⟩
  | seek a b =>
    simp only [exec]
    unfold BB.seek
    by_cases hc : a > bb.bytes.length ∨ b > 7 ∨ (a = bb.bytes.length ∧ b > 0)
    · rw [if_pos hc]; exact Or.inl ⟨_, rfl, h, rfl⟩
    · rw [if_neg hc]
      refine Or.inl ⟨_, rfl, ?_, rfl⟩
      unfold WF; simp only; omega

/-- C03: from a fresh reader, any sequence of legal calls ends at a position inside the buffer
(or at its end), with position + remaining bits = size, the buffer untouched, without an
out-of-bounds access, assertion, bad shift or endless loop; the only undefined behaviour is the
signed overflow of `ReadSignedExponentialGolomb` (C06). -/
theorem C03_reader_stays_in_bounds (bytes : List UInt8) (ops : List ReaderOp) (hl : ∀ op ∈ ops, op.Legal) :
    (∃ bb, ReaderOp.execAll (BB.init bytes) ops = .ok bb ∧ bb.bytes = bytes ∧
      bb.byteOff ≤ bytes.length ∧ bb.bitOff < 8 ∧ (bb.byteOff = bytes.length → bb.bitOff = 0) ∧
      8 * bb.byteOff + bb.bitOff + bb.remaining = 8 * bytes.length) ∨
    (ReaderOp.readSE ∈ ops ∧ ReaderOp.execAll (BB.init bytes) ops = .error .signedOverflow) := by
  suffices hkey : ∀ bb : BB, bb.WF → (∃ bb', ReaderOp.execAll bb ops = .ok bb' ∧ bb'.WF ∧ bb'.bytes = bb.bytes) ∨
      (ReaderOp.readSE ∈ ops ∧ ReaderOp.execAll bb ops = .error .signedOverflow) by
    rcases hkey _ (WF.init bytes) with ⟨bb', h1, h2, h3⟩ | h
    · left
      have hb : bb'.bytes = bytes := h3
      have hc := C01_remaining h2
      refine ⟨bb', h1, hb, hb ▸ h2.1, ?_, hb ▸ h2.2.2, ?_⟩
      · have := h2.2.1; omega
      · rw [← hb]; exact hc
    · exact Or.inr h
  induction ops with
  | nil => intro bb h; exact Or.inl ⟨bb, rfl, h, rfl⟩
  | cons op ops ih =>
    intro bb h
    unfold ReaderOp.execAll
    rcases ReaderOp.exec_step h op (hl op (by simp)) with ⟨bb1, h1, h2, h3⟩ | ⟨h1, h2⟩
    · rw [h1]
      rcases ih (fun o ho => hl o (by simp [ho])) bb1 h2 with ⟨bb', g1, g2, g3⟩ | ⟨g1, g2⟩
      · exact Or.inl ⟨bb', g1, g2, g3.trans h3⟩
      · exact Or.inr ⟨by simp [g1], g2⟩
    · rw [h2]
      exact Or.inr ⟨by simp [h1], rfl⟩

-- a mixed run on a concrete buffer
example : ReaderOp.execAll (BB.init [0x12, 0xA6, 0x55])
    [.readBits32 5, .readUE, .seek 9 9, .readSE, .readNonSymmetric 5, .readBytes 7] =
    .ok ⟨[0x12, 0xA6, 0x55], 2, 3⟩ := by rfl

/-! ### C04 -/

/-- C04: peeking returns what reading returns, without moving. -/
theorem C04_peek_eq_read {bb : BB} (h : bb.WF) (w n : Nat) (h0 : 0 < n) :
    (∀ v bb', bb.readBits w n = .ok v bb' ↔ bb.peekBits w n = .ok v bb ∧ bb' = bb.adv n) ∧
    (bb.readBits w n = .fail bb ↔ bb.peekBits w n = .fail bb) ∧
    (∀ v bb', bb.peekBits w n = .ok v bb' → bb' = bb) := by
  rw [readBits_eq h h0]
  by_cases hc : n ≤ w ∧ n ≤ bb.rem.length
  · rw [if_pos hc, peekBits_ok h h0 hc.1 hc.2]
    refine ⟨?_, by simp, ?_⟩
    · intro v bb'
      simp only [Res.ok.injEq, and_true]
      constructor
      · rintro ⟨h1, h2⟩; exact ⟨h1, h2.symm⟩
      · rintro ⟨h1, h2⟩; exact ⟨h1, h2.symm⟩
    · intro v bb' hh; cases hh; rfl
  · rw [if_neg hc, peekBits_fail h h0 hc]
    simp

/-- C04: reading `k` then `m` bits is reading `k + m` bits: same final position, and the value is
`first * 2^m + second`. -/
theorem C04_reads_compose {bb : BB} (h : bb.WF) (w k m : Nat) (hk : 0 < k) (hm : 0 < m) (hw : k + m ≤ w) :
    (∀ a b bb1 bb2, bb.readBits w k = .ok a bb1 → bb1.readBits w m = .ok b bb2 →
      bb.readBits w (k + m) = .ok (a * 2 ^ m + b) bb2) ∧
    (∀ v bb2, bb.readBits w (k + m) = .ok v bb2 →
      ∃ bb1, bb.readBits w k = .ok (v / 2 ^ m) bb1 ∧ bb1.readBits w m = .ok (v % 2 ^ m) bb2) := by
  have hsplit : ∀ r : List Bool, k + m ≤ r.length →
      val (r.take (k + m)) = val (r.take k) * 2 ^ m + val ((r.drop k).take m) := by
    intro r hr
    rw [List.take_add, val_append, List.length_take, List.length_drop, Nat.min_eq_left (by omega)]
  constructor
  · intro a b bb1 bb2 h1 h2
    rw [readBits_eq h hk] at h1
    split at h1
    · rename_i hc
      cases h1
      rw [readBits_eq (h.adv hc.2) hm, rem_adv] at h2
      split at h2
      · rename_i hc2
        cases h2
        rw [List.length_drop] at hc2
        rw [readBits_eq h (by omega), if_pos (by omega), adv_adv, hsplit _ (by omega)]
      · cases h2
    · cases h1
  · intro v bb2 hh
    rw [readBits_eq h (by omega)] at hh
    split at hh
    · rename_i hc
      cases hh
      have hlt := val_lt ((bb.rem.drop k).take m)
      rw [List.length_take, List.length_drop, Nat.min_eq_left (by omega)] at hlt
      refine ⟨bb.adv k, ?_, ?_⟩
      · rw [readBits_eq h hk, if_pos (by omega), hsplit _ hc.2]
        congr 1
        rw [Nat.mul_comm, Nat.mul_add_div (Nat.pow_pos (by omega)), Nat.div_eq_of_lt hlt]; omega
      · rw [readBits_eq (h.adv (by omega)) hm, rem_adv, if_pos (by rw [List.length_drop]; omega), adv_adv,
          hsplit _ hc.2]
        congr 1
        rw [Nat.mul_comm, Nat.mul_add_mod, Nat.mod_eq_of_lt hlt]
    · cases hh

example : (BB.mk [0xAB, 0xCD] 0 1).peekBits 32 9 = .ok 0xAF ⟨[0xAB, 0xCD], 0, 1⟩ := by decide

/-! ### C05 -/

/-- C05: a reader in front of the ue(v) code word of `v ≤ 2^32 - 2` returns `v` and moves right
behind the code word. -/
theorem C05_readUE_complete {bb : BB} (h : bb.WF) {v : Nat} (hv : v ≤ 2 ^ 32 - 2) {rest : List Bool}
    (hr : bb.rem = ue v ++ rest) :
    bb.readUE = .ok v (bb.adv (ue v).length) ∧ (bb.adv (ue v).length).rem = rest := by
  rw [readUE_eq h, hr, ueSplit_ue (by omega)]
  simp only
  rw [rem_adv, hr]
  refine ⟨?_, by simp⟩
  congr 2
  simp

/-- C05: conversely every success consumed exactly the code word of the value returned, and
success is possible only there: any other input fails without moving. -/
theorem C05_readUE_sound {bb : BB} (h : bb.WF) :
    (∀ v bb', bb.readUE = .ok v bb' →
      v ≤ 2 ^ 32 - 2 ∧ bb.rem = ue v ++ bb'.rem ∧ bb'.bytes = bb.bytes ∧ bb'.pos = bb.pos + (ue v).length) ∧
    ((∀ v rest, v ≤ 2 ^ 32 - 2 → bb.rem ≠ ue v ++ rest) → bb.readUE = .fail bb) ∧
    (∀ k, bb.readUE ≠ .bad k) := by
  refine ⟨?_, ?_, ?_⟩
  · intro v bb' hh
    rw [readUE_eq h] at hh
    cases hs : ueSplit bb.rem with
    | none => rw [hs] at hh; cases hh
    | some vr =>
      obtain ⟨v', r'⟩ := vr
      rw [hs] at hh
      simp only at hh
      cases hh
      obtain ⟨h1, h2⟩ := ueSplit_some hs
      have hlen : bb.rem.length - r'.length = (ue v).length := by rw [h1]; simp
      refine ⟨by omega, ?_, rfl, ?_⟩
      · rw [rem_adv, hlen]
        conv => rhs; rhs; rw [h1]
        simp
        exact h1
      · rw [pos_adv, hlen]
  · intro hno
    rw [readUE_eq h]
    cases hs : ueSplit bb.rem with
    | none => rfl
    | some vr =>
      obtain ⟨h1, h2⟩ := ueSplit_some hs
      exact absurd h1 (hno _ _ (by omega))
  · intro k hh
    rw [readUE_eq h] at hh
    cases hs : ueSplit bb.rem <;> rw [hs] at hh <;> cases hh

/-- the code is prefix-free: at most one value matches -/
theorem C05_ue_prefix_free {a b : Nat} {r s : List Bool} (h : ue a ++ r = ue b ++ s) : a = b ∧ r = s :=
  ue_append_inj h

example : (BB.mk [0x07, 0x80] 0 2).rem = ue 14 ++ [false, false, false, false, false, false, false] := by decide

/-! ### C06 -/

/-- C06 (the part that holds): the se(v) code word of any `-2^31 < v < 2^30` is decoded to `v` and
consumed exactly.  Missing: values from `2^30` to `2^31 - 1`, for which the code is wrong, see
the two theorems below. -/
theorem C06_readSE_below {bb : BB} (h : bb.WF) {v : Int} (h1 : -(2 ^ 31) < v) (h2 : v < 2 ^ 30)
    {rest : List Bool} (hr : bb.rem = se v ++ rest) :
    bb.readSE = .ok v (bb.adv (se v).length) ∧ (bb.adv (se v).length).rem = rest := by
  have hlt : seCodeNum v ≤ 2 ^ 32 - 2 := by unfold seCodeNum; split <;> omega
  have := C05_readUE_complete h hlt hr
  unfold readSE
  unfold se at *
  rw [this.1]
  simp only
  rw [seOfUe_seCodeNum h1 h2]
  exact ⟨rfl, this.2⟩

/-- Soundness: whenever the reader succeeds it consumed a ue(v) code word; if its code number is
not an odd number above `2^31`, the value is the one of Table 9-3. -/
theorem C06_readSE_sound {bb bb' : BB} (h : bb.WF) {v : Int} (hh : bb.readSE = .ok v bb') :
    -(2 ^ 31) < v ∧ v < 2 ^ 30 ∧ ∃ k, bb.rem = ue k ++ bb'.rem ∧
      ((k % 2 = 1 → k < 2 ^ 31) → k = seCodeNum v) := by
  unfold readSE at hh
  split at hh
  · rename_i k bb1 heq
    obtain ⟨hk, hrem, _, _⟩ := (C05_readUE_sound h).1 _ _ heq
    split at hh
    · rename_i v' hs
      cases hh
      have := seOfUe_some (by omega) hs
      exact ⟨this.1.1, this.1.2, k, hrem, this.2⟩
    · cases hh
  · cases hh
  · cases hh

/-- Counterexample to the full C06: the code word of `2^30` makes the reader compute
`INT32_MAX + 1`. -/
theorem C06_overflow_counterexample {bb : BB} (h : bb.WF) {rest : List Bool} (hr : bb.rem = se (2 ^ 30) ++ rest) :
    bb.readSE = .bad .signedOverflow := by
  have := C05_readUE_complete h (v := seCodeNum (2 ^ 30)) (by decide) hr
  unfold readSE
  rw [this.1]
  simp only
  rw [(seOfUe_none (by decide)).mpr (by decide)]

/-- Counterexample to the full C06: every `v` with `2^30 < v < 2^31` is decoded to a wrong,
non-positive value. -/
theorem C06_wrong_sign {bb : BB} (h : bb.WF) {v : Int} (h1 : 2 ^ 30 < v) (h2 : v < 2 ^ 31)
    {rest : List Bool} (hr : bb.rem = se v ++ rest) :
    bb.readSE = .ok (v - 2 ^ 31) (bb.adv (se v).length) := by
  have hc : seCodeNum v = 2 * v.toNat - 1 := by unfold seCodeNum; rw [if_pos (by omega)]
  have := C05_readUE_complete h (v := seCodeNum v) (by omega) hr
  unfold readSE
  rw [this.1]
  simp only
  have hs : seOfUe (seCodeNum v) = some (v - 2 ^ 31) := by
    rw [hc]
    unfold seOfUe
    rw [if_neg (by omega)]
    have : ¬ (2 * v.toNat - 1 < 2 ^ 31) := by omega
    simp only [this, if_false]
    rw [if_neg (by omega)]
    congr 1
    have : ((2 * v.toNat - 1 : Nat) : Int) - 2 ^ 32 + 1 = -((2 ^ 32 - 2 * v.toNat : Nat) : Int) := by omega
    rw [this, Int.neg_tdiv, Int.tdiv_eq_ediv_of_nonneg (by omega)]
    omega
  rw [hs]
  rfl

example : (BB.mk [0x05, 0x80] 0 3).readSE = .ok (-2) ⟨[0x05, 0x80], 1, 0⟩ ∧
    (BB.mk [0x05, 0x80] 0 3).rem = se (-2) ++ [true, false, false, false, false, false, false, false] := by decide

/-- C06, exact: what the reader does on every input.  If the next bits are the se(v) code word of a
32-bit value `v` (any except `-2^31`, whose code does not fit), then `v` is returned if it is below
`2^30`, `INT32_MAX + 1` is computed for `v = 2^30`, and `v - 2^31` is returned above; the
code word is consumed.  If the next bits are no such code word the reader fails and does not
move. -/
theorem C06_readSE_exact {bb : BB} (h : bb.WF) :
    (∀ v rest, -(2 ^ 31) < v → v < 2 ^ 31 → bb.rem = se v ++ rest →
      (bb.adv (se v).length).rem = rest ∧
      bb.readSE = if v < 2 ^ 30 then .ok v (bb.adv (se v).length)
        else if v = 2 ^ 30 then .bad .signedOverflow
        else .ok (v - 2 ^ 31) (bb.adv (se v).length)) ∧
    ((∀ v rest, -(2 ^ 31) < v → v < 2 ^ 31 → bb.rem ≠ se v ++ rest) → bb.readSE = .fail bb) := by
  constructor
  · intro v rest h1 h2 hr
    have hlt : seCodeNum v ≤ 2 ^ 32 - 2 := by unfold seCodeNum; split <;> omega
    refine ⟨(C05_readUE_complete h hlt hr).2, ?_⟩
    by_cases ha : v < 2 ^ 30
    · rw [if_pos ha]; exact (C06_readSE_below h h1 ha hr).1
    · rw [if_neg ha]
      by_cases hb : v = 2 ^ 30
      · rw [if_pos hb]; subst hb; exact C06_overflow_counterexample h hr
      · rw [if_neg hb]; exact C06_wrong_sign h (by omega) h2 hr
  · intro hno
    have : bb.readUE = .fail bb := by
      apply (C05_readUE_sound h).2.1
      intro k rest hk hr
      by_cases hp : k % 2 = 0
      · refine hno (-(k / 2 : Nat)) rest (by omega) (by omega) ?_
        have : seCodeNum (-((k / 2 : Nat) : Int)) = k := by unfold seCodeNum; rw [if_neg (by omega)]; omega
        unfold se; rw [this]; exact hr
      · refine hno (((k + 1) / 2 : Nat) : Int) rest (by omega) (by omega) ?_
        have : seCodeNum (((k + 1) / 2 : Nat) : Int) = k := by unfold seCodeNum; rw [if_pos (by omega)]; omega
        unfold se; rw [this]; exact hr
    unfold readSE
    rw [this]

/-- The code words of two values are never confused: decoding is a function of the bits. -/
theorem C06_se_prefix_free {a b : Int} {r s : List Bool} (h : se a ++ r = se b ++ s) : a = b ∧ r = s := by
  obtain ⟨h1, h2⟩ := C05_ue_prefix_free h
  refine ⟨?_, h2⟩
  unfold seCodeNum at h1
  split at h1 <;> split at h1 <;> omega

/-- both branches of the exact statement are met: a value above `2^30` and bits that are no code -/
example : (BB.init [0, 0, 0, 1, 0, 0, 0, 4]).rem = se (2 ^ 30 + 1) ++ [false] := by decide +kernel
example : (BB.init [0, 0, 0, 0]).readSE = .fail (BB.init [0, 0, 0, 0]) := by decide +kernel

end H265
