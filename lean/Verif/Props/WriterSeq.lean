/- C47: sequences of writer calls and reading them back. -/
import Verif.Props.Writer

namespace H265
open Spec BB

/-- A call of the public writer interface. -/
inductive WriteOp where
  | bits (v n : Nat) | uint8 (v : Nat) | uint16 (v : Nat) | uint32 (v : Nat)
  | nonSymmetric (v n : Nat) | ue (v : Nat) | se (v : Int)

namespace WriteOp

/-- The value fits the call; signed values stay below `2^30` (C06 shows that the reader is wrong
above). -/
def Legal : WriteOp → Prop
  | bits v n => 0 < n ∧ n ≤ 64 ∧ v < 2 ^ n
  | uint8 v => v < 2 ^ 8
  | uint16 v => v < 2 ^ 16
  | uint32 v => v < 2 ^ 32
  | nonSymmetric v n => 2 ≤ n ∧ n < 2 ^ 31 ∧ v < n
  | ue v => v ≤ 2 ^ 32 - 2
  | se v => -(2 ^ 31) < v ∧ v < 2 ^ 30

/-- The bits the call stands for. -/
def code : WriteOp → List Bool
  | bits v n => u n v
  | uint8 v => u 8 v
  | uint16 v => u 16 v
  | uint32 v => u 32 v
  | nonSymmetric v n => Spec.nonSymmetric n v
  | ue v => Spec.ue v
  | se v => Spec.se v

/-- The value written. -/
def value : WriteOp → Int
  | bits v _ | uint8 v | uint16 v | uint32 v | nonSymmetric v _ | ue v => v
  | se v => v

/-- Executes the call. -/
def write : WriteOp → BB → Res Unit
  | bits v n, bb => bb.writeBits v n
  | uint8 v, bb => bb.writeUInt8 v
  | uint16 v, bb => bb.writeUInt16 v
  | uint32 v, bb => bb.writeUInt32 v
  | nonSymmetric v n, bb => bb.writeNonSymmetric v n
  | ue v, bb => bb.writeUE v
  | se v, bb => bb.writeSE v

/-- an unsigned result as a value -/
def toInt : Res Nat → Res Int
  | .ok v bb => .ok v bb
  | .fail bb => .fail bb
  | .bad k => .bad k

/-- The reader call matching a writer call. -/
def read : WriteOp → BB → Res Int
  | bits _ n, bb => toInt (bb.readBits 64 n)
  | uint8 _, bb => toInt bb.readUInt8
  | uint16 _, bb => toInt bb.readUInt16
  | uint32 _, bb => toInt bb.readUInt32
  | nonSymmetric _ n, bb => toInt (bb.readNonSymmetric n)
  | ue _, bb => toInt bb.readUE
  | se _, bb => bb.readSE

/-- A sequence of writes, stopping at the first one that reports failure. -/
def writeAll : List WriteOp → BB → Res Unit
  | [], bb => .ok () bb
  | op :: ops, bb =>
    match op.write bb with
    | .ok _ bb1 => writeAll ops bb1
    | r => r

/-- The matching sequence of reads, collecting the values. -/
def readAll : List WriteOp → BB → Res (List Int)
  | [], bb => .ok [] bb
  | op :: ops, bb =>
    match op.read bb with
    | .ok v bb1 =>
      match readAll ops bb1 with
      | .ok vs bb2 => .ok (v :: vs) bb2
      | r => r
    | .fail bb1 => .fail bb1
    | .bad k => .bad k

end WriteOp

/-- One write: the code of the call replaces the bits at the position, or nothing happens. -/
theorem C47_write_step {bb : BB} (h : bb.WF) (op : WriteOp) (hl : op.Legal) :
    (op.code.length ≤ bb.remaining → ∃ bb', op.write bb = .ok () bb' ∧
      bitsOf bb'.bytes = (bitsOf bb.bytes).take bb.pos ++ op.code ++ (bitsOf bb.bytes).drop (bb.pos + op.code.length) ∧
      bb'.bytes.length = bb.bytes.length ∧ bb'.pos = bb.pos + op.code.length ∧ bb'.WF) ∧
    (¬ op.code.length ≤ bb.remaining → op.write bb = .fail bb) := by
  cases op with
  | bits v n => simp only [WriteOp.code, u_length]; exact C07_writeBits h v n hl.1 hl.2.1
  | uint8 v => simp only [WriteOp.code, u_length]; exact C07_writeUInt h v 8 BB.writeUInt8 (by simp)
  | uint16 v => simp only [WriteOp.code, u_length]; exact C07_writeUInt h v 16 BB.writeUInt16 (by simp)
  | uint32 v => simp only [WriteOp.code, u_length]; exact C07_writeUInt h v 32 BB.writeUInt32 (by simp)
  | nonSymmetric v n =>
    have := writeNonSymmetric_eq h hl.1 hl.2.1 hl.2.2
    rw [remaining_eq h]
    refine ⟨fun hh => ?_, this.2.1⟩
    obtain ⟨bb', h1, h2, h3, h4, h5⟩ := this.1 hh
    exact ⟨bb', h1, h5, h3, h4, h2⟩
  | ue v => exact C08_writeUE h hl
  | se v => exact C08_writeSE h hl.1 (by have := hl.2; omega)

/-- One read in front of the code of the call returns the value written and moves behind it. -/
theorem C47_read_step {bb : BB} (h : bb.WF) (op : WriteOp) (hl : op.Legal) {r : List Bool} (hr : bb.rem = op.code ++ r) :
    ∃ bb', op.read bb = .ok op.value bb' ∧ bb'.rem = r ∧ bb'.pos = bb.pos + op.code.length ∧ bb'.bytes = bb.bytes ∧ bb'.WF := by
  have hle : op.code.length ≤ bb.rem.length := by rw [hr, List.length_append]; omega
  have hrem : (bb.adv op.code.length).rem = r := by rw [rem_adv, hr, List.drop_left]
  have hfin : ∀ {x : Res Int}, x = .ok op.value (bb.adv op.code.length) → ∃ bb', x = .ok op.value bb' ∧ bb'.rem = r ∧
      bb'.pos = bb.pos + op.code.length ∧ bb'.bytes = bb.bytes ∧ bb'.WF := fun e =>
    ⟨_, e, hrem, pos_adv _ _, rfl, h.adv hle⟩
  have hbits : ∀ w n v, 0 < n → n ≤ w → v < 2 ^ n → op.code = u n v → bb.readBits w n = .ok v (bb.adv n) := by
    intro w n v h0 hw hv hc
    rw [hc] at hr hle
    rw [u_length] at hle
    rw [readBits_eq h h0, if_pos ⟨hw, hle⟩, hr, List.take_append_of_le_length (by simp),
      List.take_of_length_le (by simp), val_u_of_lt hv]
  cases op with
  | bits v n => apply hfin; simp only [WriteOp.read, WriteOp.code, u_length, hbits 64 n v hl.1 hl.2.1 hl.2.2 rfl]; rfl
  | uint8 v =>
    apply hfin
    have := hl
    simp only [WriteOp.Legal] at this
    simp only [WriteOp.read, WriteOp.code, u_length, BB.readUInt8, hbits 32 8 v (by omega) (by omega) hl rfl]
    rw [if_pos (by omega)]; rfl
  | uint16 v =>
    apply hfin
    have := hl
    simp only [WriteOp.Legal] at this
    simp only [WriteOp.read, WriteOp.code, u_length, BB.readUInt16, hbits 32 16 v (by omega) (by omega) hl rfl]
    rw [if_pos (by omega)]; rfl
  | uint32 v => apply hfin; simp only [WriteOp.read, WriteOp.code, u_length, BB.readUInt32, hbits 32 32 v (by omega) (by omega) hl rfl]; rfl
  | nonSymmetric v n =>
    apply hfin
    simp only [WriteOp.read, (readNonSymmetric_eq h hl.1 hl.2.1).1 v hl.2.2 r hr]; rfl
  | ue v => apply hfin; simp only [WriteOp.read, (C05_readUE_complete h hl hr).1]; rfl
  | se v => apply hfin; simp only [WriteOp.read, (C06_readSE_below h hl.1 hl.2 hr).1]; rfl

/-- C47: a sequence of legal writes that fits puts the codes one after the other at the position and
touches nothing else; if it does not fit, the sequence reports failure. -/
theorem C47_write_sequence (ops : List WriteOp) (hl : ∀ op ∈ ops, op.Legal) : ∀ {bb : BB}, bb.WF →
    let w := (ops.map WriteOp.code).flatten
    (w.length ≤ bb.remaining → ∃ bb', WriteOp.writeAll ops bb = .ok () bb' ∧
      bitsOf bb'.bytes = (bitsOf bb.bytes).take bb.pos ++ w ++ (bitsOf bb.bytes).drop (bb.pos + w.length) ∧
      bb'.bytes.length = bb.bytes.length ∧ bb'.pos = bb.pos + w.length ∧ bb'.WF) ∧
    (¬ w.length ≤ bb.remaining → ∃ bb', WriteOp.writeAll ops bb = .fail bb') := by
  induction ops with
  | nil => intro bb h; exact ⟨fun _ => ⟨bb, rfl, by simp, rfl, rfl, h⟩, fun hn => absurd (Nat.zero_le _) hn⟩
  | cons op ops ih =>
    intro bb h
    simp only [List.map_cons, List.flatten_cons, List.length_append]
    have hrem := C01_remaining h
    by_cases hc : op.code.length ≤ bb.remaining
    · obtain ⟨bb1, e1, hb1, hl1, hp1, hw1⟩ := (C47_write_step h op (hl op (by simp))).1 hc
      have hrem1 := C01_remaining hw1
      rw [hl1, hp1] at hrem1
      obtain ⟨ih1, ih2⟩ := ih (fun o ho => hl o (by simp [ho])) hw1
      constructor
      · intro hh
        obtain ⟨bb2, e2, hb2, hl2, hp2, hw2⟩ := ih1 (by omega)
        refine ⟨bb2, by unfold WriteOp.writeAll; rw [e1]; exact e2, ?_, hl2.trans hl1, by omega, hw2⟩
        have hlen : ((bitsOf bb.bytes).take bb.pos).length = bb.pos := by
          rw [List.length_take, bitsOf_length]; omega
        rw [hb2, hp1, hb1]
        have hA : (((bitsOf bb.bytes).take bb.pos ++ op.code).length) = bb.pos + op.code.length := by
          rw [List.length_append, hlen]
        rw [List.take_append_of_le_length (by omega), List.take_of_length_le (by omega), List.drop_append, hA,
          List.drop_of_length_le (by omega), List.nil_append, List.drop_drop]
        simp only [List.append_assoc]
        congr 4
        omega
      · intro hh
        obtain ⟨bb2, e2⟩ := ih2 (by omega)
        exact ⟨bb2, by unfold WriteOp.writeAll; rw [e1]; exact e2⟩
    · have e1 := (C47_write_step h op (hl op (by simp))).2 hc
      exact ⟨fun hh => absurd hh (by omega), fun _ => ⟨bb, by unfold WriteOp.writeAll; rw [e1]⟩⟩

/-- C47: reading the codes of a sequence of calls returns the values, in order. -/
theorem C47_read_sequence (ops : List WriteOp) (hl : ∀ op ∈ ops, op.Legal) : ∀ {bb : BB}, bb.WF → ∀ {r : List Bool},
    bb.rem = (ops.map WriteOp.code).flatten ++ r →
    ∃ bb', WriteOp.readAll ops bb = .ok (ops.map WriteOp.value) bb' ∧ bb'.rem = r ∧
      bb'.pos = bb.pos + (ops.map WriteOp.code).flatten.length := by
  induction ops with
  | nil => intro bb _ r hr; exact ⟨bb, rfl, by simpa using hr, rfl⟩
  | cons op ops ih =>
    intro bb h r hr
    rw [List.map_cons, List.flatten_cons, List.append_assoc] at hr
    obtain ⟨bb1, e1, hr1, hp1, _, hw1⟩ := C47_read_step h op (hl op (by simp)) hr
    obtain ⟨bb2, e2, hr2, hp2⟩ := ih (fun o ho => hl o (by simp [ho])) hw1 hr1
    refine ⟨bb2, by unfold WriteOp.readAll; rw [e1]; dsimp only; rw [e2]; rfl, hr2, ?_⟩
    simp only [List.map_cons, List.flatten_cons, List.length_append]
    omega

/-- C47: whatever is written by a successful sequence of legal writes into a fresh buffer is read
back, value by value, by the matching reads on the buffer, which end where the writer ended. -/
theorem C47_roundtrip (ops : List WriteOp) (hl : ∀ op ∈ ops, op.Legal) {bytes : List UInt8} {bb' : BB}
    (hw : WriteOp.writeAll ops (BB.init bytes) = .ok () bb') :
    ∃ bb2, WriteOp.readAll ops (BB.init bb'.bytes) = .ok (ops.map WriteOp.value) bb2 ∧ bb2.pos = bb'.pos := by
  have hs := C47_write_sequence ops hl (WF.init bytes)
  simp only at hs
  by_cases hc : ((ops.map WriteOp.code).flatten).length ≤ (BB.init bytes).remaining
  · obtain ⟨b, e, hb, hlen, hp, _⟩ := hs.1 hc
    rw [hw] at e; cases e
    have hp0 : (BB.init bytes).pos = 0 := rfl
    rw [hp0, List.take_zero, List.nil_append] at hb
    obtain ⟨bb2, e2, _, hp2⟩ := C47_read_sequence ops hl (WF.init bb'.bytes) (by rw [rem_init]; exact hb)
    exact ⟨bb2, e2, by rw [hp2, hp]; rfl⟩
  · obtain ⟨b, e⟩ := hs.2 hc
    rw [hw] at e; cases e

/-- The signed limit is needed: `2^30` is written but cannot be read back. -/
theorem C47_signed_limit : ∃ bb', WriteOp.writeAll [.se (2 ^ 30)] (BB.init (List.replicate 8 0)) = .ok () bb' ∧
    WriteOp.readAll [.se (2 ^ 30)] (BB.init bb'.bytes) = .bad .signedOverflow :=
  ⟨⟨[0, 0, 0, 1, 0, 0, 0, 0], 7, 7⟩, by decide +kernel, by decide +kernel⟩

example : (∀ op ∈ [WriteOp.bits 5 3, .ue 9, .se (-4), .nonSymmetric 3 5, .uint8 200], op.Legal) ∧
    WriteOp.writeAll [.bits 5 3, .ue 9, .se (-4), .nonSymmetric 3 5, .uint8 200] (BB.init [0xff, 0xff, 0xff, 0xff]) =
      .ok () ⟨[0xA2, 0x84, 0xEC, 0x8F], 3, 4⟩ ∧
    WriteOp.readAll [.bits 5 3, .ue 9, .se (-4), .nonSymmetric 3 5, .uint8 200] (BB.init [0xA2, 0x84, 0xEC, 0x8F]) =
      .ok [5, 9, -4, 3, 200] ⟨[0xA2, 0x84, 0xEC, 0x8F], 3, 4⟩ := by
  refine ⟨?_, by decide +kernel, by decide +kernel⟩
  simp [WriteOp.Legal]

end H265
