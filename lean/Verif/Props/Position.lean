/- C46: position independence. -/
import Verif.Proof.Nal

namespace H265
open Spec

/-- Two results that differ only in the buffer they were obtained from. -/
def SameResult {α : Type} : Res α → Res α → Prop
  | .ok a b, .ok a' b' => a = a' ∧ b.rem = b'.rem
  | .fail b, .fail b' => b.rem = b'.rem
  | .bad k, .bad k' => k = k'
  | _, _ => False

/-- C46: the result of any parser (any sequence of reader calls with decisions in between) depends only on the bits that are left: not on the bytes before the current position, not
on how many there are, and not on the position within the byte other than through the number of bits left. -/
theorem C46_position_independent {α : Type} (p : Prog α) {bb1 bb2 : BB} (h1 : bb1.WF) (h2 : bb2.WF) (hr : bb1.rem = bb2.rem) :
    SameResult (p.run bb1) (p.run bb2) := by
  have a1 := Prog.run_agrees p bb1 h1
  have a2 := Prog.run_agrees p bb2 h2
  rw [hr] at a1
  revert a1 a2
  cases p.denote bb2.rem <;> cases p.run bb1 <;> cases p.run bb2 <;> simp only [Prog.Agrees, SameResult]
  all_goals first
    | (intro x y; exact x.elim)
    | (intro x y; exact y.elim)
    | (rintro ⟨rfl, _, _, rfl⟩ ⟨rfl, _, _, h⟩; exact ⟨rfl, h.symm⟩)
    | (rintro ⟨_, _, rfl⟩ ⟨_, _, h⟩; exact h.symm)
    | (rintro rfl rfl; rfl)

theorem C46_ok {α : Type} {p : Prog α} {bb1 bb2 b1 : BB} {a : α} (h1 : bb1.WF) (h2 : bb2.WF) (hr : bb1.rem = bb2.rem) (ho : p.run bb1 = .ok a b1) :
    ∃ b2, p.run bb2 = .ok a b2 ∧ b2.rem = b1.rem := by
  have := C46_position_independent p h1 h2 hr
  rw [ho] at this
  revert this
  cases p.run bb2 with
  | ok a' b' => rintro ⟨rfl, h⟩; exact ⟨b', rfl, h.symm⟩
  | fail b' => exact fun h => h.elim
  | bad k => exact fun h => h.elim

/-- C46: bytes in front of the part being parsed make no difference. -/
theorem C46_prefix_irrelevant {α : Type} (p : Prog α) (pre bytes : List UInt8) :
    SameResult (p.run (BB.init bytes)) (p.run ⟨pre ++ bytes, pre.length, 0⟩) := by
  have hwf : (BB.mk (pre ++ bytes) pre.length 0).WF := ⟨by simp, by simp, by simp⟩
  refine C46_position_independent p (BB.WF.init _) hwf ?_
  rw [BB.rem_init]
  have hp : (BB.mk (pre ++ bytes) pre.length 0).pos = (bitsOf pre).length := by simp [BB.pos, bitsOf_length]
  simp only [BB.rem]
  rw [hp, bitsOf_append, List.drop_left]

/-- hypotheses met, non-trivially: a VPS payload behind its NAL unit header -/
example : (parseVps.run ⟨[0x40, 0x01, 0x0c, 0x01, 0xff, 0xff, 0x01, 0x60, 0x00, 0x00, 0x00, 0xb0, 0x00, 0x00, 0x00, 0x00, 0x00, 0x5d, 0xac, 0x59], 2, 0⟩).val? =
    (parseVps.run (BB.init [0x0c, 0x01, 0xff, 0xff, 0x01, 0x60, 0x00, 0x00, 0x00, 0xb0, 0x00, 0x00, 0x00, 0x00, 0x00, 0x5d, 0xac, 0x59])).val? ∧
    (parseVps.run (BB.init [0x0c, 0x01, 0xff, 0xff, 0x01, 0x60, 0x00, 0x00, 0x00, 0xb0, 0x00, 0x00, 0x00, 0x00, 0x00, 0x5d, 0xac, 0x59])).val?.isSome = true := by
  decide +kernel

end H265
