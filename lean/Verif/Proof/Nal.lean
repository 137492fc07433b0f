/- NAL unit payloads: what is returned and how the parser state changes. -/
import Verif.Model.Nal
import Verif.Proof.Run
import Verif.Props.Slice
import Verif.Props.Sei
import Verif.Props.Vps
import Verif.Props.Sps
import Verif.Props.Pps
import Verif.Props.Headers

namespace H265
open Spec

/-- NAL unit types that carry a slice segment -/
def sliceType (t : Nat) : Prop := t ≤ 9 ∨ (16 ≤ t ∧ t ≤ 21)

theorem sliceType_iff (t : Nat) : sliceType t ↔ isSliceSegment t = true := by
  unfold sliceType isSliceSegment
  simp only [List.contains_iff_mem, List.mem_cons, List.not_mem_nil, or_false]
  omega

instance (t : Nat) : Decidable (sliceType t) := by unfold sliceType; infer_instance

/-- what a parser returned, if anything, and where it left the reader -/
def Returned {α : Type} (p : Prog α) (bb : BB) (o : Option α) (bb' : BB) : Prop :=
  match o with
  | some a => p.run bb = .ok a bb'
  | none => p.run bb = .fail bb'

theorem attempt_ok {α β : Type} {p : Prog α} {f : Option α → β} {bb bb' : BB} {b : β}
    (h : (p.attempt.bind fun o => Prog.ret (f o)).run bb = .ok b bb') : ∃ o, Returned p bb o bb' ∧ b = f o := by
  rw [Prog.run_bind, Prog.run_attempt] at h
  cases hp : p.run bb with
  | ok a b1 => rw [hp] at h; cases h; exact ⟨some a, hp, rfl⟩
  | fail b1 => rw [hp] at h; cases h; exact ⟨none, hp, rfl⟩
  | bad k => rw [hp] at h; cases h

theorem attempt_bad {α β : Type} {p : Prog α} {f : Option α → β} {bb : BB} {k : Bad}
    (h : (p.attempt.bind fun o => Prog.ret (f o)).run bb = .bad k) : p.run bb = .bad k := by
  rw [Prog.run_bind, Prog.run_attempt] at h
  cases hp : p.run bb with
  | ok a b1 => rw [hp] at h; cases h
  | fail b1 => rw [hp] at h; cases h
  | bad k => rw [hp] at h; cases h; rfl

theorem attempt_not_fail {α β : Type} {p : Prog α} {f : Option α → β} {bb b' : BB} :
    (p.attempt.bind fun o => Prog.ret (f o)).run bb ≠ .fail b' := by
  intro h
  rw [Prog.run_bind, Prog.run_attempt] at h
  cases hp : p.run bb with
  | ok a b1 => rw [hp] at h; cases h
  | fail b1 => rw [hp] at h; cases h
  | bad k => rw [hp] at h; cases h

theorem parseNalUnitPayload_eq (t : Nat) (st : ParserState) :
    parseNalUnitPayload t st =
      if sliceType t then (parseSliceSegmentLayer t st.pps st.sps).attempt.bind fun o => Prog.ret ({ slice_segment_layer := o }, st)
      else if t = 32 then parseVps.attempt.bind fun o => Prog.ret (vpsOut st o)
      else if t = 33 then parseSps.attempt.bind fun o => Prog.ret (spsOut st o)
      else if t = 34 then parsePps.attempt.bind fun o => Prog.ret (ppsOut st o)
      else if t = 35 then parseAud.attempt.bind fun o => Prog.ret ({ aud := o }, st)
      else if t = 39 ∨ t = 40 then parseSei.attempt.bind fun o => Prog.ret ({ sei := o }, st)
      else Prog.ret ({}, st) := by
  unfold parseNalUnitPayload sliceType
  rfl

/-- The payload that belongs to a NAL unit type, and the resulting state. -/
inductive PayloadOf (t : Nat) (st : ParserState) (bb bb' : BB) : NalUnitPayload → ParserState → Prop
  | slice (o) : sliceType t → Returned (parseSliceSegmentLayer t st.pps st.sps) bb o bb' → PayloadOf t st bb bb' { slice_segment_layer := o } st
  | vps (o) : t = 32 → Returned parseVps bb o bb' → PayloadOf t st bb bb' (vpsOut st o).1 (vpsOut st o).2
  | sps (o) : t = 33 → Returned parseSps bb o bb' → PayloadOf t st bb bb' (spsOut st o).1 (spsOut st o).2
  | pps (o) : t = 34 → Returned parsePps bb o bb' → PayloadOf t st bb bb' (ppsOut st o).1 (ppsOut st o).2
  | aud (o) : t = 35 → Returned parseAud bb o bb' → PayloadOf t st bb bb' { aud := o } st
  | sei (o) : t = 39 ∨ t = 40 → Returned parseSei bb o bb' → PayloadOf t st bb bb' { sei := o } st
  | other : ¬ sliceType t → t ∉ [32, 33, 34, 35, 39, 40] → bb' = bb → PayloadOf t st bb bb' {} st

theorem payload_cases {t : Nat} {st st' : ParserState} {bb bb' : BB} {p : NalUnitPayload}
    (h : (parseNalUnitPayload t st).run bb = .ok (p, st') bb') : PayloadOf t st bb bb' p st' := by
  rw [parseNalUnitPayload_eq] at h
  by_cases h1 : sliceType t
  · rw [if_pos h1] at h
    obtain ⟨o, ho, he⟩ := attempt_ok h
    cases he; exact .slice o h1 ho
  rw [if_neg h1] at h
  by_cases h2 : t = 32
  · rw [if_pos h2] at h
    obtain ⟨o, ho, he⟩ := attempt_ok h
    rw [show p = (vpsOut st o).1 from congrArg Prod.fst he, show st' = (vpsOut st o).2 from congrArg Prod.snd he]
    exact .vps o h2 ho
  rw [if_neg h2] at h
  by_cases h3 : t = 33
  · rw [if_pos h3] at h
    obtain ⟨o, ho, he⟩ := attempt_ok h
    rw [show p = (spsOut st o).1 from congrArg Prod.fst he, show st' = (spsOut st o).2 from congrArg Prod.snd he]
    exact .sps o h3 ho
  rw [if_neg h3] at h
  by_cases h4 : t = 34
  · rw [if_pos h4] at h
    obtain ⟨o, ho, he⟩ := attempt_ok h
    rw [show p = (ppsOut st o).1 from congrArg Prod.fst he, show st' = (ppsOut st o).2 from congrArg Prod.snd he]
    exact .pps o h4 ho
  rw [if_neg h4] at h
  by_cases h5 : t = 35
  · rw [if_pos h5] at h
    obtain ⟨o, ho, he⟩ := attempt_ok h
    cases he; exact .aud o h5 ho
  rw [if_neg h5] at h
  by_cases h6 : t = 39 ∨ t = 40
  · rw [if_pos h6] at h
    obtain ⟨o, ho, he⟩ := attempt_ok h
    cases he; exact .sei o h6 ho
  rw [if_neg h6] at h
  cases h
  exact .other h1 (by simp; omega) rfl

theorem payload_not_fail {t : Nat} {st : ParserState} {bb b' : BB} : (parseNalUnitPayload t st).run bb ≠ .fail b' := by
  rw [parseNalUnitPayload_eq]
  repeat' split
  all_goals first
    | exact attempt_not_fail
    | (intro h; cases h)

/-- The readers after a parse are valid again. -/
theorem run_wf {α : Type} {p : Prog α} {bb : BB} (h : bb.WF) : match p.run bb with
    | .ok _ b => b.WF ∧ b.bytes = bb.bytes
    | .fail b => b.WF ∧ b.bytes = bb.bytes
    | .bad _ => True := by
  have hag := Prog.run_agrees p bb h
  revert hag
  cases p.denote bb.rem <;> cases p.run bb <;> simp only [Prog.Agrees] <;> intro h
  all_goals first
    | exact h.elim
    | exact ⟨h.2.1, h.2.2.1⟩
    | exact ⟨h.1, h.2.1⟩
    | trivial

theorem run_ok_wf {α : Type} {p : Prog α} {bb b : BB} {a : α} (h : bb.WF) (hr : p.run bb = .ok a b) : b.WF ∧ b.bytes = bb.bytes := by
  have := run_wf (p := p) h; rw [hr] at this; exact this

theorem run_fail_wf {α : Type} {p : Prog α} {bb b : BB} (h : bb.WF) (hr : p.run bb = .fail b) : b.WF ∧ b.bytes = bb.bytes := by
  have := run_wf (p := p) h; rw [hr] at this; exact this

end H265
