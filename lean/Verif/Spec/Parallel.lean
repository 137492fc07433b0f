/-
Specification for C96: a stream parsed in segments by several workers at the same time.  Not a model of code: a user of the library.
-/
import Verif.Spec.Sharing
import Verif.Spec.History

set_option autoImplicit false

namespace H265.Spec
open H265

/-- NAL units with type VPS, SPS or PPS in their header -/
def isParameterSet (x : List UInt8) : Bool :=
  match rawHeader x with
  | some h => decide (32 ≤ h.nal_unit_type ∧ h.nal_unit_type ≤ 34)
  | none => false

/-- First pass: only the parameter sets are parsed; the parser state is copied at the beginning of every segment.  (`sts`: these copies; then the state at the end.) -/
inductive Snapshots (cs : Bool) : ParserState → List (List (List UInt8)) → List ParserState → ParserState → Prop
  | nil (st : ParserState) : Snapshots cs st [] [] st
  | cons {st st1 st2 : ParserState} {seg : List (List UInt8)} {segs : List (List (List UInt8))} {sts : List ParserState} {os : List (Option NalUnit)} :
      nalResults cs (seg.filter isParameterSet) st = .ok (os, st1) → Snapshots cs st1 segs sts st2 → Snapshots cs st (seg :: segs) (st :: sts) st2

/-- one segment being parsed: the NAL units left, what was reported, and the parser state of its own -/
structure Job where
  todo : List (List UInt8)
  out : List (Option NalUnit)
  mem : ParserState

/-- Second pass: some job, it does not matter which, parses its next NAL unit. -/
inductive PoolStep (cs : Bool) : List Job → List Job → Prop
  | mk {p : List Job} {i : Nat} {x : List UInt8} {rest : List (List UInt8)} {out : List (Option NalUnit)} {mem m : ParserState} {o : Option NalUnit} :
      p[i]? = some ⟨x :: rest, out, mem⟩ → nalResults cs [x] mem = .ok ([o], m) → PoolStep cs p (p.set i ⟨rest, out ++ [o], m⟩)

/-- all ways the second pass can go -/
inductive PoolReaches (cs : Bool) (p : List Job) : List Job → Prop
  | start : PoolReaches cs p p
  | step {q q' : List Job} : PoolReaches cs p q → PoolStep cs q q' → PoolReaches cs p q'

/-- the jobs at the beginning of the second pass -/
def startJobs (segs : List (List (List UInt8))) (sts : List ParserState) : List Job := (segs.zip sts).map fun x => ⟨x.1, [], x.2⟩

end H265.Spec
