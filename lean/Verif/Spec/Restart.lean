/-
Specification for C94: a program that survives being killed.  Not a model of code: a user of the library that keeps on disk what it needs to go on.
-/
import Verif.Spec.Sharing

set_option autoImplicit false

namespace H265.Spec
open H265

inductive SetKind
  | vps | sps | pps
deriving DecidableEq

/-- kind and id of a parameter set -/
abbrev SetKey := SetKind × Nat

/-- kind and id of the parameter set reported for a NAL unit -/
def keyOf (n : NalUnit) : Option SetKey :=
  match n.nal_unit_payload.vps, n.nal_unit_payload.sps, n.nal_unit_payload.pps with
  | some x, _, _ => some (.vps, x.body.vps_video_parameter_set_id)
  | none, some x, _ => some (.sps, x.body.sps_seq_parameter_set_id)
  | none, none, some x => some (.pps, x.body.head.pps_pic_parameter_set_id)
  | none, none, none => none

/-- for each kind and id the bytes of the last NAL unit for which such a parameter set was reported -/
abbrev Journal := List (SetKey × List UInt8)

def Journal.put (j : Journal) (x : List UInt8) : Option NalUnit → Journal
  | some n =>
    match keyOf n with
    | some k => (k, x) :: j.filter fun e => e.1 ≠ k
    | none => j
  | none => j

/-- The program: on disk the number of NAL units done, what was reported for them, and the journal; in memory the parser state. -/
structure Daemon where
  pos : Nat
  reported : List (Option NalUnit)
  journal : Journal
  mem : ParserState

/-- After a restart the NAL units of the journal are parsed, in any order (also repeatedly), beginning with an empty parser state. -/
def Restarts (cs : Bool) (j : Journal) (m : ParserState) : Prop :=
  ∃ (l : Journal) (os : List (Option NalUnit)), (∀ e, e ∈ l ↔ e ∈ j) ∧ nalResults cs (l.map (·.2)) .empty = .ok (os, m)

/-- What can happen.  `work`: the next NAL unit is parsed, and all is written to disk.  `crash`: the program is killed (also in the middle of parsing or of an
earlier restart) and restarted.  `torn`: it is killed when the journal was written, but not yet the report and the position. -/
inductive Daemon.Step (cs : Bool) (units : List (List UInt8)) : Daemon → Daemon → Prop
  | work {s : Daemon} {x : List UInt8} {o : Option NalUnit} {m : ParserState} :
      units[s.pos]? = some x → nalResults cs [x] s.mem = .ok ([o], m) → Step cs units s ⟨s.pos + 1, s.reported ++ [o], s.journal.put x o, m⟩
  | crash {s : Daemon} {m : ParserState} : Restarts cs s.journal m → Step cs units s { s with mem := m }
  | torn {s : Daemon} {x : List UInt8} {o : Option NalUnit} {m m' : ParserState} :
      units[s.pos]? = some x → nalResults cs [x] s.mem = .ok ([o], m) → Restarts cs (s.journal.put x o) m' →
      Step cs units s { s with journal := s.journal.put x o, mem := m' }

/-- what the program can get to from its first start -/
inductive Daemon.Reaches (cs : Bool) (units : List (List UInt8)) : Daemon → Prop
  | start : Reaches cs units ⟨0, [], [], .empty⟩
  | step {s s' : Daemon} : Reaches cs units s → Daemon.Step cs units s s' → Reaches cs units s'

end H265.Spec
