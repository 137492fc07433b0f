/- C96: a stream parsed in segments at the same time. -/
import Verif.Spec.Parallel
import Verif.Props.Recording

set_option autoImplicit false

namespace H265
open Spec Std

/-- only the parameter sets change the state -/
theorem results_parameter_sets {cs : Bool} : ∀ {l : List (List UInt8)} {a b : ParserState} {rs : List (Option NalUnit)}, nalResults cs l a = .ok (rs, b) →
    ∃ os, nalResults cs (l.filter isParameterSet) a = .ok (os, b)
  | [], a, b, rs, h => by cases h; exact ⟨[], rfl⟩
  | x :: l, a, b, rs, h => by
    obtain ⟨o, os, rfl, g, k⟩ := results_cons h
    obtain ⟨os', k'⟩ := results_parameter_sets k
    rw [List.filter_cons]
    split
    · exact ⟨_, results_cons_mk g k'⟩
    · rename_i hx
      have : effect a (payloadOf o) = a := by
        cases g with
        | null _ => rfl
        | @unit n a' e g =>
          have hh := header_of_parsed g
          simp only [isParameterSet, hh, decide_eq_true_eq] at hx
          have := (C22_nal_unit g).2 (by simp only [List.mem_cons, List.not_mem_nil, or_false]; omega)
          exact (nal_effect g).symm.trans this
      rw [this] at k'
      exact ⟨_, k'⟩

/-- what each segment gives -/
theorem segments {cs : Bool} : ∀ {segs : List (List (List UInt8))} {a b : ParserState} {rs : List (Option NalUnit)}, nalResults cs segs.flatten a = .ok (rs, b) →
    ∃ (sts : List ParserState) (R : List (List (Option NalUnit) × ParserState)), Snapshots cs a segs sts b ∧ sts.length = segs.length ∧ R.length = segs.length ∧
      (R.map (·.1)).flatten = rs ∧
      (∀ (i : Nat) (seg : List (List UInt8)) (st : ParserState) (r : List (Option NalUnit) × ParserState), segs[i]? = some seg → sts[i]? = some st → R[i]? = some r → nalResults cs seg st = .ok (r.1, r.2)) ∧
      (∀ r : List (Option NalUnit) × ParserState, R.getLast? = some r → r.2 = b)
  | [], a, b, rs, h => by
    cases h
    exact ⟨[], [], .nil _, rfl, rfl, rfl, fun i seg st r h => (by cases h), fun r h => (by cases h)⟩
  | seg :: segs, a, b, rs, h => by
    rw [List.flatten_cons] at h
    obtain ⟨r1, r2, c, rfl, k1, k2⟩ := results_split h
    obtain ⟨sts, R, s1, s2, s3, s4, s5, s6⟩ := segments k2
    obtain ⟨os, k3⟩ := results_parameter_sets k1
    refine ⟨a :: sts, (r1, c) :: R, .cons k3 s1, by simp [s2], by simp [s3], by simp [s4], ?_, ?_⟩
    · intro i sg st r h1 h2 h3
      cases i with
      | zero => cases h1; cases h2; cases h3; exact k1
      | succ i => exact s5 i sg st r h1 h2 h3
    · intro r hr
      cases R with
      | nil =>
        cases hr
        have : segs = [] := List.length_eq_zero_iff.mp s3.symm
        subst this
        cases k2; rfl
      | cons r' R => rw [List.getLast?_cons_cons] at hr; exact s6 r hr

theorem Spec.Snapshots.det {cs : Bool} {a : ParserState} {segs : List (List (List UInt8))} {sts : List ParserState} {b : ParserState} (h : Snapshots cs a segs sts b) :
    ∀ {sts' : List ParserState} {b' : ParserState}, Snapshots cs a segs sts' b' → sts' = sts ∧ b' = b := by
  induction h with
  | nil st => intro sts' b' h'; cases h'; exact ⟨rfl, rfl⟩
  | cons h1 _ ih =>
    intro sts' b' h'
    cases h' with
    | cons h1' h2' =>
      rw [h1] at h1'
      cases h1'
      obtain ⟨e1, e2⟩ := ih h2'
      exact ⟨by rw [e1], e2⟩

/-- each job is on its way to the results of its segment -/
structure OnWay (cs : Bool) (R : List (List (Option NalUnit) × ParserState)) (p : List Job) : Prop where
  length : p.length = R.length
  job : ∀ (i : Nat) (j : Job) (r : List (Option NalUnit) × ParserState), p[i]? = some j → R[i]? = some r → ∃ os, nalResults cs j.todo j.mem = .ok (os, r.2) ∧ j.out ++ os = r.1

theorem OnWay.step {cs : Bool} {R : List (List (Option NalUnit) × ParserState)} {p q : List Job} (h : OnWay cs R p) (hs : PoolStep cs p q) : OnWay cs R q := by
  cases hs with
  | @mk i x rest out mem m o hp hx =>
    refine ⟨by rw [List.length_set]; exact h.length, fun k j r hj hr => ?_⟩
    rw [List.getElem?_set] at hj
    split at hj
    · rename_i hik
      subst hik
      split at hj
      · cases hj
        obtain ⟨os, h1, h2⟩ := h.job _ _ _ hp hr
        obtain ⟨o', os', rfl, g, k⟩ := results_cons h1
        obtain ⟨g', rfl⟩ := single hx
        cases g.det g'
        exact ⟨os', k, by simpa using h2⟩
      · cases hj
    · exact h.job k j r hj hr

theorem OnWay.reaches {cs : Bool} {R : List (List (Option NalUnit) × ParserState)} {p q : List Job} (h : OnWay cs R p) (hs : PoolReaches cs p q) : OnWay cs R q := by
  induction hs with
  | start => exact h
  | step _ h2 ih => exact ih.step h2

theorem outs_done {cs : Bool} {R : List (List (Option NalUnit) × ParserState)} {p : List Job} (h : OnWay cs R p) (hd : ∀ j ∈ p, j.todo = []) :
    p.map (·.out) = R.map (·.1) ∧ p.map (·.mem) = R.map (·.2) := by
  have key : ∀ (i : Nat) (j : Job) (r : List (Option NalUnit) × ParserState), p[i]? = some j → R[i]? = some r → j.out = r.1 ∧ j.mem = r.2 := by
    intro i j r hj hr
    obtain ⟨os, h1, h2⟩ := h.job i j r hj hr
    rw [hd j (List.mem_of_getElem? hj)] at h1
    simp only [nalResults, Except.ok.injEq, Prod.mk.injEq] at h1
    obtain ⟨rfl, h1⟩ := h1
    exact ⟨by simpa using h2, h1⟩
  have ext : ∀ {α : Type} (f : Job → α) (g : List (Option NalUnit) × ParserState → α), (∀ (i : Nat) (j : Job) (r : List (Option NalUnit) × ParserState), p[i]? = some j → R[i]? = some r → f j = g r) → p.map f = R.map g := by
    intro α f g hfg
    apply List.ext_getElem?
    intro i
    rw [List.getElem?_map, List.getElem?_map]
    by_cases hi : i < p.length
    · have hi2 : i < R.length := h.length ▸ hi
      rw [List.getElem?_eq_getElem hi, List.getElem?_eq_getElem hi2]
      exact congrArg some (hfg i _ _ (List.getElem?_eq_getElem hi) (List.getElem?_eq_getElem hi2))
    · rw [List.getElem?_eq_none (by omega), List.getElem?_eq_none (by have := h.length; omega)]
      rfl
  exact ⟨ext _ _ fun i j r a b => (key i j r a b).1, ext _ _ fun i j r a b => (key i j r a b).2⟩

theorem zip_get {α β : Type} {l : List α} {m : List β} {i : Nat} {z : α × β} (h : (l.zip m)[i]? = some z) : l[i]? = some z.1 ∧ m[i]? = some z.2 := by
  obtain ⟨a, b⟩ := z
  exact List.getElem?_zip_eq_some.mp h

theorem on_way_start {cs : Bool} {segs : List (List (List UInt8))} {sts : List ParserState} {R : List (List (Option NalUnit) × ParserState)} (h1 : sts.length = segs.length)
    (h2 : R.length = segs.length)
    (h3 : ∀ (i : Nat) (seg : List (List UInt8)) (st : ParserState) (r : List (Option NalUnit) × ParserState), segs[i]? = some seg → sts[i]? = some st → R[i]? = some r → nalResults cs seg st = .ok (r.1, r.2)) : OnWay cs R (startJobs segs sts) := by
  refine ⟨by simp [startJobs, h1, h2], fun i j r hj hr => ?_⟩
  unfold startJobs at hj
  rw [List.getElem?_map, Option.map_eq_some_iff] at hj
  obtain ⟨z, hz, rfl⟩ := hj
  obtain ⟨z1, z2⟩ := zip_get hz
  exact ⟨r.1, h3 i _ _ _ z1 z2 hr, rfl⟩

/-- **C96.**  However the stream is cut into segments and however the workers are scheduled: when all are done, the reports put together are those of parsing the stream in order. -/
theorem C96_parallel {cs : Bool} {segs : List (List (List UInt8))} {a b : ParserState} {rs : List (Option NalUnit)} (h : nalResults cs segs.flatten a = .ok (rs, b))
    {sts : List ParserState} {b' : ParserState} (hs : Snapshots cs a segs sts b') {q : List Job} (hq : PoolReaches cs (startJobs segs sts) q) (hd : ∀ j ∈ q, j.todo = []) :
    (q.map (·.out)).flatten = rs ∧ b' = b ∧ ∀ j, q.getLast? = some j → j.mem = b := by
  obtain ⟨sts', R, s1, s2, s3, s4, s5, s6⟩ := segments h
  obtain ⟨rfl, rfl⟩ := s1.det hs
  have hw := (on_way_start s2 s3 s5).reaches hq
  obtain ⟨e1, e2⟩ := outs_done hw hd
  refine ⟨by rw [e1]; exact s4, rfl, fun j hj => ?_⟩
  have : (q.map (·.mem)).getLast? = some j.mem := by rw [List.getLast?_map, hj]; rfl
  rw [e2, List.getLast?_map, Option.map_eq_some_iff] at this
  obtain ⟨r, r1, r2⟩ := this
  exact r2.symm.trans (s6 r r1)

/-- **C96**, nothing stands in the way: the first pass can be made, and whatever was done before, a job that is not done can go on. -/
theorem C96_goes_on {cs : Bool} {segs : List (List (List UInt8))} {a b : ParserState} {rs : List (Option NalUnit)} (h : nalResults cs segs.flatten a = .ok (rs, b)) :
    (∃ sts, Snapshots cs a segs sts b ∧ sts.length = segs.length) ∧
    ∀ {sts : List ParserState} {b' : ParserState}, Snapshots cs a segs sts b' → ∀ {q : List Job}, PoolReaches cs (startJobs segs sts) q →
      q.length = segs.length ∧ ∀ (i : Nat) (j : Job), q[i]? = some j → j.todo ≠ [] → ∃ q', PoolStep cs q q' ∧ ∃ j', q'[i]? = some j' ∧ j'.todo.length + 1 = j.todo.length := by
  obtain ⟨sts0, R, s1, s2, s3, s4, s5, s6⟩ := segments h
  refine ⟨⟨sts0, s1, s2⟩, fun {sts b'} hs {q} hq => ?_⟩
  obtain ⟨rfl, rfl⟩ := s1.det hs
  have hw := (on_way_start s2 s3 s5).reaches hq
  refine ⟨hw.length.trans s3, fun i j hj hne => ?_⟩
  obtain ⟨todo, out, mem⟩ := j
  have hi : i < q.length := (List.getElem?_eq_some_iff.mp hj).1
  have hi2 : i < R.length := hw.length ▸ hi
  obtain ⟨os, k1, _⟩ := hw.job i _ _ hj (List.getElem?_eq_getElem hi2)
  cases todo with
  | nil => exact absurd rfl hne
  | cons x rest =>
    obtain ⟨o, os', _, g, _⟩ := results_cons k1
    exact ⟨_, .mk hj (results_cons_mk g rfl), _, by rw [List.getElem?_set_self hi], rfl⟩

/-! ### a concrete case: two slices, each a segment of its own -/

/-- the stream of the examples before, cut behind the SPS and between the slices -/
def exSegments : List (List (List UInt8)) := [(exBytes.take 2).map escape, ((exBytes.drop 2).take 2).map escape, (exBytes.drop 4).map escape]

example : (nalResults true exSegments.flatten .empty).toOption.isSome = true := by decide +kernel

/-- the third segment with the state from the first pass over the parameter sets in front of it, and with an empty one -/
example : (match nalResults true ((exSegments.take 2).flatten.filter isParameterSet) .empty with
      | .ok (os, st) => (os.length, exDeltas (nalResults true (exSegments.getD 2 []) st))
      | .error _ => (0, [])) = (3, [-3]) ∧
    exDeltas (nalResults true exSegments.flatten .empty) = [9, -3] ∧ exDeltas (nalResults true (exSegments.getD 2 []) .empty) = [] := by
  decide +kernel

end H265
