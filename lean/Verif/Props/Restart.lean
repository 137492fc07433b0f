/- C94: a program that is killed and goes on from its journal. -/
import Verif.Spec.Restart
import Verif.Props.Damage

set_option autoImplicit false

namespace H265
open Spec Std

/-- a parameter set of any kind -/
inductive AnySet
  | vps (x : Vps)
  | sps (x : Sps)
  | pps (x : Pps)

/-- the parameter set under a kind and id -/
def setAt (m : ParserState) : SetKey → Option AnySet
  | (.vps, i) => (m.vps i).map .vps
  | (.sps, i) => (m.sps i).map .sps
  | (.pps, i) => (m.pps i).map .pps

theorem setAt_ext {a b : ParserState} (h : ∀ k, setAt a k = setAt b k) : a = b := by
  have inj : ∀ {α : Type} {f : α → AnySet} (hf : ∀ x y, f x = f y → x = y) {o o' : Option α}, o.map f = o'.map f → o = o' := by
    intro α f hf o o' h
    cases o <;> cases o' <;> simp at h ⊢
    exact hf _ _ h
  obtain ⟨v, s, p⟩ := a
  obtain ⟨v', s', p'⟩ := b
  have h1 : v = v' := funext fun i => inj (f := AnySet.vps) (fun _ _ h => by cases h; rfl) (h (.vps, i))
  have h2 : s = s' := funext fun i => inj (f := AnySet.sps) (fun _ _ h => by cases h; rfl) (h (.sps, i))
  have h3 : p = p' := funext fun i => inj (f := AnySet.pps) (fun _ _ h => by cases h; rfl) (h (.pps, i))
  rw [h1, h2, h3]

/-- the parameter set in a NAL unit, with kind and id -/
def setIn (p : NalUnitPayload) : Option (SetKey × AnySet) :=
  match p.vps, p.sps, p.pps with
  | some x, _, _ => some ((.vps, x.body.vps_video_parameter_set_id), .vps x)
  | none, some x, _ => some ((.sps, x.body.sps_seq_parameter_set_id), .sps x)
  | none, none, some x => some ((.pps, x.body.head.pps_pic_parameter_set_id), .pps x)
  | none, none, none => none

theorem keyOf_eq (n : NalUnit) : keyOf n = (setIn n.nal_unit_payload).map (·.1) := by
  unfold keyOf setIn
  cases n.nal_unit_payload.vps <;> cases n.nal_unit_payload.sps <;> cases n.nal_unit_payload.pps <;> rfl

/-- at most one parameter set -/
inductive OneSet (p : NalUnitPayload) : Prop
  | vps (x : Vps) : p.vps = some x → p.sps = none → p.pps = none → OneSet p
  | sps (x : Sps) : p.vps = none → p.sps = some x → p.pps = none → OneSet p
  | pps (x : Pps) : p.vps = none → p.sps = none → p.pps = some x → OneSet p
  | none : NoSets p → OneSet p

theorem nal_types {cs : Bool} {a a' : ParserState} {x : List UInt8} {n : NalUnit} {e : BB} (h : parseNalUnit cs a x = .ok (n, a') e) :
    (∀ y, n.nal_unit_payload.vps = some y → n.nal_unit_header.nal_unit_type = 32) ∧
    (∀ y, n.nal_unit_payload.sps = some y → n.nal_unit_header.nal_unit_type = 33) ∧
    (∀ y, n.nal_unit_payload.pps = some y → n.nal_unit_header.nal_unit_type = 34) := by
  obtain ⟨rbsp, hu, hp⟩ := parseNalUnit_ok h
  obtain ⟨b1, _, _, h2, _⟩ := hp.parts
  obtain ⟨d1, d2, d3, _⟩ := C21_payload h2
  exact ⟨fun y hy => (d1 y hy).1, fun y hy => (d2 y hy).1, fun y hy => (d3 y hy).1⟩

theorem nal_one {cs : Bool} {a a' : ParserState} {x : List UInt8} {n : NalUnit} {e : BB} (h : parseNalUnit cs a x = .ok (n, a') e) : OneSet n.nal_unit_payload := by
  obtain ⟨t1, t2, t3⟩ := nal_types h
  cases hv : n.nal_unit_payload.vps with
  | some v =>
    have := t1 v hv
    refine .vps v hv ?_ ?_
    · cases hs : n.nal_unit_payload.sps with
      | none => rfl
      | some s => have := t2 s hs; omega
    · cases hs : n.nal_unit_payload.pps with
      | none => rfl
      | some s => have := t3 s hs; omega
  | none =>
    cases hs : n.nal_unit_payload.sps with
    | some s =>
      have := t2 s hs
      refine .sps s hv hs ?_
      cases hs : n.nal_unit_payload.pps with
      | none => rfl
      | some s => have := t3 s hs; omega
    | none =>
      cases hp : n.nal_unit_payload.pps with
      | some q => exact .pps q hv hs hp
      | none => exact .none ⟨hv, hs, hp⟩

theorem setAt_effect (a : ParserState) {p : NalUnitPayload} (h : OneSet p) (k : SetKey) :
    setAt (effect a p) k = match setIn p with | some (k', v) => if k = k' then some v else setAt a k | none => setAt a k := by
  obtain ⟨kind, i⟩ := k
  cases h with
  | vps x h1 h2 h3 =>
    simp only [setIn, effect, h1, h2, h3]
    cases kind
    · by_cases hi : i = x.body.vps_video_parameter_set_id
      · subst hi; rw [if_pos rfl]; simp only [setAt, mapSet_id, Option.map_some]
      · rw [if_neg (by simp [hi])]; simp only [setAt, mapSet_ne _ _ hi]
    · rw [if_neg (by simp)]; rfl
    · rw [if_neg (by simp)]; rfl
  | sps x h1 h2 h3 =>
    simp only [setIn, effect, h1, h2, h3]
    cases kind
    · rw [if_neg (by simp)]; rfl
    · by_cases hi : i = x.body.sps_seq_parameter_set_id
      · subst hi; rw [if_pos rfl]; simp only [setAt, mapSet_id, Option.map_some]
      · rw [if_neg (by simp [hi])]; simp only [setAt, mapSet_ne _ _ hi]
    · rw [if_neg (by simp)]; rfl
  | pps x h1 h2 h3 =>
    simp only [setIn, effect, h1, h2, h3]
    cases kind
    · rw [if_neg (by simp)]; rfl
    · rw [if_neg (by simp)]; rfl
    · by_cases hi : i = x.body.head.pps_pic_parameter_set_id
      · subst hi; rw [if_pos rfl]; simp only [setAt, mapSet_id, Option.map_some]
      · rw [if_neg (by simp [hi])]; simp only [setAt, mapSet_ne _ _ hi]
  | none h => rw [effect_none h]; simp only [setIn, h.1, h.2.1, h.2.2]

theorem set_not_slice {cs : Bool} {a a' : ParserState} {x : List UInt8} {n : NalUnit} {e : BB} (h : parseNalUnit cs a x = .ok (n, a') e)
    (hs : ¬ NoSets n.nal_unit_payload) : isSliceSegment n.nal_unit_header.nal_unit_type = false := by
  cases ht : isSliceSegment n.nal_unit_header.nal_unit_type with
  | false => rfl
  | true => exact absurd (slice_no_sets h ht) hs

theorem setIn_sets {p : NalUnitPayload} {s : SetKey × AnySet} (h : setIn p = some s) : ¬ NoSets p := by
  rintro ⟨h1, h2, h3⟩
  simp [setIn, h1, h2, h3] at h

/-- the journal tells what is in the state -/
structure Rep (cs : Bool) (j : Journal) (m : ParserState) : Prop where
  sound : ∀ e ∈ j, ∃ n ev a' v, parseNalUnit cs .empty e.2 = .ok (n, a') ev ∧ setIn n.nal_unit_payload = some (e.1, v) ∧ setAt m e.1 = some v
  all : ∀ k, setAt m k ≠ none → ∃ e ∈ j, e.1 = k
  keys : (j.map (·.1)).Nodup

theorem Rep.empty (cs : Bool) : Rep cs [] .empty :=
  ⟨fun _ h => (by cases h), fun k h => by obtain ⟨k, i⟩ := k; cases k <;> exact absurd rfl h, .nil⟩

theorem nodup_filter_keys {j : Journal} (h : (j.map (·.1)).Nodup) (f : SetKey × List UInt8 → Bool) : ((j.filter f).map (·.1)).Nodup :=
  h.sublist (List.filter_sublist.map _)

/-- a NAL unit is parsed and put into the journal -/
theorem Rep.put {cs : Bool} {j : Journal} {m : ParserState} (h : Rep cs j m) {x : List UInt8} {o : Option NalUnit} (g : Gives cs m x o) :
    Rep cs (j.put x o) (effect m (payloadOf o)) := by
  cases g with
  | null _ => exact h
  | @unit n a' e g =>
    have hone := nal_one g
    simp only [Journal.put, keyOf_eq, payloadOf]
    cases hs : setIn n.nal_unit_payload with
    | none =>
      have : NoSets n.nal_unit_payload := by
        cases hone with
        | vps x h1 h2 h3 => simp [setIn, h1] at hs
        | sps x h1 h2 h3 => simp [setIn, h1, h2] at hs
        | pps x h1 h2 h3 => simp [setIn, h1, h2, h3] at hs
        | none h => exact h
      rw [effect_none this]
      exact h
    | some s =>
      obtain ⟨k, v⟩ := s
      have g0 := nal_any_state (b := .empty) g (set_not_slice g (setIn_sets hs))
      simp only [Option.map_some]
      have hl : ∀ k', setAt (effect m n.nal_unit_payload) k' = if k' = k then some v else setAt m k' := by
        intro k'; rw [setAt_effect _ hone, hs]
      refine ⟨fun e' he' => ?_, fun k' hk' => ?_, ?_⟩
      · rcases List.mem_cons.mp he' with rfl | he'
        · exact ⟨n, _, _, v, g0, hs, by rw [hl, if_pos rfl]⟩
        · obtain ⟨hm, hne⟩ := List.mem_filter.mp he'
          obtain ⟨n', ev, a'', v', p1, p2, p3⟩ := h.sound e' hm
          exact ⟨n', ev, a'', v', p1, p2, by rw [hl, if_neg (by simpa using hne)]; exact p3⟩
      · by_cases hkk : k' = k
        · exact ⟨(k, x), .head _, hkk.symm⟩
        · rw [hl, if_neg hkk] at hk'
          obtain ⟨e', he', rfl⟩ := h.all k' hk'
          exact ⟨e', .tail _ (List.mem_filter.mpr ⟨he', by simpa using hkk⟩), rfl⟩
      · rw [List.map_cons, List.nodup_cons]
        refine ⟨fun hm => ?_, nodup_filter_keys h.keys _⟩
        obtain ⟨e', he', hk⟩ := List.mem_map.mp hm
        have := (List.mem_filter.mp he').2
        simp [hk] at this

theorem results_cons_mk {cs : Bool} {x : List UInt8} {rest : List (List UInt8)} {a a' : ParserState} {o : Option NalUnit} {os : List (Option NalUnit)}
    (g : Gives cs a x o) (h : nalResults cs rest (effect a (payloadOf o)) = .ok (os, a')) : nalResults cs (x :: rest) a = .ok (o :: os, a') := by
  cases g with
  | null g =>
    have h : nalResults cs rest a = .ok (os, a') := h
    simp only [nalResults, g, h]
  | unit g =>
    rw [payloadOf, ← nal_effect g] at h
    simp only [nalResults, g, h]

theorem results_append {cs : Bool} {l1 l2 : List (List UInt8)} {b c : ParserState} {r2 : List (Option NalUnit)} (h2 : nalResults cs l2 b = .ok (r2, c)) :
    ∀ {a : ParserState} {r1 : List (Option NalUnit)}, nalResults cs l1 a = .ok (r1, b) → nalResults cs (l1 ++ l2) a = .ok (r1 ++ r2, c) := by
  induction l1 with
  | nil => intro a r1 h; cases h; exact h2
  | cons x l ih =>
    intro a r1 h
    obtain ⟨o, os, rfl, g, k⟩ := results_cons h
    exact results_cons_mk g (ih k)

theorem results_length {cs : Bool} {l : List (List UInt8)} : ∀ {a b : ParserState} {r : List (Option NalUnit)}, nalResults cs l a = .ok (r, b) → r.length = l.length := by
  induction l with
  | nil => intro a b r h; cases h; rfl
  | cons x l ih =>
    intro a b r h
    obtain ⟨o, os, rfl, g, k⟩ := results_cons h
    rw [List.length_cons, List.length_cons, ih k]

/-- parsing the journal in any order gives the state again -/
theorem replay {cs : Bool} {j : Journal} {m : ParserState} (h : Rep cs j m) : ∀ (l : Journal), (∀ e ∈ l, e ∈ j) → ∀ a,
    ∃ os a', nalResults cs (l.map (·.2)) a = .ok (os, a') ∧ (∀ o ∈ os, o.isSome = true) ∧ ∀ k, setAt a' k = if k ∈ l.map (·.1) then setAt m k else setAt a k := by
  intro l
  induction l with
  | nil => intro _ a; exact ⟨[], a, rfl, fun _ h => (by cases h), fun k => (if_neg (by simp)).symm⟩
  | cons e l ih =>
    intro hsub a
    obtain ⟨n, ev, a1, v, p1, p2, p3⟩ := h.sound e (hsub e (.head _))
    have g := nal_any_state (b := a) p1 (set_not_slice p1 (setIn_sets p2))
    have G : Gives cs a e.2 (some n) := .unit g
    obtain ⟨os, a', q1, q2, q3⟩ := ih (fun e he => hsub e (.tail _ he)) (effect a n.nal_unit_payload)
    refine ⟨some n :: os, a', results_cons_mk G q1, ?_, fun k => ?_⟩
    · intro o ho
      rcases List.mem_cons.mp ho with rfl | ho
      · rfl
      · exact q2 o ho
    rw [q3, setAt_effect _ (nal_one p1), p2]
    simp only [List.map_cons, List.mem_cons]
    by_cases h1 : k ∈ l.map (·.1)
    · rw [if_pos h1, if_pos (.inr h1)]
    · rw [if_neg h1]
      by_cases h2 : k = e.1
      · subst h2; rw [if_pos rfl, if_pos (.inl rfl), p3]
      · rw [if_neg h2, if_neg (by simp [h1, h2])]

theorem Rep.restart {cs : Bool} {j : Journal} {m : ParserState} (h : Rep cs j m) {l : Journal} (hl : ∀ e, e ∈ l ↔ e ∈ j) :
    ∃ os, nalResults cs (l.map (·.2)) .empty = .ok (os, m) ∧ ∀ o ∈ os, o.isSome = true := by
  obtain ⟨os, a', h1, h2, h3⟩ := replay h l (fun e he => (hl e).mp he) .empty
  have : a' = m := by
    refine setAt_ext fun k => ?_
    rw [h3]
    split
    · rfl
    · rename_i hk
      have e0 : setAt .empty k = none := by obtain ⟨k, i⟩ := k; cases k <;> rfl
      rw [e0]
      cases hm : setAt m k with
      | none => rfl
      | some v =>
        obtain ⟨e, he, rfl⟩ := h.all k (by rw [hm]; simp)
        exact absurd (List.mem_map.mpr ⟨e, (hl e).mpr he, rfl⟩) hk
  exact ⟨os, this ▸ h1, h2⟩

theorem Rep.restarts {cs : Bool} {j : Journal} {m m' : ParserState} (h : Rep cs j m) (hr : Restarts cs j m') : m' = m := by
  obtain ⟨l, os, hl, h1⟩ := hr
  obtain ⟨os', h2, _⟩ := h.restart hl
  rw [h1] at h2
  cases h2; rfl

theorem effect_twice (a : ParserState) {p : NalUnitPayload} (h : OneSet p) : effect (effect a p) p = effect a p := by
  refine setAt_ext fun k => ?_
  rw [setAt_effect _ h, setAt_effect _ h]
  cases setIn p with
  | none => rfl
  | some s => dsimp only; split <;> rfl

/-- the same bytes again: the same result, and nothing changes -/
theorem Gives.again {cs : Bool} {a : ParserState} {x : List UInt8} {o : Option NalUnit} (g : Gives cs a x o) :
    Gives cs (effect a (payloadOf o)) x o ∧ effect (effect a (payloadOf o)) (payloadOf o) = effect a (payloadOf o) := by
  cases g with
  | null g => exact ⟨.null g, rfl⟩
  | @unit n a' e g =>
    refine ⟨?_, effect_twice _ (nal_one g)⟩
    simp only [payloadOf]
    cases ht : isSliceSegment n.nal_unit_header.nal_unit_type with
    | true => rw [effect_none (slice_no_sets g ht)]; exact .unit g
    | false => exact .unit (nal_any_state g ht)

theorem single {cs : Bool} {a m : ParserState} {x : List UInt8} {o : Option NalUnit} (h : nalResults cs [x] a = .ok ([o], m)) :
    Gives cs a x o ∧ m = effect a (payloadOf o) := by
  obtain ⟨o', os, e, g, k⟩ := results_cons h
  cases e
  cases k
  exact ⟨g, rfl⟩

/-- where the program is: `done` NAL units are done, `todo` are left; in memory is what belongs there, perhaps with the next unit parsed already -/
structure At (cs : Bool) (units : List (List UInt8)) (stF : ParserState) (s : Daemon) : Prop where
  ex : ∃ done todo st os, units = done ++ todo ∧ s.pos = done.length ∧ nalResults cs done .empty = .ok (s.reported, st) ∧
    nalResults cs todo st = .ok (os, stF) ∧ Rep cs s.journal s.mem ∧
    (s.mem = st ∨ ∃ x o, todo.head? = some x ∧ Gives cs st x o ∧ s.mem = effect st (payloadOf o))

theorem at_start {cs : Bool} {units : List (List UInt8)} {rs : List (Option NalUnit)} {stF : ParserState} (h : nalResults cs units .empty = .ok (rs, stF)) :
    At cs units stF ⟨0, [], [], .empty⟩ :=
  ⟨[], units, .empty, rs, rfl, rfl, rfl, h, Rep.empty cs, .inl rfl⟩

/-- the next unit gives in memory what it gives without crashes -/
theorem next_gives {cs : Bool} {st mem : ParserState} {x : List UInt8} {todo : List (List UInt8)} {o : Option NalUnit}
    (hm : mem = st ∨ ∃ y o, (x :: todo).head? = some y ∧ Gives cs st y o ∧ mem = effect st (payloadOf o)) (g : Gives cs st x o) :
    Gives cs mem x o ∧ effect mem (payloadOf o) = effect st (payloadOf o) := by
  rcases hm with rfl | ⟨y, o', h1, h2, rfl⟩
  · exact ⟨g, rfl⟩
  · cases h1
    cases g.det h2
    exact g.again

theorem At.step {cs : Bool} {units : List (List UInt8)} {stF : ParserState} {s s' : Daemon} (h : At cs units stF s) (hs : Daemon.Step cs units s s') :
    At cs units stF s' := by
  obtain ⟨done, todo, st, os, hu, hp, hd, ht, hr, hm⟩ := h.ex
  have key : ∀ {x : List UInt8} {o : Option NalUnit} {m : ParserState}, units[s.pos]? = some x → nalResults cs [x] s.mem = .ok ([o], m) →
      ∃ todo' os', todo = x :: todo' ∧ os = o :: os' ∧ Gives cs st x o ∧ nalResults cs todo' (effect st (payloadOf o)) = .ok (os', stF) ∧ Gives cs s.mem x o ∧
        m = effect st (payloadOf o) ∧ m = effect s.mem (payloadOf o) := by
    intro x o m hx hn
    rw [hu, hp, List.getElem?_append_right (Nat.le_refl _), Nat.sub_self] at hx
    cases todo with
    | nil => cases hx
    | cons y todo' =>
      cases hx
      obtain ⟨o1, os', rfl, g, k⟩ := results_cons ht
      obtain ⟨g1, g2⟩ := next_gives hm g
      obtain ⟨g3, rfl⟩ := single hn
      cases g1.det g3
      exact ⟨todo', os', rfl, rfl, g, k, g1, g2, rfl⟩
  cases hs with
  | @work x o m hx hn =>
    obtain ⟨todo', os', rfl, rfl, g, k, g1, e1, e2⟩ := key hx hn
    refine ⟨done ++ [x], todo', effect st (payloadOf o), os', by simp [hu], by simp [hp], results_append (results_cons_mk g rfl) hd, k, ?_, .inl e1⟩
    show Rep cs (s.journal.put x o) m
    rw [e2]; exact hr.put g1
  | @crash m hc =>
    have := hr.restarts hc
    subst this
    exact h
  | @torn x o m m' hx hn hc =>
    obtain ⟨todo', os', rfl, rfl, g, k, g1, e1, e2⟩ := key hx hn
    have hr' := hr.put g1
    have := hr'.restarts hc
    refine ⟨done, x :: todo', st, o :: os', hu, hp, hd, ht, ?_, .inr ⟨x, o, rfl, g, ?_⟩⟩
    · show Rep cs (s.journal.put x o) m'
      rw [this]; exact hr'
    · show m' = _
      rw [this, ← e2, e1]

theorem reaches_at {cs : Bool} {units : List (List UInt8)} {rs : List (Option NalUnit)} {stF : ParserState} (h : nalResults cs units .empty = .ok (rs, stF))
    {s : Daemon} (hs : Daemon.Reaches cs units s) : At cs units stF s := by
  induction hs with
  | start => exact at_start h
  | step _ h2 ih => exact ih.step h2

/-- **C94.**  Whenever and however often the program was killed: what is on disk is what is reported without crashes. -/
theorem C94_restart {cs : Bool} {units : List (List UInt8)} {rs : List (Option NalUnit)} {stF : ParserState} (h : nalResults cs units .empty = .ok (rs, stF))
    {s : Daemon} (hs : Daemon.Reaches cs units s) :
    s.pos ≤ units.length ∧ s.reported = rs.take s.pos ∧ (s.pos = units.length → s.reported = rs ∧ s.mem = stF) := by
  obtain ⟨done, todo, st, os, hu, hp, hd, ht, hr, hm⟩ := (reaches_at h hs).ex
  have hall := results_append ht hd
  rw [← hu, h] at hall
  cases hall
  have hlen := results_length hd
  refine ⟨by rw [hu, hp, List.length_append]; omega, by rw [hp, ← hlen, List.take_left'] ; rfl, fun he => ?_⟩
  have ht0 : todo = [] := by
    rw [hu, hp, List.length_append] at he
    exact List.length_eq_zero_iff.mp (by omega)
  subst ht0
  cases ht
  refine ⟨by simp, ?_⟩
  rcases hm with hm | ⟨x, o, h1, _⟩
  · exact hm
  · cases h1

/-- **C94**, nothing stands in the way: the next NAL unit can be parsed, and a restart works, with every NAL unit of the journal reported. -/
theorem C94_goes_on {cs : Bool} {units : List (List UInt8)} {rs : List (Option NalUnit)} {stF : ParserState} (h : nalResults cs units .empty = .ok (rs, stF))
    {s : Daemon} (hs : Daemon.Reaches cs units s) :
    (∀ x, units[s.pos]? = some x → ∃ o m, nalResults cs [x] s.mem = .ok ([o], m)) ∧
    (∀ l : Journal, (∀ e, e ∈ l ↔ e ∈ s.journal) → ∃ os m, nalResults cs (l.map (·.2)) .empty = .ok (os, m) ∧ ∀ o ∈ os, o.isSome = true) := by
  obtain ⟨done, todo, st, os, hu, hp, hd, ht, hr, hm⟩ := (reaches_at h hs).ex
  refine ⟨fun x hx => ?_, fun l hl => ?_⟩
  · rw [hu, hp, List.getElem?_append_right (Nat.le_refl _), Nat.sub_self] at hx
    cases todo with
    | nil => cases hx
    | cons y todo' =>
      cases hx
      obtain ⟨o1, os', rfl, g, k⟩ := results_cons ht
      exact ⟨o1, _, results_cons_mk (next_gives hm g).1 rfl⟩
  · obtain ⟨os, h1, h2⟩ := hr.restart hl
    exact ⟨os, _, h1, h2⟩

/-- **C94**, the journal does not grow with the stream: one entry per kind and id. -/
theorem C94_journal {cs : Bool} {units : List (List UInt8)} {rs : List (Option NalUnit)} {stF : ParserState} (h : nalResults cs units .empty = .ok (rs, stF))
    {s : Daemon} (hs : Daemon.Reaches cs units s) : (s.journal.map (·.1)).Nodup := by
  obtain ⟨done, todo, st, os, hu, hp, hd, ht, hr, hm⟩ := (reaches_at h hs).ex
  exact hr.keys

/-- The program gets through: from everything it can get to, whatever happened, it can get to the end. -/
theorem C94_finishes {cs : Bool} {units : List (List UInt8)} {rs : List (Option NalUnit)} {stF : ParserState} (h : nalResults cs units .empty = .ok (rs, stF))
    {s : Daemon} (hs : Daemon.Reaches cs units s) : ∃ s', Daemon.Reaches cs units s' ∧ s'.pos = units.length ∧ s'.reported = rs := by
  have key : ∀ (k : Nat) (s : Daemon), Daemon.Reaches cs units s → units.length - s.pos = k → ∃ s', Daemon.Reaches cs units s' ∧ s'.pos = units.length := by
    intro k
    induction k with
    | zero =>
      intro s hs hk
      exact ⟨s, hs, by have := (C94_restart h hs).1; omega⟩
    | succ k ih =>
      intro s hs hk
      have hlt : s.pos < units.length := by omega
      obtain ⟨o, m, hw⟩ := (C94_goes_on h hs).1 _ (List.getElem?_eq_getElem hlt)
      exact ih _ (.step hs (.work (List.getElem?_eq_getElem hlt) hw)) (by show units.length - (s.pos + 1) = k; omega)
  obtain ⟨s', h1, h2⟩ := key _ s hs rfl
  exact ⟨s', h1, h2, ((C94_restart h h1).2.2 h2).1⟩

/-! A concrete case: VPS, SPS, PPS and two slices; killed behind the parameter sets, and again in the first slice. -/

/-- the journal of these NAL units, from the results of parsing them -/
def exJournal (cs : Bool) : List (List UInt8) → ParserState → Journal → Journal
  | [], _, j => j
  | x :: l, m, j =>
    match nalResults cs [x] m with
    | .ok ([o], m') => exJournal cs l m' (j.put x o)
    | _ => exJournal cs l m j

/-- the hypothesis of the theorems is met -/
example : (nalResults true (exBytes.map escape) .empty).toOption.isSome = true := by decide +kernel

/-- every number of NAL units done is reached, and the program can be killed there -/
example {units : List (List UInt8)} {rs : List (Option NalUnit)} {stF : ParserState} (h : nalResults true units .empty = .ok (rs, stF)) (k : Nat) (hk : k ≤ units.length) :
    ∃ s s', Daemon.Reaches true units s ∧ s.pos = k ∧ Daemon.Step true units s s' ∧ s'.pos = k := by
  have key : ∃ s, Daemon.Reaches true units s ∧ s.pos = k := by
    induction k with
    | zero => exact ⟨_, .start, rfl⟩
    | succ k ih =>
      obtain ⟨s, hs, rfl⟩ := ih (by omega)
      obtain ⟨o, m, hw⟩ := (C94_goes_on h hs).1 _ (List.getElem?_eq_getElem (by omega))
      exact ⟨_, .step hs (.work (List.getElem?_eq_getElem (by omega)) hw), rfl⟩
  obtain ⟨s, hs, hk⟩ := key
  obtain ⟨os, m, h1, _⟩ := (C94_goes_on h hs).2 s.journal (fun _ => Iff.rfl)
  exact ⟨s, _, hs, hk, .crash ⟨_, os, fun _ => Iff.rfl, h1⟩, hk⟩

/-- The journal behind the parameter sets: the three of them, the latest first; a repeated one replaces its entry. -/
example : (exJournal true ((exBytes.take 3).map escape) .empty []).map (·.1) = [(.pps, 0), (.sps, 0), (.vps, 0)] ∧
    (exJournal true ((exBytes.take 3 ++ exBytes.take 1).map escape) .empty []).map (·.1) = [(.vps, 0), (.pps, 0), (.sps, 0)] := by
  decide +kernel

/-- Restarted from it (here in the order PPS, SPS, VPS), the slices are reported with their QP offsets; without it they are not. -/
example : exDeltas (nalResults true ((exJournal true ((exBytes.take 3).map escape) .empty []).map (·.2) ++ (exBytes.drop 3).map escape) .empty) = [9, -3] ∧
    exDeltas (nalResults true ((exBytes.drop 3).map escape) .empty) = [] := by
  decide +kernel

end H265
