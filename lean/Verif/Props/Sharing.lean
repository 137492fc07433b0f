/- C82: several sources of NAL units parsed with one parser state, in any interleaving. -/
import Verif.Props.Order
import Verif.Props.StdExample
import Verif.Spec.Sharing

set_option autoImplicit false

namespace H265
open Spec Std

theorem ofSource_nil {α : Type} (t : Nat) : ofSource t ([] : List (Nat × α)) = [] := rfl
theorem ofSource_same {α : Type} (t : Nat) (x : α) (l : List (Nat × α)) : ofSource t ((t, x) :: l) = x :: ofSource t l := by simp [ofSource]
theorem ofSource_other {α : Type} {t u : Nat} (h : t ≠ u) (x : α) (l : List (Nat × α)) : ofSource u ((t, x) :: l) = ofSource u l := by simp [ofSource, h]

/-- replacing the value for one source -/
def upd {α : Type} (f : Nat → α) (t : Nat) (v : α) : Nat → α := fun u => if u = t then v else f u

theorem upd_same {α : Type} (f : Nat → α) (t : Nat) (v : α) : upd f t v t = v := if_pos rfl
theorem upd_other {α : Type} (f : Nat → α) {t u : Nat} (v : α) (h : t ≠ u) : upd f t v u = f u := if_neg (Ne.symm h)

/-- nothing this payload would install replaces another parameter set of the state -/
structure Compatible (a : ParserState) (p : NalUnitPayload) : Prop where
  vps : ∀ x y, p.vps = some x → a.vps x.body.vps_video_parameter_set_id = some y → x = y
  sps : ∀ x y, p.sps = some x → a.sps x.body.sps_seq_parameter_set_id = some y → x = y
  pps : ∀ x y, p.pps = some x → a.pps x.body.head.pps_pic_parameter_set_id = some y → x = y

theorem Spec.Contains.knows {a b : ParserState} (h : Contains b a) : Knows a b := ⟨h.sps, h.pps⟩

theorem Spec.Contains.both {a b : ParserState} (h : Contains b a) (p : NalUnitPayload) : Contains (effect b p) (effect a p) := by
  constructor
  · intro i x hx
    unfold effect at hx ⊢
    cases hp : p.vps with
    | none => rw [hp] at hx; exact h.vps i x hx
    | some y =>
      rw [hp] at hx
      simp only [mapSet] at hx ⊢
      split
      · next hi => rw [if_pos hi] at hx; exact hx
      · next hi => rw [if_neg hi] at hx; exact h.vps i x hx
  · exact (h.knows.effect p).sps
  · exact (h.knows.effect p).pps

theorem Spec.Contains.others {a b : ParserState} (h : Contains b a) {p : NalUnitPayload} (hc : Compatible a p) : Contains (effect b p) a := by
  constructor
  · intro i x hx
    unfold effect
    cases hp : p.vps with
    | none => exact h.vps i x hx
    | some y =>
      simp only [mapSet]
      split
      · next hi => subst hi; rw [hc.vps y x hp hx]
      · exact h.vps i x hx
  · intro i x hx
    unfold effect
    cases hp : p.sps with
    | none => exact h.sps i x hx
    | some y =>
      simp only [mapSet]
      split
      · next hi => subst hi; rw [hc.sps y x hp hx]
      · exact h.sps i x hx
  · intro i x hx
    unfold effect
    cases hp : p.pps with
    | none => exact h.pps i x hx
    | some y =>
      simp only [mapSet]
      split
      · next hi => subst hi; rw [hc.pps y x hp hx]
      · exact h.pps i x hx

theorem Compatible.effect {a : ParserState} {p q : NalUnitPayload} (h : Compatible a q) (hc : NoClash p q) : Compatible (effect a p) q := by
  constructor
  · intro x y hx hy
    unfold H265.effect at hy
    cases hp : p.vps with
    | none => rw [hp] at hy; exact h.vps x y hx hy
    | some z =>
      rw [hp] at hy
      simp only [mapSet] at hy
      split at hy
      · next hi => injection hy with hy; subst hy; exact (hc.vps _ x hp hx hi.symm).symm
      · exact h.vps x y hx hy
  · intro x y hx hy
    unfold H265.effect at hy
    cases hp : p.sps with
    | none => rw [hp] at hy; exact h.sps x y hx hy
    | some z =>
      rw [hp] at hy
      simp only [mapSet] at hy
      split at hy
      · next hi => injection hy with hy; subst hy; exact (hc.sps _ x hp hx hi.symm).symm
      · exact h.sps x y hx hy
  · intro x y hx hy
    unfold H265.effect at hy
    cases hp : p.pps with
    | none => rw [hp] at hy; exact h.pps x y hx hy
    | some z =>
      rw [hp] at hy
      simp only [mapSet] at hy
      split at hy
      · next hi => injection hy with hy; subst hy; exact (hc.pps _ x hp hx hi.symm).symm
      · exact h.pps x y hx hy

theorem shared_run {cs : Bool} : ∀ (l : List (Nat × List UInt8)) (a : Nat → ParserState) (b : ParserState) (rs : Nat → List (Option NalUnit)) (s : Nat → ParserState),
    (∀ t, Contains b (a t)) →
    (∀ t, nalResults cs (ofSource t l) (a t) = .ok (rs t, s t)) →
    (∀ t n, some n ∈ rs t → isSliceSegment n.nal_unit_header.nal_unit_type = true → n.nal_unit_payload.slice_segment_layer ≠ none) →
    (∀ t u, t ≠ u → ∀ n m, some n ∈ rs t → some m ∈ rs u → NoClash n.nal_unit_payload m.nal_unit_payload) →
    (∀ t u, t ≠ u → ∀ m, some m ∈ rs u → Compatible (a t) m.nal_unit_payload) →
    ∃ out b', nalResults cs (l.map (·.2)) b = .ok (out, b') ∧ out.length = l.length ∧
      (∀ t, ofSource t ((l.map (·.1)).zip out) = rs t) ∧ ∀ t, Contains b' (s t)
  | [], a, b, rs, s, hk, hr, _, _, _ => by
    refine ⟨[], b, rfl, rfl, fun t => ?_, fun t => ?_⟩ <;> have := hr t <;> simp only [ofSource_nil, nalResults, Except.ok.injEq, Prod.mk.injEq] at this
    · exact this.1
    · rw [← this.2]; exact hk t
  | (t, nal) :: l, a, b, rs, s, hk, hr, hh, hc, hi => by
    have hrt := hr t
    rw [ofSource_same] at hrt
    simp only [nalResults] at hrt
    cases hp : parseNalUnit cs (a t) nal with
    | bad k => rw [hp] at hrt; cases hrt
    | fail e =>
      rw [hp] at hrt
      obtain ⟨rbsp, hu, _⟩ := C11_unescape_bounds nal
      obtain ⟨e', he⟩ := (C22_dropped_iff (cs := cs) (st := b) hu).mpr ((C22_dropped_iff hu).mp ⟨e, hp⟩)
      dsimp only at hrt
      cases hx : nalResults cs (ofSource t l) (a t) with
      | error k => rw [hx] at hrt; cases hrt
      | ok y =>
        obtain ⟨r1, s1⟩ := y
        rw [hx] at hrt
        simp only [Except.ok.injEq, Prod.mk.injEq] at hrt
        obtain ⟨hrs, hs⟩ := hrt
        have hsub : ∀ u n, some n ∈ upd rs t r1 u → some n ∈ rs u := by
          intro u n hn
          by_cases h : t = u
          · subst h; rw [upd_same] at hn; rw [← hrs]; simp [hn]
          · rw [upd_other _ _ h] at hn; exact hn
        obtain ⟨out, b', f1, f2, f3, f4⟩ := shared_run l a b (upd rs t r1) s hk
          (fun u => by
            by_cases h : t = u
            · subst h; rw [upd_same, hx, hs]
            · rw [upd_other _ _ h, ← ofSource_other h nal, hr u])
          (fun u n hn => hh u n (hsub u n hn)) (fun u v huv n m hn hm => hc u v huv n m (hsub u n hn) (hsub v m hm))
          (fun u v huv m hm => hi u v huv m (hsub v m hm))
        refine ⟨none :: out, b', ?_, by simp [f2], fun u => ?_, f4⟩
        · simp only [List.map_cons, nalResults, he, f1]
        · simp only [List.map_cons, List.zip_cons_cons]
          by_cases h : t = u
          · subst h; rw [ofSource_same, f3 t, upd_same, hrs]
          · rw [ofSource_other h, f3 u, upd_other _ _ h]
    | ok x e =>
      obtain ⟨n, a1⟩ := x
      rw [hp] at hrt
      dsimp only at hrt
      cases hx : nalResults cs (ofSource t l) a1 with
      | error k => rw [hx] at hrt; cases hrt
      | ok y =>
        obtain ⟨r1, s1⟩ := y
        rw [hx] at hrt
        simp only [Except.ok.injEq, Prod.mk.injEq] at hrt
        obtain ⟨hrs, hs⟩ := hrt
        have hn0 : some n ∈ rs t := by rw [← hrs]; simp
        obtain ⟨e1, e2⟩ := nal_more (cs := cs) (hk t).knows hp (hh t n hn0)
        have hsub : ∀ u n, some n ∈ upd rs t r1 u → some n ∈ rs u := by
          intro u n hn
          by_cases h : t = u
          · subst h; rw [upd_same] at hn; rw [← hrs]; simp [hn]
          · rw [upd_other _ _ h] at hn; exact hn
        obtain ⟨out, b', f1, f2, f3, f4⟩ := shared_run l (upd a t a1) (effect b n.nal_unit_payload) (upd rs t r1) s
          (fun u => by
            by_cases h : t = u
            · subst h; rw [upd_same, e1]; exact (hk t).both _
            · rw [upd_other _ _ h]; exact (hk u).others (hi u t (Ne.symm h) n hn0))
          (fun u => by
            by_cases h : t = u
            · subst h; rw [upd_same, upd_same, hx, hs]
            · rw [upd_other _ _ h, upd_other _ _ h, ← ofSource_other h nal, hr u])
          (fun u n hn => hh u n (hsub u n hn)) (fun u v huv n m hn hm => hc u v huv n m (hsub u n hn) (hsub v m hm))
          (fun u v huv m hm => by
            by_cases h : t = u
            · subst h; rw [upd_same, e1]
              exact (hi t v huv m (hsub v m hm)).effect (hc t v huv n m hn0 (hsub v m hm))
            · rw [upd_other _ _ h]; exact hi u v huv m (hsub v m hm))
        refine ⟨some n :: out, b', ?_, by simp [f2], fun u => ?_, f4⟩
        · simp only [List.map_cons, nalResults, e2, f1]
        · simp only [List.map_cons, List.zip_cons_cons]
          by_cases h : t = u
          · subst h; rw [ofSource_same, f3 t, upd_same, hrs]
          · rw [ofSource_other h, f3 u, upd_other _ _ h]

/-- C82: several sources of NAL units can share one parser state.  `l` is any interleaving of them: each NAL unit with the number of its source.  If each source parsed
alone, with a new parser state, gives the results `rs t` (with a header for each of its slices), and no two sources have different parameter sets for the same id, then
parsing all of them with one parser state, whatever it held before, gives every source the same results, unit by unit, and the state in the end contains the parameter
sets each source left. -/
theorem C82_shared_state {cs : Bool} {l : List (Nat × List UInt8)} {rs : Nat → List (Option NalUnit)} {s : Nat → ParserState}
    (alone : ∀ t, nalResults cs (ofSource t l) .empty = .ok (rs t, s t))
    (headers : ∀ t n, some n ∈ rs t → isSliceSegment n.nal_unit_header.nal_unit_type = true → n.nal_unit_payload.slice_segment_layer ≠ none)
    (clash : ∀ t u, t ≠ u → ∀ n m, some n ∈ rs t → some m ∈ rs u → NoClash n.nal_unit_payload m.nal_unit_payload) (st : ParserState) :
    ∃ out st', nalResults cs (l.map (·.2)) st = .ok (out, st') ∧ out.length = l.length ∧
      (∀ t, ofSource t ((l.map (·.1)).zip out) = rs t) ∧ ∀ t, Contains st' (s t) :=
  shared_run l (fun _ => .empty) st rs s (fun _ => ⟨fun _ _ h => (by cases h), fun _ _ h => (by cases h), fun _ _ h => (by cases h)⟩) alone headers clash
    (fun _ _ _ _ _ => ⟨fun _ _ _ h => (by cases h), fun _ _ _ h => (by cases h), fun _ _ _ h => (by cases h)⟩)

/-- C82: the schedule does not matter: two interleavings of the same sources give every source the same results. -/
theorem C82_schedules {cs : Bool} {l l' : List (Nat × List UInt8)} {rs : Nat → List (Option NalUnit)} {s : Nat → ParserState} (same : ∀ t, ofSource t l = ofSource t l')
    (alone : ∀ t, nalResults cs (ofSource t l) .empty = .ok (rs t, s t))
    (headers : ∀ t n, some n ∈ rs t → isSliceSegment n.nal_unit_header.nal_unit_type = true → n.nal_unit_payload.slice_segment_layer ≠ none)
    (clash : ∀ t u, t ≠ u → ∀ n m, some n ∈ rs t → some m ∈ rs u → NoClash n.nal_unit_payload m.nal_unit_payload) (st : ParserState) :
    ∃ out out' st1 st1', nalResults cs (l.map (·.2)) st = .ok (out, st1) ∧ nalResults cs (l'.map (·.2)) st = .ok (out', st1') ∧
      ∀ t, ofSource t ((l.map (·.1)).zip out) = ofSource t ((l'.map (·.1)).zip out') := by
  obtain ⟨out, st1, h1, _, h2, _⟩ := C82_shared_state alone headers clash st
  obtain ⟨out', st1', h1', _, h2', _⟩ := C82_shared_state (l := l') (fun t => by rw [← same t]; exact alone t) headers clash st
  exact ⟨out, out', st1, st1', h1, h1', fun t => by rw [h2, h2']⟩

/-! ### conforming sources -/

/-- the parameter sets received from one source do not conflict with a unit -/
structure Compat (d : StdParams) (y : StdUnit) : Prop where
  vps : ∀ i ptl s, d.vps i = some (ptl, s) → s.vps_video_parameter_set_id = i ∧ NotInConflict (.vps ptl s) y
  sps : ∀ i ptl s, d.sps i = some (ptl, s) → s.sps_seq_parameter_set_id = i ∧ NotInConflict (.sps ptl s) y
  pps : ∀ i s, d.pps i = some s → s.head.pps_pic_parameter_set_id = i ∧ NotInConflict (.pps s) y

theorem Compat.none (y : StdUnit) : Compat .none y := ⟨fun _ _ _ h => (by cases h), fun _ _ _ h => (by cases h), fun _ _ h => (by cases h)⟩

theorem Compat.after {d : StdParams} {x y : StdUnit} (h : Compat d y) (hxy : NotInConflict x y) : Compat (d.after x) y := by
  cases x with
  | vps ptl s =>
    refine ⟨fun i p t ht => ?_, h.sps, h.pps⟩
    simp only [StdParams.after] at ht
    split at ht
    · next hi => cases ht; exact ⟨hi.symm, hxy⟩
    · exact h.vps i p t ht
  | sps ptl s =>
    refine ⟨h.vps, fun i p t ht => ?_, h.pps⟩
    simp only [StdParams.after] at ht
    split at ht
    · next hi => cases ht; exact ⟨hi.symm, hxy⟩
    · exact h.sps i p t ht
  | pps s =>
    refine ⟨h.vps, h.sps, fun i t ht => ?_⟩
    simp only [StdParams.after] at ht
    split at ht
    · next hi => cases ht; exact ⟨hi.symm, hxy⟩
    · exact h.pps i t ht
  | slice hd s x => exact h
  | aud a => exact h
  | sei a b c => exact h
  | other => exact h

/-- a unit from another source leaves what a source has sent -/
theorem holds_others {d : StdParams} {b : ParserState} {x : StdNal} {p : NalUnitPayload} (h : Holds d b) (hc : Compat d x.unit) (hr : ReportsPayload x p) :
    Holds d (effect b p) := by
  unfold ReportsPayload at hr
  cases hu : x.unit with
  | vps ptl s =>
    rw [hu] at hr hc
    obtain ⟨v, rfl, hv⟩ := hr
    refine ⟨fun i q t ht => ?_, h.sps, h.pps⟩
    simp only [effect, mapSet]
    split
    · next hi =>
      obtain ⟨h1, h2⟩ := hc.vps i q t ht
      refine ⟨v, rfl, ?_⟩
      rw [hv]
      exact (h2 (by rw [h1, hi, hv])).symm
    · exact h.vps i q t ht
  | sps ptl s =>
    rw [hu] at hr hc
    obtain ⟨v, rfl, hv⟩ := hr
    refine ⟨h.vps, fun i q t ht => ?_, h.pps⟩
    simp only [effect, mapSet]
    split
    · next hi =>
      obtain ⟨h1, h2⟩ := hc.sps i q t ht
      refine ⟨v, rfl, ?_⟩
      rw [hv]
      exact (h2 (by rw [h1, hi, hv])).symm
    · exact h.sps i q t ht
  | pps s =>
    rw [hu] at hr hc
    obtain ⟨v, rfl, hv⟩ := hr
    refine ⟨h.vps, h.sps, fun i t ht => ?_⟩
    simp only [effect, mapSet]
    split
    · next hi =>
      obtain ⟨h1, h2⟩ := hc.pps i t ht
      refine ⟨v, rfl, ?_⟩
      rw [hv]
      exact (h2 (by rw [h1, hi, hv])).symm
    · exact h.pps i t ht
  | slice hd s x => rw [hu] at hr; subst hr; exact h
  | aud a => rw [hu] at hr; subst hr; exact h
  | sei a b c => rw [hu] at hr; subst hr; exact h
  | other => rw [hu] at hr; subst hr; exact h

theorem sent_run {cs : Bool} : ∀ (l : List (Nat × StdNal)) (d d' : Nat → StdParams) (b : ParserState), (∀ t, GoodParams (d t)) → (∀ t, Holds (d t) b) → Reach b →
    (∀ t, SentAll (d t) (ofSource t l) (d' t)) → (∀ x ∈ l, x.2.rbsp.length < 2 ^ 32) →
    (∀ t u, t ≠ u → ∀ x ∈ ofSource t l, ∀ y ∈ ofSource u l, NotInConflict x.unit y.unit) → (∀ t u, t ≠ u → ∀ y ∈ ofSource u l, Compat (d t) y.unit) →
    ∃ ns b', nalResults cs (l.map fun x => escape x.2.rbsp) b = .ok (ns.map some, b') ∧ ns.length = l.length ∧ (∀ x ∈ l.zip ns, Std.Reports x.1.2 x.2) ∧
      (∀ t, Holds (d' t) b') ∧ Reach b'
  | [], d, d', b, hg, hh, hr, hs, _, _, _ => by
    refine ⟨[], b, rfl, rfl, fun x hx => (by simp at hx), fun t => ?_, hr⟩
    have := hs t
    generalize d' t = e at this
    rw [ofSource_nil] at this
    cases this
    exact hh t
  | (t, x) :: l, d, d', b, hg, hh, hr, hs, hl, hc, hi => by
    have h0 := hs t
    rw [ofSource_same] at h0
    have hsub : ∀ u y, y ∈ ofSource u l → y ∈ ofSource u ((t, x) :: l) := by
      intro u y hy
      by_cases h : t = u
      · subst h; rw [ofSource_same]; simp [hy]
      · rw [ofSource_other h]; exact hy
    have hx0 : x ∈ ofSource t ((t, x) :: l) := by rw [ofSource_same]; simp
    generalize he : d' t = e at h0
    cases h0 with
    | cons h1 h2 =>
      obtain ⟨n, b1, e0, f1, f2, f3, f4⟩ := C48_nal_unit (cs := cs) (hg t) (hh t) hr h1 (hl (t, x) (by simp))
      obtain ⟨w, hw, _⟩ := h1.contents
      have heff : b1 = effect b n.nal_unit_payload := nal_effect f1
      obtain ⟨ns, b', g1, g2, g3, g4, g5⟩ := sent_run (cs := cs) l (upd d t ((d t).after x.unit)) d' b1
        (fun u => by
          by_cases h : t = u
          · subst h; rw [upd_same]; exact (hg t).after hw
          · rw [upd_other _ _ h]; exact hg u)
        (fun u => by
          by_cases h : t = u
          · subst h; rw [upd_same]; exact f3
          · rw [upd_other _ _ h, heff]; exact holds_others (hh u) (hi u t (Ne.symm h) x hx0) f2.2)
        f4
        (fun u => by
          by_cases h : t = u
          · subst h; rw [upd_same, he]; exact h2
          · rw [upd_other _ _ h, ← ofSource_other h x]; exact hs u)
        (fun y hy => hl y (by simp [hy])) (fun u v huv y hy z hz => hc u v huv y (hsub u y hy) z (hsub v z hz))
        (fun u v huv y hy => by
          by_cases h : t = u
          · subst h; rw [upd_same]; exact (hi t v huv y (hsub v y hy)).after (hc t v huv x hx0 y (hsub v y hy))
          · rw [upd_other _ _ h]; exact hi u v huv y (hsub v y hy))
      refine ⟨n :: ns, b', ?_, by simp [g2], ?_, g4, g5⟩
      · simp only [List.map_cons, nalResults, f1, g1]
      · intro y hy
        simp only [List.zip_cons_cons, List.mem_cons] at hy
        rcases hy with rfl | hy
        · exact f2
        · exact g3 y hy

/-- C82: sources written after the standard (for example the tracks of a file, or several cameras) may be given to one parser state in any interleaving, as long as no two
of them have different parameter sets with the same id: every unit is reported with the header and contents that were sent, and the state holds in the end the
parameter sets of all sources. -/
theorem C82_conforming {cs : Bool} {st : ParserState} {l : List (Nat × StdNal)} {d : Nat → StdParams} (hr : Reach st) (sent : ∀ t, SentAll .none (ofSource t l) (d t))
    (hlen : ∀ x ∈ l, x.2.rbsp.length < 2 ^ 32) (conflict : ∀ t u, t ≠ u → ∀ x ∈ ofSource t l, ∀ y ∈ ofSource u l, NotInConflict x.unit y.unit) :
    ∃ ns st', nalResults cs (l.map fun x => escape x.2.rbsp) st = .ok (ns.map some, st') ∧ ns.length = l.length ∧ (∀ x ∈ l.zip ns, Std.Reports x.1.2 x.2) ∧
      ∀ t, Holds (d t) st' := by
  obtain ⟨ns, b', h1, h2, h3, h4, _⟩ := sent_run (cs := cs) l (fun _ => .none) d st (fun _ => GoodParams.none) (fun _ => Holds.none st) hr sent hlen conflict
    (fun _ _ _ y _ => Compat.none y.unit)
  exact ⟨ns, b', h1, h2, h3, h4⟩

/-! The hypotheses are met. -/

/-- two copies of the example stream, interleaved -/
def exTwice : List (Nat × StdNal) := [(0, 0), (1, 0), (1, 1), (0, 1), (0, 2), (0, 3), (1, 2), (0, 4), (1, 3), (1, 4)].map fun x => (x.1, exNals.getD x.2 (exNal 0 .other [] []))

example : (∃ d : Nat → StdParams, ∀ t, SentAll .none (ofSource t exTwice) (d t)) ∧ (∀ x ∈ exTwice, x.2.rbsp.length < 2 ^ 32) ∧
    (∀ t u, t ≠ u → ∀ x ∈ ofSource t exTwice, ∀ y ∈ ofSource u exTwice, NotInConflict x.unit y.unit) := by
  have hmem : ∀ t, ∀ x ∈ ofSource t exTwice, x ∈ exNals := by
    intro t x hx
    obtain ⟨y, hy, rfl⟩ := List.mem_map.mp hx
    have hy := (List.mem_filter.mp hy).1
    simp only [exTwice, exNals, List.map_cons, List.map_nil, List.mem_cons, List.not_mem_nil, or_false] at hy
    rcases hy with rfl | rfl | rfl | rfl | rfl | rfl | rfl | rfl | rfl | rfl <;> simp [exNals]
  refine ⟨?_, ?_, ?_⟩
  · obtain ⟨d, hd⟩ := exNals_sent
    refine ⟨fun t => if t < 2 then d else .none, fun t => ?_⟩
    match t with
    | 0 => exact hd
    | 1 => exact hd
    | t + 2 =>
      have : ofSource (t + 2) exTwice = [] := by
        simp only [ofSource, List.map_eq_nil_iff, List.filter_eq_nil_iff]
        intro x hx
        simp only [exTwice, List.map_cons, List.map_nil, List.mem_cons, List.not_mem_nil, or_false] at hx
        rcases hx with rfl | rfl | rfl | rfl | rfl | rfl | rfl | rfl | rfl | rfl <;> simp
      rw [this]
      dsimp only
      rw [if_neg (by omega)]
      exact .nil _
  · decide +kernel
  · intro t u _ x hx y hy
    have hx := hmem t x hx
    have hy := hmem u y hy
    simp only [exNals, List.mem_cons, List.not_mem_nil, or_false] at hx hy
    rcases hx with rfl | rfl | rfl | rfl | rfl <;> rcases hy with rfl | rfl | rfl | rfl | rfl <;> simp [NotInConflict, exNal]

/-- a source with parameter sets and slices, and a source with an access unit delimiter and a broken unit -/
def exSources : List (Nat × List UInt8) :=
  [(0, exBytes.getD 0 []), (1, [0x46, 0x01, 0x50]), (0, exBytes.getD 1 []), (0, exBytes.getD 2 []), (1, [0x42]), (0, exBytes.getD 3 []), (0, exBytes.getD 4 [])].map
    fun x => (x.1, escape x.2)

/-- what is reported for a source alone -/
def exAlone (t : Nat) : List (Option NalUnit) × ParserState := match nalResults true (ofSource t exSources) .empty with | .ok x => x | .error _ => ([], .empty)

example : (∀ t, nalResults true (ofSource t exSources) .empty = .ok (exAlone t)) ∧
    (∀ t n, some n ∈ (exAlone t).1 → isSliceSegment n.nal_unit_header.nal_unit_type = true → n.nal_unit_payload.slice_segment_layer ≠ none) ∧
    (∀ t u, t ≠ u → ∀ n m, some n ∈ (exAlone t).1 → some m ∈ (exAlone u).1 → NoClash n.nal_unit_payload m.nal_unit_payload) ∧
    (exAlone 0).1.length = 5 ∧ (exAlone 1).1.map Option.isSome = [true, false] := by
  have hrest : ∀ t, ofSource (t + 2) exSources = [] := by
    intro t
    simp only [ofSource, List.map_eq_nil_iff, List.filter_eq_nil_iff]
    intro x hx
    simp only [exSources, List.map_cons, List.map_nil, List.mem_cons, List.not_mem_nil, or_false] at hx
    rcases hx with rfl | rfl | rfl | rfl | rfl | rfl | rfl <;> simp
  have hok : ∀ t, (nalResults true (ofSource t exSources) .empty).toOption.isSome = true := by
    intro t
    match t with
    | 0 => decide +kernel
    | 1 => decide +kernel
    | t + 2 => rw [hrest]; rfl
  have h2 : ∀ t, (exAlone (t + 2)).1 = [] := by intro t; unfold exAlone; rw [hrest]; rfl
  have h0 : ((exAlone 0).1.all fun o => match o with | some n => !isSliceSegment n.nal_unit_header.nal_unit_type || n.nal_unit_payload.slice_segment_layer.isSome | none => true) = true := by
    decide +kernel
  have h1 : ((exAlone 1).1.all fun o => match o with
      | some n => !isSliceSegment n.nal_unit_header.nal_unit_type && n.nal_unit_payload.vps.isNone && n.nal_unit_payload.sps.isNone && n.nal_unit_payload.pps.isNone
      | none => true) = true := by
    decide +kernel
  rw [List.all_eq_true] at h0 h1
  have hcases : ∀ t : Nat, t = 0 ∨ t = 1 ∨ ∃ k, t = k + 2 := fun t => by
    by_cases h : t < 2
    · omega
    · exact Or.inr (Or.inr ⟨t - 2, by omega⟩)
  have h1' : ∀ n, some n ∈ (exAlone 1).1 → isSliceSegment n.nal_unit_header.nal_unit_type = false ∧ n.nal_unit_payload.vps = none ∧ n.nal_unit_payload.sps = none ∧
      n.nal_unit_payload.pps = none := by
    intro n hn
    have := h1 _ hn
    simp only [Bool.and_eq_true, Bool.not_eq_true', Option.isNone_iff_eq_none] at this
    exact ⟨this.1.1.1, this.1.1.2, this.1.2, this.2⟩
  refine ⟨fun t => ?_, fun t n hn hs => ?_, fun t u htu n m hn hm => ?_, by decide +kernel, by decide +kernel⟩
  · unfold exAlone
    have := hok t
    cases h : nalResults true (ofSource t exSources) .empty with
    | ok x => rfl
    | error k => rw [h] at this; cases this
  · rcases hcases t with rfl | rfl | ⟨t, rfl⟩
    · have := h0 _ hn
      simp only [hs, Bool.not_true, Bool.false_or] at this
      exact Option.isSome_iff_ne_none.mp this
    · rw [(h1' n hn).1] at hs; cases hs
    · rw [h2] at hn; cases hn
  · rcases hcases u with rfl | rfl | ⟨u, rfl⟩
    · rcases hcases t with rfl | rfl | ⟨t, rfl⟩
      · exact absurd rfl htu
      · obtain ⟨_, e1, e2, e3⟩ := h1' n hn; constructor <;> simp [e1, e2, e3]
      · rw [h2] at hn; cases hn
    · obtain ⟨_, e1, e2, e3⟩ := h1' m hm; constructor <;> simp [e1, e2, e3]
    · rw [h2] at hm; cases hm

/-- QP offsets reported for the slices of a result -/
def exDeltas (r : Except Bad (List (Option NalUnit) × ParserState)) : List Int :=
  match r with
  | .ok (ns, _) => ns.filterMap fun o => o.bind fun n => n.nal_unit_payload.slice_segment_layer.map (·.body.slice_qp_delta)
  | .error _ => []

/-- The hypothesis about ids is needed: a second source with another PPS for the same id (here with output_flag_present_flag set) spoils the slices of the first. -/
example : exDeltas (nalResults true (exBytes.map escape) .empty) = [9, -3] ∧
    exDeltas (nalResults true ((exBytes.take 3 ++ [[0x44, 0x01, 0xd0, 0xf3, 0xc0, 0x02, 0x10]] ++ exBytes.drop 3).map escape) .empty) ≠ [9, -3] := by
  decide +kernel

end H265
