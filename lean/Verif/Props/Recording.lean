/- C95: a recording that starts in the middle of a stream. -/
import Verif.Spec.Recording
import Verif.Props.Restart
import Verif.Props.Remux
import Verif.Props.Fragments
import Verif.Props.ConfigBox

set_option autoImplicit false

namespace H265
open Spec Std

/-- null results left out -/
theorem parseAll_results {cs : Bool} (l : List (Nat × Nat × List UInt8)) (st : ParserState) :
    (parseAll cs l st).map contentsAndState = (nalResults cs (l.map (·.2.2)) st).map contentsIn := parseAll_nalResults cs l st

theorem results_nonempty (cs : Bool) (l : List (List UInt8)) (st : ParserState) :
    (nalResults cs (l.filter (· ≠ [])) st).map contentsIn = (nalResults cs l st).map contentsIn := by
  have h1 := parseAll_results (cs := cs) ((l.map fun x => (0, 0, x)).filter fun x => decide (x.2.2 ≠ [])) st
  have h2 := parseAll_results (cs := cs) (l.map fun x => (0, 0, x)) st
  rw [parseAll_nonempty, filtered_nals] at h1
  have e : (l.map fun x => ((0, 0, x) : Nat × Nat × List UInt8)).map (·.2.2) = l := by rw [List.map_map]; exact List.map_id l
  rw [e] at h1 h2
  exact h1.symm.trans h2

/-- the results for the NAL units that are found in a byte stream -/
theorem stream_results {cs : Bool} {data : List UInt8} (hd : data.length < 2 ^ 64) {a st : ParserState} {ns : List NalUnit} (h : parseBitstream cs a data = .ok (ns, st)) :
    ∃ rs, nalResults cs (nalUnitsOf data) a = .ok (rs, st) ∧ (rs.filterMap id).map contentsOf = ns.map contentsOf := by
  have h1 := parseAll_results (cs := cs) ((entries data data.length (starts data)).map (spanOf data)) a
  rw [← parseBitstream_eq cs a data hd, ← nalUnitsOf_eq hd, h] at h1
  cases h2 : nalResults cs (nalUnitsOf data) a with
  | error k => rw [h2] at h1; cases h1
  | ok x =>
    rw [h2] at h1
    obtain ⟨rs, st'⟩ := x
    injection h1 with h1
    simp only [contentsAndState, contentsIn, Prod.mk.injEq] at h1
    obtain ⟨e1, rfl⟩ := h1
    exact ⟨rs, rfl, e1.symm⟩

/-- what is left to do, from where the program is -/
theorem At.rest {cs : Bool} {units : List (List UInt8)} {stF : ParserState} {s : Daemon} (h : At cs units stF s) {rs : List (Option NalUnit)}
    (hr : nalResults cs units .empty = .ok (rs, stF)) : s.pos ≤ units.length ∧ ∃ os, rs = s.reported ++ os ∧ nalResults cs (units.drop s.pos) s.mem = .ok (os, stF) := by
  obtain ⟨done, todo, st, os, hu, hp, hd, ht, _, hm⟩ := h.ex
  have hall := results_append ht hd
  rw [← hu, hr] at hall
  cases hall
  refine ⟨by rw [hu, hp, List.length_append]; omega, os, rfl, ?_⟩
  rw [hu, hp, List.drop_left']
  · rcases hm with hm | ⟨x, o, h1, h2, h3⟩
    · rw [hm]; exact ht
    · cases todo with
      | nil => cases h1
      | cons y todo' =>
        cases h1
        obtain ⟨o', os', rfl, g, k⟩ := results_cons ht
        cases g.det h2
        obtain ⟨g1, g2⟩ := g.again
        rw [h3]
        refine results_cons_mk g1 ?_
        rw [g2]; exact k
  · rfl

theorem drop_contents {rs1 rs2 : List (Option NalUnit)} {ns : List NalUnit} (h : ((rs1 ++ rs2).filterMap id).map contentsOf = ns.map contentsOf) :
    (rs2.filterMap id).map contentsOf = (ns.drop (rs1.filterMap id).length).map contentsOf := by
  rw [List.map_drop, ← h, List.filterMap_append, List.map_append, List.drop_left']
  simp


theorem results_sets {cs : Bool} {l : List (List UInt8)} : ∀ {a b : ParserState} {os : List (Option NalUnit)}, nalResults cs l a = .ok (os, b) →
    (∀ o ∈ os, o.isSome = true) → ∀ x ∈ l, x ≠ [] := by
  induction l with
  | nil => intro _ _ _ _ _ x hx; cases hx
  | cons y l ih =>
    intro a b os h hs x hx
    obtain ⟨o, os', rfl, g, k⟩ := results_cons h
    rcases List.mem_cons.mp hx with rfl | hx
    · rintro rfl
      cases g with
      | null _ => exact absurd (hs _ (.head _)) (by simp)
      | unit g =>
        obtain ⟨b, hb⟩ := (C22_dropped_iff (cs := cs) (st := a) (data := []) (unescapeRbsp_eq _)).mpr (by decide)
        rw [g] at hb; cases hb
    · exact ih k (fun o ho => hs o (.tail _ ho)) x hx

/-! ### the journal holds NAL units of the stream -/

theorem put_mem {j : Journal} {x : List UInt8} {o : Option NalUnit} {e : SetKey × List UInt8} (h : e ∈ j.put x o) : e ∈ j ∨ e.2 = x := by
  unfold Journal.put at h
  cases o with
  | none => exact .inl h
  | some n =>
    dsimp only at h
    split at h
    · rcases List.mem_cons.mp h with rfl | h
      · exact .inr rfl
      · exact .inl (List.mem_filter.mp h).1
    · exact .inl h

theorem journal_units {cs : Bool} {units : List (List UInt8)} {s : Daemon} (h : Daemon.Reaches cs units s) :
    ∀ e ∈ s.journal, ∃ i, i ≤ s.pos ∧ units[i]? = some e.2 := by
  induction h with
  | start => intro e he; cases he
  | @step s s' _ hs ih =>
    cases hs with
    | @work x o m hx _ =>
      intro e he
      rcases put_mem he with he | he
      · obtain ⟨i, h1, h2⟩ := ih e he
        exact ⟨i, Nat.le_succ_of_le h1, h2⟩
      · exact ⟨s.pos, Nat.le_succ _, by rw [he]; exact hx⟩
    | crash _ => exact ih
    | @torn x o m m' hx _ _ =>
      intro e he
      rcases put_mem he with he | he
      · exact ih e he
      · exact ⟨s.pos, Nat.le_refl _, by rw [he]; exact hx⟩

theorem Tame.mem : ∀ {us : List (List UInt8)}, Tame us → ∀ i x, us[i]? = some x → (∀ p, ¬ startCodeAt x p) ∧ (i + 1 < us.length → ¬ [0, 0, 1] <:+ x)
  | [], _, i, x, h => by cases h
  | y :: us, ⟨h1, h2, h3⟩, 0, x, h => by
    cases h
    refine ⟨h1, fun hl => h2 (fun he => ?_)⟩
    subst he
    simp at hl
  | y :: us, ⟨h1, h2, h3⟩, i + 1, x, h => by
    obtain ⟨g1, g2⟩ := Tame.mem h3 i x h
    exact ⟨g1, fun hl => g2 (by simpa using hl)⟩

theorem Tame.drop : ∀ {us : List (List UInt8)}, Tame us → ∀ k, Tame (us.drop k)
  | [], h, k => by simpa using h
  | y :: us, h, 0 => h
  | y :: us, ⟨_, _, h⟩, k + 1 => Tame.drop h k

theorem Tame.append : ∀ {us vs : List (List UInt8)}, (∀ x ∈ us, (∀ p, ¬ startCodeAt x p) ∧ ¬ [0, 0, 1] <:+ x) → Tame vs → Tame (us ++ vs)
  | [], _, _, h => h
  | x :: us, vs, hu, h => ⟨(hu x (.head _)).1, fun _ => (hu x (.head _)).2, Tame.append (fun y hy => hu y (.tail _ hy)) h⟩

/-- **C95**, byte stream. -/
theorem C95_byte_stream {cs : Bool} {data : List UInt8} (hd : data.length < 2 ^ 64) {ns : List NalUnit} {st : ParserState} (h : parseBitstream cs .empty data = .ok (ns, st))
    {s : Daemon} (hs : Daemon.Reaches cs (nalUnitsOf data) s) (hpos : s.pos + 1 < (nalUnitsOf data).length ∨ ∀ x, (nalUnitsOf data).getLast? = some x → ¬ [0, 0, 1] <:+ x) {kept : Journal} (hk : ∀ e, e ∈ kept ↔ e ∈ s.journal)
    (hr : (recording kept data s.pos).length < 2 ^ 64) :
    ∃ sets : List NalUnit, nalResults cs (kept.map (·.2)) .empty = .ok (sets.map some, s.mem) ∧ sets.length = kept.length ∧
      (parseBitstream cs .empty (recording kept data s.pos)).map contentsAndState =
        .ok (sets.map contentsOf ++ (ns.drop (s.reported.filterMap id).length).map contentsOf, st) := by
  obtain ⟨rs, h1, h2⟩ := stream_results hd h
  have hat := reaches_at h1 hs
  obtain ⟨hle, os, rfl, h3⟩ := hat.rest h1
  obtain ⟨_, _, _, _, _, _, _, _, hrep, _⟩ := hat.ex
  obtain ⟨ks, k1, k2⟩ := hrep.restart hk
  have hks : ks = (ks.filterMap id).map some := by
    clear k1
    induction ks with
    | nil => rfl
    | cons o ks ih =>
      cases o with
      | none => exact absurd (k2 _ (.head _)) (by simp)
      | some n => simpa using ih (fun o ho => k2 o (.tail _ ho))
  refine ⟨ks.filterMap id, hks ▸ k1, ?_, ?_⟩
  · have := results_length k1
    rw [hks] at this
    simpa using this
  have hne := results_sets k1 k2
  have hT := units_tame hd
  have htame : Tame (kept.map (·.2) ++ unitsFrom data s.pos) := by
    refine Tame.append (fun x hx => ?_) ((hT.drop _).filter _)
    obtain ⟨e, he, rfl⟩ := List.mem_map.mp hx
    obtain ⟨i, hi, hx⟩ := journal_units hs e ((hk e).mp he)
    obtain ⟨t1, t2⟩ := hT.mem i _ hx
    refine ⟨t1, ?_⟩
    by_cases hi2 : i + 1 < (nalUnitsOf data).length
    · exact t2 hi2
    · rcases hpos with hpos | hpos
      · omega
      · have hlt : i < (nalUnitsOf data).length := (List.getElem?_eq_some_iff.mp hx).1
        refine hpos _ ?_
        rw [List.getLast?_eq_getElem?, show (nalUnitsOf data).length - 1 = i by omega]
        exact hx
  have hall : ∀ x ∈ kept.map (·.2) ++ unitsFrom data s.pos, x ≠ [] := by
    intro x hx
    rcases List.mem_append.mp hx with hx | hx
    · exact hne x hx
    · exact of_decide_eq_true (List.mem_filter.mp hx).2
  have hnals := tame_places _ hall htame
  rw [parseBitstream_eq cs .empty _ hr, parseAll_results]
  have : ((entries (recording kept data s.pos) (recording kept data s.pos).length (starts (recording kept data s.pos))).map (spanOf (recording kept data s.pos))).map (·.2.2) =
      kept.map (·.2) ++ unitsFrom data s.pos := hnals
  rw [this]
  have hf : ∃ os', nalResults cs (unitsFrom data s.pos) s.mem = .ok (os', st) ∧ (os'.filterMap id).map contentsOf = (os.filterMap id).map contentsOf := by
    have := results_nonempty cs ((nalUnitsOf data).drop s.pos) s.mem
    rw [h3] at this
    cases e : nalResults cs (unitsFrom data s.pos) s.mem with
    | error k => unfold unitsFrom at e; rw [e] at this; cases this
    | ok y =>
      obtain ⟨os', st'⟩ := y
      unfold unitsFrom at e
      rw [e] at this
      injection this with this
      simp only [contentsIn, Prod.mk.injEq] at this
      obtain ⟨e1, rfl⟩ := this
      exact ⟨os', rfl, e1⟩
  obtain ⟨os', f1, f2⟩ := hf
  rw [results_append f1 k1]
  simp only [Except.map, contentsIn, List.filterMap_append, List.map_append, f2, drop_contents h2]

/-! ### the configuration box -/

theorem results_split {cs : Bool} {l1 l2 : List (List UInt8)} : ∀ {a c : ParserState} {r : List (Option NalUnit)}, nalResults cs (l1 ++ l2) a = .ok (r, c) →
    ∃ r1 r2 b, r = r1 ++ r2 ∧ nalResults cs l1 a = .ok (r1, b) ∧ nalResults cs l2 b = .ok (r2, c) := by
  induction l1 with
  | nil => intro a c r h; exact ⟨[], r, a, rfl, rfl, h⟩
  | cons x l ih =>
    intro a c r h
    obtain ⟨o, os, rfl, g, k⟩ := results_cons h
    obtain ⟨r1, r2, b, rfl, k1, k2⟩ := ih k
    exact ⟨o :: r1, r2, b, rfl, results_cons_mk g k1, k2⟩

theorem results_hvcc {cs : Bool} {l : List (List UInt8)} : ∀ {a b : ParserState} {os : List (Option NalUnit)}, nalResults cs l a = .ok (os, b) →
    (∀ o ∈ os, o.isSome = true) → ∃ us, HvccNals cs a l us b ∧ us.map (·.nalUnit) = os := by
  induction l with
  | nil => intro a b os h _; cases h; exact ⟨[], .nil _, rfl⟩
  | cons x l ih =>
    intro a b os h hs
    obtain ⟨o, os', rfl, g, k⟩ := results_cons h
    obtain ⟨us, k1, k2⟩ := ih k (fun o ho => hs o (.tail _ ho))
    cases g with
    | null _ => exact absurd (hs _ (.head _)) (by simp)
    | unit g =>
      rw [payloadOf, ← nal_effect g] at k1
      exact ⟨_, .ok g k1, by simp [k2]⟩

theorem results_arrays {cs : Bool} : ∀ {as : List (HvccArrayHead × List (List UInt8))} {a b : ParserState} {os : List (Option NalUnit)},
    nalResults cs (as.flatMap (·.2)) a = .ok (os, b) → (∀ o ∈ os, o.isSome = true) →
    ∃ bs, HvccParsed cs a as bs b ∧ bs.flatMap (fun c => c.units.map (·.nalUnit)) = os
  | [], a, b, os, h, _ => by cases h; exact ⟨[], .nil _, rfl⟩
  | (hd, l) :: as, a, b, os, h, hs => by
    rw [List.flatMap_cons] at h
    obtain ⟨r1, r2, c, rfl, k1, k2⟩ := results_split h
    obtain ⟨us, u1, u2⟩ := results_hvcc k1 (fun o ho => hs o (List.mem_append_left _ ho))
    obtain ⟨bs, b1, b2⟩ := results_arrays k2 (fun o ho => hs o (List.mem_append_right _ ho))
    exact ⟨_, .cons u1 b1, by simp [u2, b2]⟩

theorem choose_entries {j : Journal} : ∀ (l : List (List UInt8)), (∀ x ∈ l, x ∈ j.map (·.2)) → ∃ l' : Journal, l'.map (·.2) = l ∧ ∀ e ∈ l', e ∈ j
  | [], _ => ⟨[], rfl, fun _ h => (by cases h)⟩
  | x :: l, h => by
    obtain ⟨l', h1, h2⟩ := choose_entries l (fun y hy => h y (.tail _ hy))
    obtain ⟨e, he, rfl⟩ := List.mem_map.mp (h x (.head _))
    exact ⟨e :: l', by simp [h1], fun e' he' => by
      rcases List.mem_cons.mp he' with rfl | he'
      · exact he
      · exact h2 e' he'⟩

/-- the same for bare NAL units -/
theorem Rep.restart_bytes {cs : Bool} {j : Journal} {m : ParserState} (h : Rep cs j m) {l : List (List UInt8)} (hl : ∀ x, x ∈ l ↔ x ∈ j.map (·.2)) :
    ∃ os, nalResults cs l .empty = .ok (os, m) ∧ ∀ o ∈ os, o.isSome = true := by
  obtain ⟨l', rfl, h2⟩ := choose_entries l (fun x hx => (hl x).mp hx)
  refine h.restart (fun e => ⟨h2 e, fun he => ?_⟩)
  obtain ⟨e', he', hee⟩ := List.mem_map.mp ((hl e.2).mpr (List.mem_map_of_mem he))
  obtain ⟨n1, _, _, v1, p1, q1, _⟩ := h.sound e he
  obtain ⟨n2, _, _, v2, p2, q2, _⟩ := h.sound e' (h2 e' he')
  rw [hee, p1] at p2
  cases p2
  rw [q1] at q2
  injection q2 with q2
  have : e' = e := Prod.ext (by injection q2 with q2; exact q2.symm) hee
  exact this ▸ he'

/-- **C95**, file: the parameter sets in a configuration record, the rest behind length fields. -/
theorem C95_file {cs : Bool} {data : List UInt8} (hd : data.length < 2 ^ 64) {ns : List NalUnit} {st : ParserState} (h : parseBitstream cs .empty data = .ok (ns, st))
    {s : Daemon} (hs : Daemon.Reaches cs (nalUnitsOf data) s) :
    (∀ {box : List UInt8} {x : Hvcc} {r : List Bool}, box.length < 2 ^ 32 → x.Valid → bitsOf box = x.bits ++ r → (∀ y, y ∈ x.units ↔ y ∈ s.journal.map (·.2)) →
      ∃ as bb', parseConfigurationBoxBytes cs .empty box = .ok (some ⟨x.head, as⟩, s.mem) bb' ∧ ∀ a ∈ as, ∀ u ∈ a.units, u.nalUnit.isSome = true) ∧
    (∀ {n : Nat}, 0 < n → n ≤ 7 → (∀ y ∈ unitsFrom data s.pos, y.length < 256 ^ n) → (lengthPrefixed n (unitsFrom data s.pos)).length < 2 ^ 63 →
      (parseBitstreamNaluLength cs n s.mem (lengthPrefixed n (unitsFrom data s.pos))).map contentsAndState =
        .ok ((ns.drop (s.reported.filterMap id).length).map contentsOf, st)) := by
  obtain ⟨rs, h1, h2⟩ := stream_results hd h
  have hat := reaches_at h1 hs
  obtain ⟨hle, os, rfl, h3⟩ := hat.rest h1
  obtain ⟨_, _, _, _, _, _, _, _, hrep, _⟩ := hat.ex
  refine ⟨fun {box x r} hb hv he hu => ?_, fun {n} hn0 hn hl hlen => ?_⟩
  · obtain ⟨ks, k1, k2⟩ := hrep.restart_bytes hu
    obtain ⟨as, a1, a2⟩ := results_arrays k1 k2
    have hw := BB.WF.init box
    obtain ⟨bb', c1, _⟩ := C43_complete (cs := cs) (r := r) hw hv (by rw [BB.rem_init]; exact he) a1
    refine ⟨as, bb', ?_, fun a ha u hua => k2 _ ?_⟩
    · unfold parseConfigurationBoxBytes Prog.runBytes
      rw [if_pos (by omega)]
      exact c1
    · rw [← a2]
      exact List.mem_flatMap.mpr ⟨a, ha, List.mem_map_of_mem hua⟩
  · rw [lengthStream_eq cs n _ (unitsFrom data s.pos) hn0 hn (fun y hy => ⟨of_decide_eq_true (List.mem_filter.mp hy).2, hl y hy⟩) hlen, parseAll_results, lengthPlaces_nals]
    unfold unitsFrom
    rw [results_nonempty, h3]
    simp only [Except.map, contentsIn, drop_contents h2]

/-! ### a concrete case: VPS, SPS, PPS and two slices, recorded from the second slice on -/

def exLive : List UInt8 := annexB (exBytes.map fun x => (true, escape x))
def exKept : Journal := exJournal true ((nalUnitsOf exLive).take 4) .empty []

/-- what is needed of the stream: it is parsed, and its last unit does not end like a start code -/
example : (parseBitstream true .empty exLive).toOption.isSome = true ∧ (nalUnitsOf exLive).length = 5 ∧ ((nalUnitsOf exLive).getLast?.map fun x => decide ([0, 0, 1] <:+ x)) = some false := by
  decide +kernel

/-- types and QP offsets reported for a byte stream -/
def exShown (data : List UInt8) : List (Nat × Option Int) :=
  match parseBitstream true .empty data with
  | .ok (ns, _) => ns.map fun n => (n.nal_unit_header.nal_unit_type, n.nal_unit_payload.slice_segment_layer.map (·.body.slice_qp_delta))
  | .error _ => []

/-- The recording shows the parameter sets (the latest first) and the second slice as the stream does; the bare rest of the stream does not show the slice. -/
example : exShown exLive = [(32, none), (33, none), (34, none), (19, some 9), (1, some (-3))] ∧
    exShown (recording exKept exLive 4) = [(34, none), (33, none), (32, none), (1, some (-3))] ∧
    exShown (recording [] exLive 4) = [(1, none)] := by
  decide +kernel

/-- A configuration record with the NAL units of the journal, as in the theorem (header fields of h265_configuration_box_parser_unittest.cc). -/
def exRecord : Option Hvcc :=
  (boxIn testBox).map fun b => ⟨b.1.head, [(⟨1, 0, 32, 1⟩, [escape (exBytes.getD 0 [])]), (⟨1, 0, 33, 1⟩, [escape (exBytes.getD 1 [])]), (⟨1, 0, 34, 1⟩, [escape (exBytes.getD 2 [])])]⟩

example : exRecord.map (fun x => decide (∀ y ∈ x.units, y ∈ exKept.map (·.2)) && decide (∀ y ∈ exKept.map (·.2), y ∈ x.units) && decide (x.arrays.length = x.head.numOfArrays)) = some true := by
  decide +kernel

/-- the bytes of that record -/
def exRecordBytes : List UInt8 := boxHead ++ ([0xa0, 0x00, 0x01] ++ lengthPrefixed 2 [escape (exBytes.getD 0 [])] ++ ([0xa1, 0x00, 0x01] ++ lengthPrefixed 2 [escape (exBytes.getD 1 [])] ++
  ([0xa2, 0x00, 0x01] ++ lengthPrefixed 2 [escape (exBytes.getD 2 [])])))

example : exRecord.map (fun x => decide (bitsOf exRecordBytes = x.bits)) = some true := by decide +kernel

/-- the file: the box gives the parser state, and the slice behind its length field is shown -/
example : ((boxIn exRecordBytes).bind fun b => (parseBitstreamNaluLength true 4 b.2 (lengthPrefixed 4 (unitsFrom exLive 4))).toOption.map fun x =>
    x.1.map fun n => (n.nal_unit_header.nal_unit_type, n.nal_unit_payload.slice_segment_layer.map (·.body.slice_qp_delta))) = some [(1, some (-3))] := by
  decide +kernel

end H265
