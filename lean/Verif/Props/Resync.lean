/- C81: finding the way back into a byte stream: whatever came before a start code, what follows it is parsed as if nothing had been before. -/
import Verif.Props.Cut
import Verif.Props.StdExample

set_option autoImplicit false

namespace H265
open Spec Std

/-- The place of a unit does not depend on where its own start code begins, so only the later start codes matter. -/
theorem entries_right' (a b : List UInt8) (e : Nat) : ∀ l : List Nat,
    (∀ p ∈ l.tail, startCodeBegin (a ++ b) (a.length + p) = a.length + startCodeBegin b p) →
    (entries (a ++ b) (a.length + e) (l.map (a.length + ·))).map (spanOf (a ++ b)) =
      ((entries b e l).map (spanOf b)).map fun x => (a.length + x.1, x.2)
  | [], _ => rfl
  | [p], h => by
    simp only [List.map_cons, List.map_nil, entries, spanOf]
    rw [show a.length + e - (a.length + p + 3) = e - (p + 3) by omega, List.drop_append]
    simp [List.drop_of_length_le, show a.length + p + 3 - a.length = p + 3 by omega, Nat.add_assoc]
  | p :: q :: r, h => by
    have ih := entries_right' a b e (q :: r) (fun x hx => h x (by simp at hx ⊢; exact Or.inr hx))
    simp only [List.map_cons, entries] at ih ⊢
    rw [ih]
    congr 1
    simp only [spanOf, h q (by simp)]
    rw [show a.length + startCodeBegin b q - (a.length + p + 3) = startCodeBegin b q - (p + 3) by omega, List.drop_append]
    simp [List.drop_of_length_le, show a.length + p + 3 - a.length = p + 3 by omega, Nat.add_assoc]

theorem entries_within (data : List UInt8) (e m : Nat) (he : e ≤ m) : ∀ l : List Nat, l.Pairwise (· < ·) → (∀ p ∈ l, p + 3 ≤ m) →
    ∀ x ∈ entries data e l, x.payloadStartOffset + x.payloadSize ≤ m
  | [], _, _, x, hx => by cases hx
  | [p], _, h, x, hx => by
    have := h p (by simp)
    simp only [entries, List.mem_singleton] at hx
    subst hx
    simp only
    omega
  | p :: q :: r, hw, h, x, hx => by
    have h1 := h p (by simp)
    have h2 := h q (by simp)
    have hb := startCodeBegin_le data q
    simp only [entries, List.mem_cons] at hx
    rcases hx with rfl | hx
    · simp only; omega
    · exact entries_within data e m he (q :: r) (List.pairwise_cons.mp hw).2 (fun z hz => h z (by simp [hz])) x (by simpa [entries] using hx)

/-- a stretch of bytes, with the place it is at -/
def SpanIn (a : List UInt8) (x : Nat × Nat × List UInt8) : Prop := x.1 + x.2.1 ≤ a.length ∧ x.2.2 = (a.drop x.1).take x.2.1

theorem resync_eq (a b : List UInt8) (hb : BeginsUnit b) (hlen : (a ++ b).length < 2 ^ 64) :
    ∃ l : List (Nat × Nat × List UInt8), (∀ x ∈ l, SpanIn a x) ∧ ∀ (cs : Bool) (st : ParserState), parseBitstream cs st (a ++ b) =
      (parseAll cs l st).bind fun x => (parseBitstream cs x.2 b).bind fun y =>
        .ok (x.1 ++ y.1.map (fun n => { n with offset := a.length + n.offset }), y.2) := by
  have hgt : ∀ i, (a ++ b)[a.length + i]? = b[i]? := by
    intro i; rw [List.getElem?_append_right (by omega), Nat.add_sub_cancel_left]
  have hlen' := hlen
  rw [List.length_append] at hlen'
  have hbeg : ∀ p, 0 < p → startCodeBegin (a ++ b) (a.length + p) = a.length + startCodeBegin b p := by
    intro p hp
    cases p with
    | zero => omega
    | succ p =>
      unfold startCodeBegin
      rw [show a.length + (p + 1) - 1 = a.length + p by omega, hgt, show p + 1 - 1 = p by omega]
      by_cases hz : b[p]? = some 0
      · rw [if_pos ⟨by omega, hz⟩, if_pos ⟨by omega, hz⟩]
      · rw [if_neg (fun h => hz h.2), if_neg (fun h => hz h.2)]
  have hsorted := starts_sorted b b.length
  change (starts b).Pairwise (· < ·) at hsorted
  obtain ⟨q, r, hq, hqb⟩ : ∃ q r, starts b = q :: r ∧ startCodeBegin b q = 0 := by
    have hmem : ∀ p ∈ starts b, startCodeAt b p := fun p hp => (mem_startsBelow.mp hp).2
    obtain ⟨p0, hp0, hpb⟩ := hb
    have hp0m : p0 ∈ starts b := mem_startsBelow.mpr ⟨by have := hp0.2.2.2; omega, hp0⟩
    cases hs : starts b with
    | nil => rw [hs] at hp0m; cases hp0m
    | cons q r =>
      refine ⟨q, r, rfl, ?_⟩
      rw [hs] at hp0m hmem hsorted
      rcases List.mem_cons.mp hp0m with h | h
      · rw [← h]; exact hpb
      · have hlt := (List.pairwise_cons.mp hsorted).1 p0 h
        have := startCode_apart (hmem q (by simp)) hp0 hlt
        unfold startCodeBegin at hpb
        split at hpb <;> omega
  have htail : ∀ p ∈ (starts b).tail, 0 < p := by
    intro p hp
    rw [hq] at hp hsorted
    have := (List.pairwise_cons.mp hsorted).1 p hp
    omega
  have hR := entries_right' a b b.length (starts b) (fun p hp => hbeg p (htail p hp))
  have hend : startCodeBegin (a ++ b) (a.length + q) ≤ a.length := by
    by_cases h0 : 0 < q
    · rw [hbeg q h0, hqb]; omega
    · have : q = 0 := by omega
      subst this
      exact startCodeBegin_le _ _
  have hin : ∀ p ∈ starts a ++ openEnd a, p + 3 ≤ a.length := by
    intro p hp
    rw [List.mem_append] at hp
    rcases hp with hp | hp
    · have := (mem_startsBelow.mp hp).2.2.2.2; omega
    · unfold openEnd at hp
      split at hp
      · rename_i h; have := ((suffix001 a).mp h).1
        simp only [List.mem_singleton] at hp; omega
      · cases hp
  have hpw : (starts a ++ openEnd a).Pairwise (· < ·) := by
    have h := starts_sorted (a ++ b) (a ++ b).length
    change (starts (a ++ b)).Pairwise (· < ·) at h
    rw [starts_append a b hb] at h
    exact (List.pairwise_append.mp h).1
  refine ⟨(entries a (startCodeBegin (a ++ b) (a.length + q)) (starts a ++ openEnd a)).map (spanOf a), ?_, ?_⟩
  · intro x hx
    obtain ⟨e, he, rfl⟩ := List.mem_map.mp hx
    exact ⟨entries_within a _ a.length hend _ hpw hin e he, rfl⟩
  · intro cs st
    rw [parseBitstream_eq cs st _ hlen, starts_append a b hb]
    rw [hq, List.map_cons, entries_append, ← List.map_cons (f := (a.length + ·)), ← hq, List.length_append, List.map_append, hR,
      entries_left a b _ hend _ hin, parseAll_append]
    congr 1
    funext x
    rw [parseAll_shift, parseBitstream_eq cs x.2 b (by omega)]
    cases parseAll cs ((entries b b.length (starts b)).map (spanOf b)) x.2 <;> rfl

/-- C81: whatever bytes `a` come before a start code, the units behind the start code are found: parsing `a ++ b` gives units that lie within `a`, and then the units
that parsing `b` by itself gives, with the parser state the units within `a` lead to. -/
theorem C81_resync {cs : Bool} {st st' : ParserState} {a b : List UInt8} {ns : List NalUnit} (hb : BeginsUnit b) (hlen : (a ++ b).length < 2 ^ 64)
    (h : parseBitstream cs st (a ++ b) = .ok (ns, st')) :
    ∃ before s1 after, ns = before ++ after.map (fun n => { n with offset := a.length + n.offset }) ∧ (∀ n ∈ before, n.offset + n.length ≤ a.length) ∧
      Steps st (before.map (·.nal_unit_payload)) s1 ∧ parseBitstream cs s1 b = .ok (after, st') := by
  obtain ⟨l, hl, he⟩ := resync_eq a b hb hlen
  rw [he] at h
  cases h1 : parseAll cs l st with
  | error k => rw [h1] at h; cases h
  | ok x =>
    obtain ⟨before, s1⟩ := x
    rw [h1] at h
    dsimp only [Except.bind] at h
    cases h2 : parseBitstream cs s1 b with
    | error k => rw [h2] at h; cases h
    | ok y =>
      obtain ⟨after, s2⟩ := y
      rw [h2] at h
      cases h
      refine ⟨before, s1, after, rfl, fun n hn => ?_, parseAll_steps h1, h2⟩
      obtain ⟨x, hx, e1, e2⟩ := parseAll_position h1 hn
      have := (hl x hx).1
      omega

/-- C81: if what follows brings the parameter sets its slices use, its units are reported as if the bytes before had never been there: the end of the result is the
result for `b` alone with a new parser state, its places counted from the beginning of `a`, and the parameter sets of `b` are the ones in force afterwards. -/
theorem C81_random_access {cs : Bool} {st st' sb : ParserState} {a b : List UInt8} {ns ms : List NalUnit} (hb : BeginsUnit b) (hlen : (a ++ b).length < 2 ^ 64)
    (hself : parseBitstream cs .empty b = .ok (ms, sb)) (hall : AllHeaders ms)
    (h : parseBitstream cs st (a ++ b) = .ok (ns, st')) :
    ∃ before s1, ns = before ++ ms.map (fun n => { n with offset := a.length + n.offset }) ∧ (∀ n ∈ before, n.offset + n.length ≤ a.length) ∧
      st' = overlay sb s1 := by
  obtain ⟨before, s1, after, e, hin, _, h2⟩ := C81_resync hb hlen h
  have hl : b.length < 2 ^ 64 := by rw [List.length_append] at hlen; omega
  rw [C60_self_contained hl hself hall s1] at h2
  cases h2
  exact ⟨before, s1, e, hin, rfl⟩

/-- C81: the bytes before never make the parser give up on what follows, unless they make it overflow a signed number: with every state a user can get into, a stream
of less than 4 GiB whose end is self-contained is either parsed as `C81_random_access` says, or the run ends in that overflow while it parses the units within `a`. -/
theorem C81_always {cs : Bool} {st sb : ParserState} {a b : List UInt8} {ms : List NalUnit} (hs : Reach st) (hb : BeginsUnit b) (hlen : (a ++ b).length < 2 ^ 32)
    (hself : parseBitstream cs .empty b = .ok (ms, sb)) (hall : AllHeaders ms) :
    (∃ before s1, parseBitstream cs st (a ++ b) = .ok (before ++ ms.map (fun n => { n with offset := a.length + n.offset }), overlay sb s1) ∧
      (∀ n ∈ before, n.offset + n.length ≤ a.length)) ∨
    parseBitstream cs st (a ++ b) = .error .signedOverflow := by
  cases h : parseBitstream cs st (a ++ b) with
  | error k => exact Or.inr (by rw [C44_bitstream_safe hs hlen h])
  | ok x =>
    obtain ⟨ns, st'⟩ := x
    obtain ⟨before, s1, e1, e2, e3⟩ := C81_random_access hb (by omega) hself hall h
    exact Or.inl ⟨before, s1, by rw [e1, e3], e2⟩

theorem annexB_begins {x : Bool × List UInt8} {units : List (Bool × List UInt8)} (h : NalBytes x.2) : BeginsUnit (annexB (x :: units)) := by
  obtain ⟨long, nal⟩ := x
  obtain ⟨c, nal, rfl⟩ := List.exists_cons_of_ne_nil h.nonempty
  cases long with
  | true => exact ⟨1, ⟨rfl, rfl, rfl, by simp [annexB, annexBUnit]⟩, rfl⟩
  | false => exact ⟨0, ⟨rfl, rfl, rfl, by simp [annexB, annexBUnit]⟩, rfl⟩

theorem BeginsUnit.append {b : List UInt8} (h : BeginsUnit b) (c : List UInt8) : BeginsUnit (b ++ c) := by
  obtain ⟨p, ⟨h0, h1, h2, h3⟩, hb⟩ := h
  refine ⟨p, ⟨?_, ?_, ?_, by rw [List.length_append]; omega⟩, ?_⟩
  · rw [List.getElem?_append_left (by omega)]; exact h0
  · rw [List.getElem?_append_left (by omega)]; exact h1
  · rw [List.getElem?_append_left (by omega)]; exact h2
  · unfold startCodeBegin at hb ⊢
    rw [List.getElem?_append_left (by omega)]; exact hb

/-- a byte stream does not end in a zero byte or a start code -/
theorem annexB_end : ∀ (u : List (Bool × List UInt8)), (∀ x ∈ u, NalBytes x.2) → (annexB u).getLast? ≠ some 0 ∧ ¬ [0, 0, 1] <:+ annexB u := by
  intro u hu
  rcases List.eq_nil_or_concat u with rfl | ⟨l, x, rfl⟩
  · refine ⟨by simp [annexB], fun h => ?_⟩
    have := h.length_le
    simp [annexB] at this
  · rw [List.concat_eq_append] at hu ⊢
    obtain ⟨long, nal⟩ := x
    have hx : NalBytes nal := hu (long, nal) (by simp)
    have e : ∃ p, annexB (l ++ [(long, nal)]) = p ++ ([0, 0, 1] ++ nal) := by
      cases long with
      | true => exact ⟨annexB l ++ [0], by simp [annexB, annexBUnit]⟩
      | false => exact ⟨annexB l, by simp [annexB, annexBUnit]⟩
    obtain ⟨p, e⟩ := e
    rw [e]
    constructor
    · rw [List.getLast?_append, List.getLast?_append]
      have h1 := hx.last_nonzero
      cases h : nal.getLast? with
      | none => exact absurd (List.getLast?_eq_none_iff.mp h) hx.nonempty
      | some v => rw [h] at h1; simpa using h1
    · intro hs
      have h1 : [0, 0, 1] <:+ [0, 0, 1] ++ nal := List.suffix_of_suffix_length_le hs (List.suffix_append _ _) (by simp)
      match nal, hx with
      | [], hx => exact hx.nonempty rfl
      | [x], hx => simp [List.suffix_cons_iff] at h1
      | [x, y], hx => simp [List.suffix_cons_iff] at h1
      | x :: y :: z :: r, hx =>
        exact hx.no_start_code (List.suffix_of_suffix_length_le h1 (List.suffix_append _ _) (by simp)).isInfix

theorem nalPlaces_shift (k : Nat) : ∀ (u : List (Bool × List UInt8)) (off : Nat),
    nalPlaces (k + off) u = (nalPlaces off u).map fun x => (k + x.1, x.2)
  | [], _ => rfl
  | (b, n) :: u, off => by
    simp only [nalPlaces, List.map_cons]
    rw [← nalPlaces_shift k u, Nat.add_assoc, Nat.add_assoc]

theorem sent_begins {start : List Bool} {l : List StdNal} {d d' : StdParams} (hs : SentAll d l d') (hn : start.length = l.length) (hne : l ≠ []) :
    BeginsUnit (annexB (start.zip (l.map fun x => escape x.rbsp))) := by
  obtain ⟨x, l, rfl⟩ := List.exists_cons_of_ne_nil hne
  cases start with
  | nil => simp at hn
  | cons s start => exact annexB_begins (hs.nal_bytes x (by simp))

theorem zip_shift {l : List StdNal} {ms : List NalUnit} {k : Nat} (h : ∀ x ∈ l.zip ms, Std.Reports x.1 x.2) :
    ∀ x ∈ l.zip (ms.map fun n => { n with offset := k + n.offset }), Std.Reports x.1 x.2 := by
  intro x hx
  rw [List.zip_map_right] at hx
  obtain ⟨y, hy, rfl⟩ := List.mem_map.mp hx
  exact h y hy

/-- C81: a stream written after the standard is found and read completely behind any bytes whatever: the last units of the result are the units sent, each with the
header and contents sent and at its place behind `a`, and the parser state holds the parameter sets sent. -/
theorem C81_conforming {cs : Bool} {st st' : ParserState} {a : List UInt8} {ns : List NalUnit} {start : List Bool} {l : List StdNal} {d' : StdParams} (hr : Reach st)
    (hs : SentAll .none l d') (hn : start.length = l.length) (hne : l ≠ [])
    (hlen : (a ++ annexB (start.zip (l.map fun x => escape x.rbsp))).length < 2 ^ 32)
    (h : parseBitstream cs st (a ++ annexB (start.zip (l.map fun x => escape x.rbsp))) = .ok (ns, st')) :
    ∃ before after, ns = before ++ after ∧ (∀ n ∈ before, n.offset + n.length ≤ a.length) ∧ after.length = l.length ∧ (∀ x ∈ l.zip after, Std.Reports x.1 x.2) ∧
      Holds d' st' ∧
      after.map (fun n => (n.offset, n.length)) = (nalPlaces a.length (start.zip (l.map fun x => escape x.rbsp))).map (fun x => (x.1, x.2.1)) := by
  obtain ⟨before, s1, after, e, hin, hst, h2⟩ := C81_resync (sent_begins hs hn hne) (by omega) h
  obtain ⟨ms, s2, g1, g2, g3, g4, g5⟩ := C48_annexB cs s1 start l d' (hr.step hst) hs hn (by rw [List.length_append] at hlen; omega)
  rw [g1] at h2
  cases h2
  refine ⟨before, _, e, hin, by simpa using g2, zip_shift g3, g4, ?_⟩
  have hp := nalPlaces_shift a.length (start.zip (l.map fun x => escape x.rbsp)) 0
  rw [Nat.add_zero] at hp
  rw [hp, List.map_map, List.map_map]
  have := congrArg (List.map fun y : Nat × Nat => (a.length + y.1, y.2)) g5
  rw [List.map_map, List.map_map] at this
  exact this

/-- C81: damage stays where it is: a run of units written after the standard, that begins with the parameter sets it uses and is followed by the next start code, is read
completely whatever bytes `a` are before it and whatever comes behind that start code.  All other units reported lie before or behind the run. -/
theorem C81_island {cs : Bool} {st st' : ParserState} {a c : List UInt8} {ns : List NalUnit} {start : List Bool} {l : List StdNal} {d' : StdParams} (hr : Reach st)
    (hs : SentAll .none l d') (hn : start.length = l.length) (hne : l ≠ []) (hc : BeginsUnit c)
    (hlen : (a ++ (annexB (start.zip (l.map fun x => escape x.rbsp)) ++ c)).length < 2 ^ 32)
    (h : parseBitstream cs st (a ++ (annexB (start.zip (l.map fun x => escape x.rbsp)) ++ c)) = .ok (ns, st')) :
    ∃ before middle after, ns = before ++ middle ++ after ∧ (∀ n ∈ before, n.offset + n.length ≤ a.length) ∧
      (∀ n ∈ after, a.length + (annexB (start.zip (l.map fun x => escape x.rbsp))).length ≤ n.offset) ∧
      middle.length = l.length ∧ (∀ x ∈ l.zip middle, Std.Reports x.1 x.2) ∧
      middle.map (fun n => (n.offset, n.length)) = (nalPlaces a.length (start.zip (l.map fun x => escape x.rbsp))).map (fun x => (x.1, x.2.1)) := by
  have hb := sent_begins hs hn hne
  have hnb : ∀ x ∈ start.zip (l.map fun x => escape x.rbsp), NalBytes x.2 := by
    intro x hx
    obtain ⟨y, hy, e⟩ := List.mem_map.mp (List.of_mem_zip hx).2
    rw [← e]
    exact hs.nal_bytes y hy
  have hla : (annexB (start.zip (l.map fun x => escape x.rbsp)) ++ c).length < 2 ^ 32 := by
    rw [List.length_append] at hlen; omega
  have hlb : (annexB (start.zip (l.map fun x => escape x.rbsp))).length < 2 ^ 32 := by
    rw [List.length_append] at hla; omega
  obtain ⟨before, s1, after, e, hin, hst, h2⟩ := C81_resync (hb.append c) (by omega) h
  rw [C25_cut cs s1 _ c hc (Or.inl (annexB_end _ hnb).1) (annexB_end _ hnb).2 (by omega)] at h2
  obtain ⟨ms, s2, g1, g2, g3, g4, g5⟩ := C48_annexB cs s1 start l d' (hr.step hst) hs hn hlb
  rw [g1] at h2
  dsimp only [Except.bind] at h2
  cases h3 : parseBitstream cs s2 c with
  | error k => rw [h3] at h2; cases h2
  | ok y =>
    rw [h3] at h2
    cases h2
    rw [List.map_append] at e
    refine ⟨before, _, _, by rw [List.append_assoc]; exact e, hin, ?_, by simpa using g2, zip_shift g3, ?_⟩
    · intro n hn
      rw [List.map_map] at hn
      obtain ⟨m, _, rfl⟩ := List.mem_map.mp hn
      simp only [Function.comp]
      omega
    · have hp := nalPlaces_shift a.length (start.zip (l.map fun x => escape x.rbsp)) 0
      rw [Nat.add_zero] at hp
      rw [hp, List.map_map, List.map_map]
      have := congrArg (List.map fun y : Nat × Nat => (a.length + y.1, y.2)) g5
      rw [List.map_map, List.map_map] at this
      exact this

/-! The hypotheses are met: bytes with a broken unit, half a start code and a zero byte at the end, before the example stream of `Props/StdExample` (VPS, SPS, PPS,
slices), and a broken unit behind it. -/

/-- broken bytes: a damaged SPS, and an end that mixes with the start code that follows -/
def exDamage : List UInt8 := [0xff, 0, 0, 1, 0x42, 0x01, 0x01, 0x60, 0x33, 0, 0, 0x01, 0x7e, 0, 0, 1, 0, 0]

/-- the example stream -/
def exStream : List UInt8 := annexB ((List.replicate 5 false).zip (exNals.map fun x => escape x.rbsp))

/-- types and places of the units reported -/
def exSummary (r : Except Bad (List NalUnit × ParserState)) : Option (List (Nat × Nat)) :=
  match r with
  | .ok (ns, _) => some (ns.map fun n => (n.nal_unit_header.nal_unit_type, n.offset))
  | .error _ => none

example : BeginsUnit exStream ∧ (exDamage ++ exStream).length < 2 ^ 32 ∧ (List.replicate 5 false).length = exNals.length ∧ exNals ≠ [] ∧ (∃ d, SentAll .none exNals d) ∧
    exSummary (parseBitstream true .empty (exDamage ++ exStream)) = some [(33, 4), (32, 21), (33, 47), (34, 89), (19, 99), (1, 117)] :=
  ⟨sent_begins exNals_sent.choose_spec rfl (by decide), by decide +kernel, rfl, by decide, exNals_sent, by decide +kernel⟩

example : BeginsUnit [0, 0, 0, 1, 0x02] ∧ (exDamage ++ (exStream ++ [0, 0, 0, 1, 0x02])).length < 2 ^ 32 ∧
    exSummary (parseBitstream true .empty (exDamage ++ (exStream ++ [0, 0, 0, 1, 0x02]))) = some [(33, 4), (32, 21), (33, 47), (34, 89), (19, 99), (1, 117)] :=
  ⟨⟨1, by decide, by decide⟩, by decide +kernel, by decide +kernel⟩

example : (match parseBitstream true .empty exStream with
    | .ok (ns, _) => ns.length == 5 && ns.all fun n => !isSliceSegment n.nal_unit_header.nal_unit_type || n.nal_unit_payload.slice_segment_layer.isSome
    | .error _ => false) = true := by decide +kernel

/-- Streams with length fields have no such way back: one damaged length field hides everything behind it. -/
example : exSummary (parseBitstreamNaluLength true 4 .empty (lengthPrefixed 4 (exNals.map fun x => escape x.rbsp))) = some [(32, 4), (33, 31), (34, 74), (19, 85), (1, 104)] ∧
    exSummary (parseBitstreamNaluLength true 4 .empty ([1] ++ (lengthPrefixed 4 (exNals.map fun x => escape x.rbsp)).drop 1)) = some [] := by
  decide +kernel

end H265
