/- C91: a byte stream converted into another form. -/
import Verif.Spec.Remux
import Verif.Props.Containers
import Verif.Props.Chunks

set_option autoImplicit false

namespace H265
open Spec

theorem nalUnitsOf_eq {data : List UInt8} (h : data.length < 2 ^ 64) :
    nalUnitsOf data = ((entries data data.length (starts data)).map (spanOf data)).map (·.2.2) := by
  unfold nalUnitsOf
  rw [findNaluIndices_eq data h, List.map_map]
  rfl

/-- empty NAL units are skipped -/
theorem parseAll_nonempty (cs : Bool) : ∀ (l : List (Nat × Nat × List UInt8)) (st : ParserState),
    parseAll cs (l.filter fun x => decide (x.2.2 ≠ [])) st = parseAll cs l st
  | [], st => rfl
  | (off, len, nal) :: rest, st => by
    by_cases hn : nal = []
    · subst hn
      rw [List.filter_cons_of_neg (by simp), parseAll_nonempty cs rest st]
      obtain ⟨b, hb⟩ := (C22_dropped_iff (cs := cs) (st := st) (data := []) (unescapeRbsp_eq _)).mpr (by decide)
      simp only [parseAll, hb]
    · rw [List.filter_cons_of_pos (by simpa using hn)]
      simp only [parseAll]
      cases parseNalUnit cs st nal with
      | bad k => rfl
      | fail b => exact parseAll_nonempty cs rest st
      | ok x b => dsimp only; rw [parseAll_nonempty cs rest x.2]

theorem filtered_nals (l : List (Nat × Nat × List UInt8)) :
    (l.filter fun x => decide (x.2.2 ≠ [])).map (·.2.2) = (l.map (·.2.2)).filter fun x => decide (x ≠ []) :=
  map_filter_nals (fun x => decide (x ≠ [])) l

/-- C91: any byte stream, written with length fields of 1 to 7 bytes: the same headers, payloads, checksums and parsed lengths in the same order, the same parser state, or
the same undefined behaviour. -/
theorem C91_length_fields (cs : Bool) (n : Nat) (st : ParserState) (data : List UInt8) (hn0 : 0 < n) (hn : n ≤ 7) (hlen : data.length < 2 ^ 64)
    (hu : ∀ x ∈ nalUnitsOf data, x.length < 256 ^ n) (hlen' : (toLengthFields n data).length < 2 ^ 63) :
    (parseBitstreamNaluLength cs n st (toLengthFields n data)).map placeless = (parseBitstream cs st data).map placeless := by
  unfold toLengthFields at hlen' ⊢
  rw [lengthStream_eq cs n st _ hn0 hn ?_ hlen', parseBitstream_eq cs st data hlen, ← parseAll_nonempty cs ((entries data data.length (starts data)).map (spanOf data))]
  · refine placeless_eq ?_ st
    rw [lengthPlaces_nals, filtered_nals, nalUnitsOf_eq hlen]
  · intro x hx
    obtain ⟨h1, h2⟩ := List.mem_filter.mp hx
    exact ⟨of_decide_eq_true h2, hu x h1⟩

/-- what can be said of the NAL units that are found: no start code that is followed by a byte, and none at the end if another unit follows -/
def Tame : List (List UInt8) → Prop
  | [] => True
  | x :: us => (∀ p, ¬ startCodeAt x p) ∧ (us ≠ [] → ¬ [0, 0, 1] <:+ x) ∧ Tame us

theorem Tame.filter (f : List UInt8 → Bool) : ∀ {us : List (List UInt8)}, Tame us → Tame (us.filter f)
  | [], _ => trivial
  | x :: us, ⟨h1, h2, h3⟩ => by
    rw [List.filter_cons]
    split
    · exact ⟨h1, fun hne => h2 (fun he => hne (by rw [he]; rfl)), Tame.filter f h3⟩
    · exact Tame.filter f h3

theorem tame_of_index : ∀ (us : List (List UInt8)),
    (∀ (j : Nat) (x : List UInt8), us[j]? = some x → (∀ p, ¬ startCodeAt x p) ∧ (us[j + 1]? ≠ none → ¬ [0, 0, 1] <:+ x)) → Tame us
  | [], _ => trivial
  | x :: us, h => by
    obtain ⟨h1, h2⟩ := h 0 x rfl
    refine ⟨h1, fun hne => h2 ?_, tame_of_index us (fun j y hy => h (j + 1) y hy)⟩
    cases us with
    | nil => exact absurd rfl hne
    | cons y r => simp

theorem units_tame {data : List UInt8} (hlen : data.length < 2 ^ 64) : Tame (nalUnitsOf data) := by
  obtain ⟨l, h1, h2⟩ := C12_find_sound data hlen
  unfold nalUnitsOf
  rw [h1]
  refine tame_of_index _ (fun j x hx => ?_)
  dsimp only at hx ⊢
  rw [List.getElem?_map] at hx
  cases hj : l[j]? with
  | none => rw [hj] at hx; cases hx
  | some e =>
  rw [hj] at hx
  obtain rfl := Option.some.inj hx
  obtain ⟨_, _, _, hle, hnext, _, hno⟩ := h2 j e hj
  have hg : ∀ k, k < e.payloadSize → ((data.drop e.payloadStartOffset).take e.payloadSize)[k]? = data[e.payloadStartOffset + k]? := by
    intro k hk
    rw [List.getElem?_take, if_pos hk, List.getElem?_drop]
  have hsz : ((data.drop e.payloadStartOffset).take e.payloadSize).length = e.payloadSize := by rw [List.length_take, List.length_drop]; omega
  constructor
  · rintro p ⟨g0, g1, g2, g3⟩
    rw [hsz] at g3
    rw [hg _ (by omega)] at g0 g1 g2
    exact hno (e.payloadStartOffset + p) ⟨g0, by rw [← g1]; rfl, by rw [← g2]; rfl, by omega⟩ ⟨by omega, by omega⟩
  · intro hn hsuf
    rw [List.getElem?_map] at hn
    cases hj1 : l[j + 1]? with
    | none => rw [hj1] at hn; exact hn rfl
    | some e' =>
    obtain ⟨q1, q2, q3⟩ := hnext e' hj1
    obtain ⟨_, _, _, hle', _⟩ := h2 (j + 1) e' hj1
    rw [suffix001, hsz] at hsuf
    obtain ⟨g, g0, g1, g2⟩ := hsuf
    rw [hg _ (by omega)] at g0 g1 g2
    refine hno (e.payloadStartOffset + (e.payloadSize - 3)) ⟨g0, ?_, ?_, by omega⟩ ⟨by omega, by omega⟩
    · rw [← g1]; congr 1; omega
    · rw [← g2]; congr 1; omega

/-- one unit behind a start code of four bytes -/
theorem long_starts {x : List UInt8} (h0 : x ≠ []) (h : ∀ p, ¬ startCodeAt x p) : starts (0 :: 0 :: 0 :: 1 :: x) = [1] := by
  have hl : x.length ≠ 0 := fun e => h0 (List.length_eq_zero_iff.mp e)
  have hp : ∀ p, decide (startCodeAt (0 :: 0 :: 0 :: 1 :: x) p) = decide (p = 1) := by
    intro p
    rw [decide_eq_decide]
    constructor
    · rintro ⟨g0, g1, g2, g3⟩
      match p with
      | 0 => cases g2
      | 1 => rfl
      | 2 => cases g1
      | 3 => cases g0
      | p + 4 => exact absurd ⟨g0, g1, g2, by simp only [List.length_cons] at g3; omega⟩ (h p)
    · rintro rfl
      exact ⟨rfl, rfl, rfl, by simp only [List.length_cons]; omega⟩
  unfold starts startsBelow
  rw [List.filter_congr (fun p _ => hp p)]
  simp only [List.length_cons]
  rw [show x.length + 1 + 1 + 1 + 1 = 2 + (x.length + 2) by omega, List.range_add, List.filter_append]
  have e : (List.map (fun x => 2 + x) (List.range (x.length + 2))).filter (fun p => decide (p = 1)) = [] := by
    rw [List.filter_eq_nil_iff]
    intro a ha
    obtain ⟨b, _, rfl⟩ := List.mem_map.mp ha
    simp; omega
  rw [e]
  rfl

theorem long_places {x : List UInt8} (h0 : x ≠ []) (h : ∀ p, ¬ startCodeAt x p) : (places (annexBUnit true x)).map (·.2.2) = [x] := by
  show (places (0 :: 0 :: 0 :: 1 :: x)).map (·.2.2) = [x]
  unfold places
  rw [long_starts h0 h]
  simp only [entries, List.map_cons, List.map_nil, spanOf, List.length_cons]
  rw [show x.length + 1 + 1 + 1 + 1 - (1 + 3) = x.length by omega]
  show [x.take x.length] = [x]
  rw [List.take_length]

theorem long_closed {x : List UInt8} (h0 : x ≠ []) (h1 : ¬ [0, 0, 1] <:+ x) : closed (annexBUnit true x) = places (annexBUnit true x) := by
  have hl : x.length ≠ 0 := fun e => h0 (List.length_eq_zero_iff.mp e)
  unfold closed openEnd
  rw [if_neg, List.append_nil]
  · rfl
  · show ¬ [0, 0, 1] <:+ 0 :: 0 :: 0 :: 1 :: x
    rw [suffix001] at h1 ⊢
    rintro ⟨_, g0, g1, g2⟩
    simp only [List.length_cons] at g0 g1 g2
    match hx : x.length with
    | 0 => exact hl hx
    | 1 => rw [hx] at g1; cases g1
    | 2 => rw [hx] at g0; cases g0
    | k + 3 =>
      rw [hx] at g0 g1 g2
      exact h1 ⟨by omega, by rw [hx]; exact g0, by rw [hx]; exact g1, by rw [hx]; exact g2⟩

theorem tame_places : ∀ (us : List (List UInt8)), (∀ x ∈ us, x ≠ []) → Tame us → (places (annexB (us.map fun x => (true, x)))).map (·.2.2) = us
  | [], _, _ => rfl
  | [x], h0, ⟨h1, _, _⟩ => by
    have e : annexB ([x].map fun x => (true, x)) = annexBUnit true x := List.append_nil _
    rw [e]
    exact long_places (h0 x (by simp)) h1
  | x :: y :: r, h0, ⟨h1, h2, h3⟩ => by
    have ih := tame_places (y :: r) (fun z hz => h0 z (by simp [hz])) h3
    have hy : y.length ≠ 0 := fun e => h0 y (by simp) (List.length_eq_zero_iff.mp e)
    have e : annexB ((x :: y :: r).map fun x => (true, x)) = annexBUnit true x ++ annexB ((y :: r).map fun x => (true, x)) := rfl
    have hb : BeginsUnit (annexB ((y :: r).map fun x => (true, x))) := by
      refine ⟨1, ⟨rfl, rfl, rfl, ?_⟩, rfl⟩
      show 1 + 3 < (annexBUnit true y ++ annexB (r.map fun x => (true, x))).length
      unfold annexBUnit
      simp only [List.length_append, if_pos, List.length_cons, List.length_nil]
      omega
    rw [e, places_append _ _ hb (.inr rfl), List.map_append, List.map_map, long_closed (h0 x (by simp)) (h2 (by simp)), long_places (h0 x (by simp)) h1]
    show [x] ++ (places _).map (fun x => x.2.2) = _
    rw [ih]
    rfl

/-- C91: written with start codes of four bytes, a byte stream has the same NAL units, the empty ones excepted. -/
theorem C91_same_units (data : List UInt8) (hlen : data.length < 2 ^ 64) (hlen' : (toStartCodes data).length < 2 ^ 64) :
    nalUnitsOf (toStartCodes data) = (nalUnitsOf data).filter (· ≠ []) := by
  rw [nalUnitsOf_eq hlen']
  exact tame_places _ (fun x hx => of_decide_eq_true (List.mem_filter.mp hx).2) (Tame.filter _ (units_tame hlen))

/-- C91: any byte stream, written with start codes of four bytes: the same headers, payloads, checksums and parsed lengths in the same order, the same parser state, or the
same undefined behaviour.  Bytes in front of the first start code and empty units are gone; zero bytes behind a unit stay. -/
theorem C91_start_codes (cs : Bool) (st : ParserState) (data : List UInt8) (hlen : data.length < 2 ^ 64) (hlen' : (toStartCodes data).length < 2 ^ 64) :
    (parseBitstream cs st (toStartCodes data)).map placeless = (parseBitstream cs st data).map placeless := by
  rw [parseBitstream_eq cs st _ hlen', parseBitstream_eq cs st data hlen, ← parseAll_nonempty cs ((entries data data.length (starts data)).map (spanOf data))]
  refine placeless_eq ?_ st
  rw [filtered_nals, ← nalUnitsOf_eq hlen, ← nalUnitsOf_eq hlen', C91_same_units data hlen hlen']

/-- C91: any byte stream whose NAL units have types up to 47, sent unit by unit as RTP payloads: the same headers, payloads and parser state. -/
theorem C91_packets (st : ParserState) (data : List UInt8) (hlen : data.length < 2 ^ 64)
    (hu : ∀ x ∈ nalUnitsOf data, x.length < 2 ^ 32 ∧ ∀ h, rawHeader x = some h → h.nal_unit_type ≤ 47) :
    rtpSession (nalUnitsOf data) st = (parseBitstream false st data).map fun x => (x.1.map asSingle, x.2) := by
  rw [nalUnitsOf_eq hlen] at hu ⊢
  rw [parseBitstream_eq false st data hlen]
  exact rtpSession_eq _ st (fun x hx => hu _ (List.mem_map_of_mem hx))

/-! ### hypotheses met, and needed -/

/-- a damaged stream: junk in front, an empty unit, a unit with zero bytes behind it, a cut slice -/
def exRemux : List UInt8 := [0xff, 0x47] ++ testStream ++ [0, 0, 1, 0, 0, 1, 0x46, 0x01, 0x50, 0, 0, 0, 0, 0, 1, 0x4e, 0x01]

example : ((parseBitstream false .empty exRemux).toOption.map fun x => x.1.map fun n => n.nal_unit_header.nal_unit_type) = some [32, 33, 34, 19, 35, 39] ∧
    (nalUnitsOf exRemux).map (·.length) = [23, 39, 7, 15, 0, 5, 2] := by decide +kernel
example : (∀ x ∈ nalUnitsOf exRemux, x.length < 256 ^ 1) ∧ (∀ x ∈ nalUnitsOf exRemux, ∀ h, rawHeader x = some h → h.nal_unit_type ≤ 47) := by
  refine ⟨by decide +kernel, ?_⟩
  have : ((nalUnitsOf exRemux).map rawHeader).all (fun o => o.elim true fun h => decide (h.nal_unit_type ≤ 47)) = true := by decide +kernel
  intro x hx h hh
  have := List.all_eq_true.mp this _ (List.mem_map_of_mem hx)
  rw [hh] at this
  exact of_decide_eq_true this

/-- the types of the units, from the two forms -/
def typesByLength (n : Nat) (data : List UInt8) : Option (List Nat) :=
  (parseBitstreamNaluLength false n .empty data).toOption.map fun x => x.1.map fun n => n.nal_unit_header.nal_unit_type
def typesByStartCode (data : List UInt8) : Option (List Nat) :=
  (parseBitstream false .empty data).toOption.map fun x => x.1.map fun n => n.nal_unit_header.nal_unit_type

/-- C91: the way back fails if a unit of a stream with length fields has a start code inside: behind a start code it becomes two units. -/
theorem C91_not_back : typesByLength 1 (lengthPrefixed 1 [[0x46, 0x01, 0x50, 0, 0, 1, 0x46, 0x01, 0x50]]) = some [35] ∧
    typesByStartCode (annexB [(true, [0x46, 0x01, 0x50, 0, 0, 1, 0x46, 0x01, 0x50])]) = some [35, 35] := by decide +kernel

/-- C91: empty units have to be left out: behind a length field of 0 nothing is read. -/
theorem C91_empty_units : typesByStartCode [0, 0, 1, 0, 0, 1, 0x46, 0x01, 0x50] = some [35] ∧
    nalUnitsOf [0, 0, 1, 0, 0, 1, 0x46, 0x01, 0x50] = [[], [0x46, 0x01, 0x50]] ∧
    typesByLength 4 (lengthPrefixed 4 (nalUnitsOf [0, 0, 1, 0, 0, 1, 0x46, 0x01, 0x50])) = some [] := by decide +kernel

end H265
