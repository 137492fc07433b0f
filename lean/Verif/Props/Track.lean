/- C80: a track with a configuration box, sample by sample. -/
import Verif.Spec.Track
import Verif.Props.ConformingMp4

set_option autoImplicit false

namespace H265.Std
open Spec

/-- one sample after some parameter sets -/
theorem sample_parsed (cs : Bool) (k : Nat) {st : ParserState} {s : List StdNal} {d d' : StdParams} (hg : GoodParams d) (hh : Holds d st) (hr : Reach st) (hk0 : 0 < k) (hk : k ≤ 7)
    (hs : SentAll d s d') (hl : ∀ x ∈ s, (escape x.rbsp).length < 256 ^ k ∧ (escape x.rbsp).length < 2 ^ 32) (hlen : (sampleBytes k s).length < 2 ^ 63) :
    ∃ ns st', parseBitstreamNaluLength cs k st (sampleBytes k s) = .ok (ns, st') ∧ ns.length = s.length ∧ (∀ x ∈ s.zip ns, Reports x.1 x.2) ∧ Holds d' st' ∧ Reach st' := by
  have hb := hs.nal_bytes
  have hp := lengthPlaces_nal k (s.map fun x => escape x.rbsp) 0
  have hsm : ∀ x ∈ s, x.rbsp.length < 2 ^ 32 := fun x hx => by
    have h2 := length_le_escape x.rbsp
    have := (hl x hx).2
    omega
  obtain ⟨ns, st', h1, h2, h3, h4, h5⟩ := C48_all (cs := cs) _ hg hh hr hs hsm hp
  refine ⟨ns, st', ?_, ?_, h3, h4, h5⟩
  · unfold sampleBytes
    rw [lengthStream_eq cs k st _ hk0 hk ?_ hlen, h1]
    intro x hx
    obtain ⟨y, hy, rfl⟩ := List.mem_map.1 hx
    exact ⟨(hb y hy).nonempty, (hl y hy).1⟩
  · have e1 := congrArg List.length h2
    have e2 := congrArg List.length hp
    simp only [List.length_map] at e1 e2
    omega

/-- the box: parsed whatever the parser state held before -/
theorem track_box (cs : Bool) {st0 : ParserState} (hr : Reach st0) {p : List StdNal} {d : StdParams} (hs : SentAll .none p d)
    {x : Hvcc} (hv : x.Valid) {data : List UInt8} {r : List Bool} (hb : bitsOf data = x.bits ++ r) (hlen : data.length < 2 ^ 32)
    (hx : x.arrays.flatMap (·.2) = p.map fun y => escape y.rbsp) :
    ∃ box st b, parseConfigurationBoxBytes cs st0 data = .ok (some box, st) b ∧ box.head = x.head ∧ Holds d st ∧ Reach st ∧
      (boxUnits box).length = p.length ∧ (∀ y ∈ p.zip (boxUnits box), Reports y.1 y.2) := by
  have hsm : ∀ y ∈ p, y.rbsp.length < 2 ^ 32 := fun y hy => by
    have h1 : escape y.rbsp ∈ x.arrays.flatMap (·.2) := by rw [hx]; exact List.mem_map_of_mem hy
    obtain ⟨a, ha, hm⟩ := List.mem_flatMap.1 h1
    exact Nat.lt_of_le_of_lt (length_le_escape y.rbsp) (Nat.lt_trans (hv.nalUnitLength a ha _ hm) (by decide))
  obtain ⟨ns, st, h1, h2, h3, h4, h5⟩ := C48_all (cs := cs) ((x.arrays.flatMap (·.2)).map fun y => (0, 0, y)) GoodParams.none (Holds.none st0) hr hs hsm
    (by rw [hx]; simp [Function.comp_def])
  have hcount : ns.length = p.length := by
    have := congrArg List.length h2
    simpa [hx] using this
  obtain ⟨as, a1, a2⟩ := hvccParsed_of_all h1
  obtain ⟨bb', c1, _⟩ := C43_complete (BB.WF.init data) hv (by rw [BB.rem_init]; exact hb) a1
  have hparse : parseConfigurationBoxBytes cs st0 data = .ok (some ⟨x.head, as⟩, st) bb' := by
    unfold parseConfigurationBoxBytes Prog.runBytes
    rw [if_pos (by omega)]
    exact c1
  exact ⟨⟨x.head, as⟩, st, bb', hparse, rfl, h4, h5, by unfold boxUnits; rw [a2]; exact hcount, by unfold boxUnits; rw [a2]; exact h3⟩

/-- what is asked of the sizes: a NAL unit fits its length field, a sample the memory -/
def SampleFits (k : Nat) (s : List StdNal) : Prop :=
  (∀ x ∈ s, (escape x.rbsp).length < 256 ^ k ∧ (escape x.rbsp).length < 2 ^ 32) ∧ (sampleBytes k s).length < 2 ^ 63

theorem samples_in_order (cs : Bool) (k : Nat) (hk0 : 0 < k) (hk : k ≤ 7) : ∀ {ss : List (List StdNal)} {d d' : StdParams} {st : ParserState}, GoodParams d → Holds d st → Reach st →
    SentAll d ss.flatten d' → (∀ s ∈ ss, SampleFits k s) →
    ∃ nss st', parseSamples cs k (ss.map (sampleBytes k)) st = .ok (nss, st') ∧ SamplesReported ss nss ∧ Holds d' st'
  | [], d, d', st, hg, hh, hr, hs, hf => by
    cases hs
    exact ⟨[], st, rfl, .nil, hh⟩
  | s :: ss, d, d', st, hg, hh, hr, hs, hf => by
    obtain ⟨m, h1, h2⟩ := SentAll.split (l := s) (l' := ss.flatten) (by simpa using hs)
    obtain ⟨f1, f2⟩ := hf s (by simp)
    obtain ⟨ns, st1, g1, g2, g3, g4, g5⟩ := sample_parsed cs k hg hh hr hk0 hk h1 f1 f2
    obtain ⟨nss, st2, i1, i2, i3⟩ := samples_in_order cs k hk0 hk (h1.good hg) g4 g5 h2 (fun t ht => hf t (List.mem_cons_of_mem _ ht))
    refine ⟨ns :: nss, st2, ?_, .cons g2 g3 i2, i3⟩
    simp only [List.map_cons, parseSamples, g1, i1]

theorem samples_any_order (cs : Bool) (k : Nat) (hk0 : 0 < k) (hk : k ≤ 7) {d : StdParams} (hg : GoodParams d) : ∀ {ss : List (List StdNal)} {st : ParserState}, Holds d st → Reach st →
    (∀ s ∈ ss, SentAll d s d ∧ SampleFits k s) →
    ∃ nss st', parseSamples cs k (ss.map (sampleBytes k)) st = .ok (nss, st') ∧ SamplesReported ss nss ∧ Holds d st'
  | [], st, hh, hr, hf => ⟨[], st, rfl, .nil, hh⟩
  | s :: ss, st, hh, hr, hf => by
    obtain ⟨h1, f1, f2⟩ := hf s (by simp)
    obtain ⟨ns, st1, g1, g2, g3, g4, g5⟩ := sample_parsed cs k hg hh hr hk0 hk h1 f1 f2
    obtain ⟨nss, st2, i1, i2, i3⟩ := samples_any_order cs k hk0 hk hg g4 g5 (fun t ht => hf t (List.mem_cons_of_mem _ ht))
    refine ⟨ns :: nss, st2, ?_, .cons g2 g3 i2, i3⟩
    simp only [List.map_cons, parseSamples, g1, i1]

/-- C80: the parameter sets of a track in its configuration box, its samples given one after the other with the length size the box says: the box gives the values and
parameter sets that were written, whatever the parser state held before, and each sample gives its NAL units, with the headers and contents that were sent. -/
theorem C80_track (cs : Bool) {st0 : ParserState} (hr : Reach st0) {p : List StdNal} {d d' : StdParams} (hs : SentAll .none p d)
    {x : Hvcc} (hv : x.Valid) {data : List UInt8} {r : List Bool} (hb : bitsOf data = x.bits ++ r) (hlen : data.length < 2 ^ 32)
    (hx : x.arrays.flatMap (·.2) = p.map fun y => escape y.rbsp)
    {samples : List (List StdNal)} (hss : SentAll d samples.flatten d') (hf : ∀ s ∈ samples, SampleFits (x.head.lengthSizeMinusOne + 1) s) :
    ∃ box st b nss st', parseConfigurationBoxBytes cs st0 data = .ok (some box, st) b ∧ box.head = x.head ∧
      (boxUnits box).length = p.length ∧ (∀ y ∈ p.zip (boxUnits box), Reports y.1 y.2) ∧ Holds d st ∧
      parseSamples cs (box.head.lengthSizeMinusOne + 1) (samples.map (sampleBytes (x.head.lengthSizeMinusOne + 1))) st = .ok (nss, st') ∧
      SamplesReported samples nss ∧ Holds d' st' := by
  obtain ⟨box, st, b, b1, b2, b3, b4, b5, b6⟩ := track_box cs hr hs hv hb hlen hx
  have := hv.head.lengthSizeMinusOne
  obtain ⟨nss, st', h1, h2, h3⟩ := samples_in_order cs (x.head.lengthSizeMinusOne + 1) (by omega) (by omega) (hs.good GoodParams.none) b3 b4 hss hf
  exact ⟨box, st, b, nss, st', b1, b2, b5, b6, b3, by rw [b2]; exact h1, h2, h3⟩

/-- C80, random access: when the samples leave the parameter sets of the box in force (they hold none, or repeat them), the caller may take any samples in any order,
leave some out and take some twice: each gives its NAL units, with the headers and contents that were sent. -/
theorem C80_random_access (cs : Bool) {st0 : ParserState} (hr : Reach st0) {p : List StdNal} {d : StdParams} (hs : SentAll .none p d)
    {x : Hvcc} (hv : x.Valid) {data : List UInt8} {r : List Bool} (hb : bitsOf data = x.bits ++ r) (hlen : data.length < 2 ^ 32)
    (hx : x.arrays.flatMap (·.2) = p.map fun y => escape y.rbsp)
    {track : List (List StdNal)} (hss : ∀ s ∈ track, SentAll d s d) (hf : ∀ s ∈ track, SampleFits (x.head.lengthSizeMinusOne + 1) s)
    (taken : List (List StdNal)) (ht : ∀ s ∈ taken, s ∈ track) :
    ∃ box st b nss st', parseConfigurationBoxBytes cs st0 data = .ok (some box, st) b ∧ box.head = x.head ∧
      parseSamples cs (box.head.lengthSizeMinusOne + 1) (taken.map (sampleBytes (x.head.lengthSizeMinusOne + 1))) st = .ok (nss, st') ∧
      SamplesReported taken nss ∧ Holds d st' := by
  obtain ⟨box, st, b, b1, b2, b3, b4, _, _⟩ := track_box cs hr hs hv hb hlen hx
  have := hv.head.lengthSizeMinusOne
  obtain ⟨nss, st', h1, h2, h3⟩ := samples_any_order cs (x.head.lengthSizeMinusOne + 1) (by omega) (by omega) (hs.good GoodParams.none) b3 b4
    (ss := taken) (fun s h => ⟨hss s (ht s h), hf s (ht s h)⟩)
  exact ⟨box, st, b, nss, st', b1, b2, by rw [b2]; exact h1, h2, h3⟩

/-! ### hypotheses met: the box and slices of the example -/

theorem exHvcc_valid : exHvcc.Valid := by
  refine ⟨by constructor <;> first | decide +kernel | exact ⟨by decide, by decide⟩, by decide +kernel, ?_, by decide +kernel, by decide +kernel⟩
  intro a ha
  simp only [exHvcc, List.mem_cons, List.not_mem_nil, or_false] at ha
  rcases ha with rfl | rfl | rfl <;> constructor <;> decide

/-- each slice of the example as a sample of its own -/
def exTrack : List (List StdNal) := (exNals.drop 3).map fun x => [x]

theorem exTrack_sent : ∃ d, SentAll .none (exNals.take 3) d ∧ SentAll d exTrack.flatten d ∧ ∀ s ∈ exTrack, SentAll d s d := by
  obtain ⟨d', h⟩ := exNals_sent
  obtain ⟨d, h1, h2⟩ := SentAll.split (l := exNals.take 3) (l' := exNals.drop 3) (by rw [List.take_append_drop]; exact h)
  refine ⟨d, h1, ?_⟩
  change SentAll d [exNals[3], exNals[4]] d' at h2
  cases h2 with | cons i h2 =>
  cases h2 with | cons q h2 =>
  refine ⟨.cons i (.cons q (.nil _)), ?_⟩
  intro s hs
  simp only [exTrack, exNals, List.drop_succ_cons, List.drop_zero, List.map_cons, List.map_nil, List.mem_cons, List.not_mem_nil, or_false] at hs
  rcases hs with rfl | rfl
  · exact .cons i (.nil _)
  · exact .cons q (.nil _)

theorem exTrack_fits : ∀ s ∈ exTrack, SampleFits (exHvcc.head.lengthSizeMinusOne + 1) s := by
  intro s hs
  simp only [exTrack, exNals, List.drop_succ_cons, List.drop_zero, List.map_cons, List.map_nil, List.mem_cons, List.not_mem_nil, or_false] at hs
  rcases hs with rfl | rfl <;> constructor <;> first | decide +kernel | (intro x hx; rw [List.mem_singleton.1 hx]; decide +kernel)

/-- the second slice, then both, then the second again -/
example (cs : Bool) : ∃ box st b nss st', parseConfigurationBoxBytes cs .empty exBox = .ok (some box, st) b ∧
    parseSamples cs (box.head.lengthSizeMinusOne + 1) (([exTrack[1], exTrack[0], exTrack[1], exTrack[1]]).map (sampleBytes (exHvcc.head.lengthSizeMinusOne + 1))) st = .ok (nss, st') ∧
    SamplesReported [exTrack[1], exTrack[0], exTrack[1], exTrack[1]] nss := by
  obtain ⟨d, h1, h2, h3⟩ := exTrack_sent
  obtain ⟨box, st, b, nss, st', a1, a2, a3, a4, a5⟩ := C80_random_access cs Reach.empty h1 exHvcc_valid (data := exBox) (r := []) (by decide +kernel) (by decide +kernel) (by decide +kernel)
    h3 exTrack_fits [exTrack[1], exTrack[0], exTrack[1], exTrack[1]] (by intro s hs; simp only [List.mem_cons, List.not_mem_nil, or_false] at hs; rcases hs with rfl | rfl | rfl | rfl <;> exact List.getElem_mem _)
  exact ⟨box, st, b, nss, st', a1, a3, a4⟩

end H265.Std
