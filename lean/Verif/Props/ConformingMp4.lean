/-
C76: parameter sets in a configuration box and NAL units behind length fields, as in an MP4 file, given to the program as two files.
-/
import Verif.Props.Conforming
import Verif.Props.Containers

set_option autoImplicit false

namespace H265.Std
open Spec

/-- `C48_length_prefixed` after some parameter sets -/
theorem length_from (cs : Bool) (k : Nat) {st : ParserState} {l : List StdNal} {d d' : StdParams} (hg : GoodParams d) (hh : Holds d st) (hr : Reach st) (hk0 : 0 < k) (hk : k ≤ 7)
    (hs : SentAll d l d') (hl : ∀ x ∈ l, nalSize x < 256 ^ k ∧ nalSize x < 2 ^ 32) (hlen : (lengthFileOf k l).length < 2 ^ 63) :
    ∃ ns st', parseBitstreamNaluLength cs k st (lengthFileOf k l) = .ok (ns, st') ∧ ns.length = l.length ∧ (∀ x ∈ l.zip ns, Std.Reports x.1 x.2) := by
  have hb := hs.nal_bytes
  have hp := lengthPlaces_nal k (l.map fun x => escape x.rbsp) 0
  have hsm : ∀ x ∈ l, x.rbsp.length < 2 ^ 32 := fun x hx => by
    have h2 := length_le_escape x.rbsp
    have := (hl x hx).2
    unfold nalSize at this
    omega
  obtain ⟨ns, st', h1, h2, h3, h4, _⟩ := C48_all (cs := cs) _ hg hh hr hs hsm hp
  refine ⟨ns, st', ?_, ?_, h3⟩
  · unfold lengthFileOf
    rw [lengthStream_eq cs k st _ hk0 hk ?_ hlen, h1]
    intro x hx
    obtain ⟨y, hy, rfl⟩ := List.mem_map.1 hx
    exact ⟨(hb y hy).nonempty, (hl y hy).1⟩
  · have e1 := congrArg List.length h2
    have e2 := congrArg List.length hp
    simp only [List.length_map] at e1 e2
    omega

theorem SentAll.good {l : List StdNal} {d d' : StdParams} (h : SentAll d l d') (hg : GoodParams d) : GoodParams d' := by
  induction h with
  | nil => exact hg
  | cons h1 _ ih =>
    obtain ⟨w, hw, _⟩ := h1.contents
    exact ih (hg.after hw)

theorem hvccNals_count {cs : Bool} {st st' : ParserState} {nals : List (List UInt8)} {us : List HvccUnit} (h : HvccNals cs st nals us st') : us.length = nals.length := by
  induction h with
  | nil => rfl
  | ok _ _ ih => simp [ih]
  | null _ _ ih => simp [ih]

theorem hvccParsed_count {cs : Bool} {st st' : ParserState} {arrays : List (HvccArrayHead × List (List UInt8))} {as : List HvccArray} (h : HvccParsed cs st arrays as st') :
    (as.flatMap (·.units)).length = (arrays.flatMap (·.2)).length := by
  induction h with
  | nil => rfl
  | cons h1 _ ih => rw [List.flatMap_cons, List.flatMap_cons, List.length_append, List.length_append, ih, hvccNals_count h1]

theorem filterMap_all {α β : Type} (f : α → Option β) : ∀ (l : List α), (l.filterMap f).length = l.length → ∀ x ∈ l, ∃ y ∈ l.filterMap f, f x = some y
  | [], _, x, hx => by cases hx
  | a :: l, h, x, hx => by
    cases hf : f a with
    | none =>
      rw [List.filterMap_cons_none hf] at h
      have := List.length_filterMap_le f l
      simp only [List.length_cons] at h
      omega
    | some b =>
      rw [List.filterMap_cons_some hf] at h ⊢
      rcases List.mem_cons.1 hx with rfl | hx
      · exact ⟨b, by simp, hf⟩
      · obtain ⟨y, h1, h2⟩ := filterMap_all f l (by simpa using h) x hx
        exact ⟨y, List.mem_cons_of_mem _ h1, h2⟩

/-- a configuration box with NAL units made after the standard is parsed, holds them all, can be dumped, and leaves their parameter sets behind -/
theorem box_parsed (o : ParsingOptions) (lvl : Int) {p : List StdNal} {d : StdParams} (hs : SentAll .none p d)
    {x : Hvcc} (hv : x.Valid) {data : List UInt8} {r : List Bool} (hb : bitsOf data = x.bits ++ r) (hlen : data.length < 2 ^ 32)
    (hx : x.arrays.flatMap (·.2) = p.map fun y => escape y.rbsp) :
    ∃ box st b t, parseConfigurationBoxBytes o.add_checksum .empty data = .ok (some box, st) b ∧ box.head = x.head ∧ Holds d st ∧ Reach st ∧
      (boxUnits box).length = p.length ∧ (∀ y ∈ p.zip (boxUnits box), Std.Reports y.1 y.2) ∧ (dumpConfigurationBox o .empty box).text lvl = .ok t ∧
      Spec.words t = textConfigurationBox o .empty box := by
  have hsm : ∀ y ∈ p, y.rbsp.length < 2 ^ 32 := fun y hy => by
    have h1 : escape y.rbsp ∈ x.arrays.flatMap (·.2) := by rw [hx]; exact List.mem_map_of_mem hy
    obtain ⟨a, ha, hm⟩ := List.mem_flatMap.1 h1
    exact Nat.lt_of_le_of_lt (length_le_escape y.rbsp) (Nat.lt_trans (hv.nalUnitLength a ha _ hm) (by decide))
  obtain ⟨ns, st, h1, h2, h3, h4, h5⟩ := C48_all (cs := o.add_checksum) ((x.arrays.flatMap (·.2)).map fun y => (0, 0, y)) GoodParams.none (Holds.none .empty) Reach.empty hs hsm
    (by rw [hx]; simp [Function.comp_def])
  have hcount : ns.length = p.length := by
    have := congrArg List.length h2
    simpa [hx] using this
  obtain ⟨as, a1, a2⟩ := hvccParsed_of_all h1
  obtain ⟨bb', c1, _⟩ := C43_complete (BB.WF.init data) hv (by rw [BB.rem_init]; exact hb) a1
  have hparse : parseConfigurationBoxBytes o.add_checksum .empty data = .ok (some ⟨x.head, as⟩, st) bb' := by
    unfold parseConfigurationBoxBytes Prog.runBytes
    rw [if_pos (by omega)]
    exact c1
  have hall : ∀ u ∈ as.flatMap (·.units), ∃ n ∈ ns, u.nalUnit = some n := by
    have := filterMap_all (fun u : HvccUnit => u.nalUnit) (as.flatMap (·.units)) (by rw [a2, hvccParsed_count a1, hx, hcount]; simp)
    rw [a2] at this
    exact this
  have hno : ¬ NoBoxText o ⟨x.head, as⟩ := by
    rintro ⟨a, ha, u, hu, hn⟩
    obtain ⟨n, hm, he⟩ := hall u (List.mem_flatMap.2 ⟨a, ha, hu⟩)
    rcases hn n he with ⟨e1, e2⟩ | e
    · obtain ⟨i, hi, rfl⟩ := List.mem_iff_getElem.1 hm
      have := parseAll_units Reach.empty h1 (known .empty ((ns.take i).map (·.nal_unit_payload)), ns[i])
        (by rw [withStates_eq]; exact List.mem_mapIdx.2 ⟨i, hi, by simp⟩)
      have := this.checksum
      rw [e1, e2] at this
      cases this
    · exact (sent_noPayloads hs hcount h3).1 ⟨n, hm, e⟩
  obtain ⟨t, ht⟩ := (C49_configuration_box Reach.empty hparse o lvl).2 hno
  exact ⟨⟨x.head, as⟩, st, bb', t, hparse, rfl, h4, h5, by unfold boxUnits; rw [a2]; exact hcount, by unfold boxUnits; rw [a2]; exact h3, ht,
    C51_configuration_box Reach.empty hparse ht⟩

/-- C76 for MP4: a configuration box with parameter sets (and other NAL units) `p`, and a file with NAL units `l` behind length fields that use them: the program ends with
status 0 and writes the text of the box, then a text per NAL unit, in order; the NAL units have the headers and contents that were sent. -/
theorem C76_mp4 {v : List Char} {args : List (List Char)} {s : Settings} {w : World} {boxFile file : List Char} {k : Nat} {p l : List StdNal} {d d' : StdParams}
    (hs : parseArgs v args = .go s) (hb : s.hvcc_file = some boxFile) (hi : s.infile = some file) (hm : s.opts.dump_length = false) (hw : s.opts.nalu_length_bytes = k)
    (hk0 : 0 < k) (hk : k ≤ 7) (ho : s.outfile = none ∨ s.outfile = some ['-'] ∨ ∃ name, s.outfile = some name ∧ w.writable name = true)
    (hp : SentAll .none p d) {x : Hvcc} (hv : x.Valid) {boxData : List UInt8} {r : List Bool} (hbox : bitsOf boxData = x.bits ++ r)
    (hblen : boxData.length < 2 ^ 32) (hx : x.arrays.flatMap (·.2) = p.map fun y => escape y.rbsp) (hbf : input w (some boxFile) = .bytes boxData)
    (hl : SentAll d l d') (hlen : (lengthFileOf k l).length < 2 ^ 63) (hsz : ∀ x ∈ l, nalSize x < 256 ^ k ∧ nalSize x < 2 ^ 32)
    (hf : input (afterReading w (some boxFile)) (some file) = .bytes (lengthFileOf k l)) :
    ∃ (w' : World) (box : ConfigurationBox) (st : ParserState) (t : List Char) (ts : List (List Char)) (ns : List NalUnit), toolProgram v w args = .ok (0, w') ∧
      Written (afterReading (afterReading (started w s) s.hvcc_file) s.infile) s.outfile (t ++ ['\n'] ++ lines ts) w' ∧
      box.head = x.head ∧ (boxUnits box).length = p.length ∧ (∀ y ∈ p.zip (boxUnits box), Std.Reports y.1 y.2) ∧ Holds d st ∧
      Spec.words t = textConfigurationBox s.opts.effective.parsing .empty box ∧
      ts.length = l.length ∧ ns.length = l.length ∧ (s.opts.as_one_line = true → ∀ t ∈ ts, OneLine t) ∧ (∀ x ∈ l.zip ns, Std.Reports x.1 x.2) ∧
      ∀ i (hi : i < ns.length) (hi' : i < ts.length),
        Spec.words ts[i] = textNalUnit s.opts.effective.parsing (known st ((ns.take i).map (·.nal_unit_payload))) ns[i] ++
          (if s.opts.add_contents then textContents (lengthFileOf k l) ns[i].offset ns[i].length else []) := by
  have e := C54_effective s.opts
  obtain ⟨box, st, b, t, b1, b2, b3, b4, b5, b6, b7, b8⟩ := box_parsed s.opts.effective.parsing s.opts.level hp hv hbox hblen hx
  have ecs : s.opts.effective.parsing.add_checksum = s.opts.add_checksum := by
    show s.opts.effective.add_checksum = _
    rw [e]
  rw [ecs] at b1
  obtain ⟨ns, st', h1, h2, h3⟩ := length_from s.opts.add_checksum k (hp.good GoodParams.none) b3 b4 hk0 hk hl hsz hlen
  obtain ⟨hno, _⟩ := sent_noPayloads hl h2 h3
  obtain ⟨ts, t1, t2, t3, t4⟩ := (C53_length_stream (o := s.opts.effective) (w := k) b4 (by rw [e]; exact hm) (by rw [e]; exact hw) hk
    (data := lengthFileOf k l) hlen (by rw [e]; exact h1)).2 hno
  have hmain : toolMain s.opts (input w s.hvcc_file) (input (afterReading w s.hvcc_file) s.infile) = .ok (some (t ++ ['\n'] ++ lines ts)) := by
    rw [hb, hi, hbf, hf, (C53_main_box b1 b7).1, t2]
    rfl
  have ho : canOpen (afterReading (afterReading (started w s) s.hvcc_file) s.infile) s.outfile = true := by
    unfold canOpen
    rw [(afterReading_files _ _).2.2, (afterReading_files _ _).2.2]
    rcases ho with h | h | ⟨n, h, h2⟩ <;> rw [h]
    · rfl
    · change (n == ['-'] || w.writable n) = true
      rw [h2]; simp
  have hwr := writeOutput_written (t := t ++ ['\n'] ++ lines ts) ho
  have e1 : s.opts.effective.as_one_line = s.opts.as_one_line := by rw [e]
  have e2 : s.opts.effective.add_contents = s.opts.add_contents := by rw [e]
  rw [e1] at t3
  rw [e2] at t4
  exact ⟨_, box, st, t, ts, ns, (C75_success hs w _).2 ⟨_, hmain, hwr⟩, hwr, b2, b5, b6, b3, b8, by omega, h2, t3, h3, t4⟩

/-! ### An example -/

theorem SentAll.split {l' : List StdNal} : ∀ {l : List StdNal} {d d' : StdParams}, SentAll d (l ++ l') d' → ∃ m, SentAll d l m ∧ SentAll m l' d'
  | [], d, _, h => ⟨d, .nil d, h⟩
  | x :: l, d, d', h => by
    cases h with
    | cons h1 h2 =>
      obtain ⟨m, h3, h4⟩ := SentAll.split h2
      exact ⟨m, .cons h1 h3, h4⟩

/-- a configuration record with the three parameter sets of the example -/
def exHvcc : Hvcc where
  head := ⟨1, 0, 0, 1, List.replicate 32 0, 0, 93, 15, 0, 63, 0, 63, 1, 31, 0, 31, 0, 0, 0, 1, 0, 3, 3⟩
  arrays := [(⟨1, 0, 32, 1⟩, [escape (exBytes.getD 0 [])]), (⟨1, 0, 33, 1⟩, [escape (exBytes.getD 1 [])]), (⟨1, 0, 34, 1⟩, [escape (exBytes.getD 2 [])])]

/-- the bytes of the record -/
def exBox : List UInt8 := [1, 0x01, 0, 0, 0, 0, 0, 0, 0, 0, 0, 0, 93, 0xf0, 0, 0xfc, 0xfd, 0xf8, 0xf8, 0, 0, 0x0b, 3] ++ ([0xa0, 0, 1] ++ lengthPrefixed 2 [escape (exBytes.getD 0 [])] ++
  ([0xa1, 0, 1] ++ lengthPrefixed 2 [escape (exBytes.getD 1 [])] ++ ([0xa2, 0, 1] ++ lengthPrefixed 2 [escape (exBytes.getD 2 [])])))

/-- `h265nal --hvcc-file BOX --nalu-length-bytes 4 -i FILE` -/
def showMp4 (boxFile file : List Char) : List (List Char) := ["--hvcc-file".toList, boxFile, "--nalu-length-bytes".toList, "4".toList, "-i".toList, file]

theorem showMp4_args (v boxFile file : List Char) :
    parseArgs v (showMp4 boxFile file) = .go { infile := some file, hvcc_file := some boxFile, opts := { nalu_length_bytes := 4 } } := by
  have : getoptLong (showMp4 boxFile file) = [.opt .hvccFile boxFile, .opt .naluLengthBytes "4".toList, .opt .infile file] := rfl
  unfold parseArgs
  rw [this]; rfl

/-- hypotheses met: the parameter sets of the example in a configuration box, its slices behind length fields of four bytes -/
example : exHvcc.Valid ∧ bitsOf exBox = exHvcc.bits ++ [] ∧ exBox.length < 2 ^ 32 ∧ (exHvcc.arrays.flatMap (·.2) = (exNals.take 3).map fun y => escape y.rbsp) ∧
    (∃ d d', SentAll .none (exNals.take 3) d ∧ SentAll d (exNals.drop 3) d') ∧ (∀ x ∈ exNals.drop 3, nalSize x < 256 ^ 4 ∧ nalSize x < 2 ^ 32) ∧
    exNals.drop 3 ≠ [] := by
  refine ⟨⟨by constructor <;> first | decide +kernel | exact ⟨by decide, by decide⟩, by decide +kernel, ?_, by decide +kernel, by decide +kernel⟩, by decide +kernel, by decide +kernel, by decide +kernel, ?_,
    by decide +kernel, by decide +kernel⟩
  · intro a ha
    simp only [exHvcc, List.mem_cons, List.not_mem_nil, or_false] at ha
    rcases ha with rfl | rfl | rfl <;> constructor <;> decide
  · obtain ⟨d', h⟩ := exNals_sent
    obtain ⟨d, h1, h2⟩ := SentAll.split (l := exNals.take 3) (l' := exNals.drop 3) (by rw [List.take_append_drop]; exact h)
    exact ⟨d, d', h1, h2⟩

end H265.Std
