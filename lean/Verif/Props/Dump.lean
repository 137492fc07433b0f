/-
C49, C50, C51: the text form (`fdump`) of parsed objects.
-/
import Verif.Proof.DumpLay
import Verif.Proof.DumpRtp
import Verif.Proof.DumpIndent
import Verif.Props.NalLength
import Verif.Props.Stream

set_option autoImplicit false

namespace H265
open Spec

/-! ### From dumps to texts -/

theorem Null.outcome {x : Dump} {B : Prop} (h : Null x B) (lvl : Int) : (B → x.text lvl = .error .nullDeref) ∧ (¬ B → ∃ s, x.text lvl = .ok s) := by
  rcases h with ⟨h1, rfl⟩ | ⟨h1, d, rfl⟩
  · exact ⟨fun _ => rfl, fun h => absurd h1 h⟩
  · exact ⟨fun h => absurd h h1, fun _ => ⟨_, rfl⟩⟩

theorem text_ok {x : Dump} {lvl : Int} {s : List Char} (h : x.text lvl = .ok s) : ∃ d, x = .ok d ∧ d.render lvl = s := by
  cases x with
  | error k => cases h
  | ok d => cases h; exact ⟨d, rfl, rfl⟩

/-- what is claimed of the layout of a text at some level: balanced braces; at level -1 a single line; at a level from 0 on every
line indented by two blanks per level and open brace; at any other level the same words -/
def Spec.GoodLayout (x : Dump) (lvl : Int) (s : List Char) : Prop :=
  Balanced s ∧ (lvl = -1 → OneLine s) ∧ (∀ l : Nat, lvl = l → Indented l s) ∧ ∀ lvl', ∃ s', x.text lvl' = .ok s' ∧ words s' = words s

theorem Lay.layout {x : Dump} {lvl : Int} {s : List Char} (hl : Lay x) (hi : IndB x) (h : x.text lvl = .ok s) : Spec.GoodLayout x lvl s := by
  obtain ⟨d, rfl, rfl⟩ := text_ok h
  obtain ⟨h1, h2⟩ := hl d rfl
  refine ⟨?_, ?_, ?_, fun lvl' => ⟨_, rfl, words_render d _ _⟩⟩
  · have := h1 lvl 0 []
    simpa [Balanced, braceDepth] using this
  · rintro rfl; exact h2
  · rintro l rfl; exact hi.indented rfl

theorem Says.text {x : Dump} {ws : Text} (h : Says x ws) {lvl : Int} {s : List Char} (hs : x.text lvl = .ok s) : words s = ws := by
  obtain ⟨d, rfl, rfl⟩ := text_ok hs
  rw [words_render d lvl (-1)]; exact h d rfl

/-! ### NAL units -/

/-- C49: any NAL unit returned by the parser, in any state left by earlier parsing, dumped with any options at any level: text is written, unless an
access unit delimiter or a PPS multilayer extension could not be parsed, or a checksum is asked for that was not computed; then (exactly then) a null
pointer is dereferenced. -/
theorem C49_nal_unit {cs : Bool} {st st' : ParserState} {data : List UInt8} {n : NalUnit} {b : BB} (hs : Reach st)
    (h : parseNalUnit cs st data = .ok (n, st') b) (o : ParsingOptions) (lvl : Int) :
    (NoText o n → (dumpNalUnit o st n).text lvl = .error .nullDeref) ∧ (¬ NoText o n → ∃ s, (dumpNalUnit o st n).text lvl = .ok s) :=
  (parseNalUnit_unit hs h).1.null.outcome lvl

/-- C49 for dumps with the options the NAL unit was parsed with: only the two unchecked payloads are left. -/
theorem C49_nal_unit_same_options {o : ParsingOptions} {st st' : ParserState} {data : List UInt8} {n : NalUnit} {b : BB} (hs : Reach st)
    (h : parseNalUnit o.add_checksum st data = .ok (n, st') b) (lvl : Int) :
    (∃ s, (dumpNalUnit o st n).text lvl = .ok s) ↔ ¬ NoPayload n.nal_unit_header.nal_unit_type n.nal_unit_payload := by
  have hc := (parseNalUnit_unit hs h).1.checksum
  have he : NoText o n ↔ NoPayload n.nal_unit_header.nal_unit_type n.nal_unit_payload := by
    unfold NoText
    constructor
    · rintro (⟨h1, h2⟩ | h)
      · rw [h1, h2] at hc; cases hc
      · exact h
    · exact .inr
  obtain ⟨h1, h2⟩ := C49_nal_unit hs h o lvl
  rw [← he]
  constructor
  · rintro ⟨s, hs⟩ hn
    rw [h1 hn] at hs; cases hs
  · exact h2

/-- C50: the layout of the text of any NAL unit -/
theorem C50_nal_unit {o : ParsingOptions} {st : ParserState} {n : NalUnit} {lvl : Int} {s : List Char} (h : (dumpNalUnit o st n).text lvl = .ok s) :
    GoodLayout (dumpNalUnit o st n) lvl s := (lay_dumpNalUnit o st n).layout (ind_dumpNalUnit o st n) h

/-- C51: the words of the text of a NAL unit are those of the table: each syntax element once with its name and value, in order. -/
theorem C51_nal_unit {cs : Bool} {st st' : ParserState} {data : List UInt8} {n : NalUnit} {b : BB} (hs : Reach st)
    (h : parseNalUnit cs st data = .ok (n, st') b) {o : ParsingOptions} {lvl : Int} {s : List Char} (ht : (dumpNalUnit o st n).text lvl = .ok s) :
    words s = textNalUnit o st n := (parseNalUnit_unit hs h).1.says.text ht

/-! ### Bitstreams -/

theorem bitstream_units {o : ParsingOptions} {st st' : ParserState} {data : List UInt8} {b : BitstreamObject} (hs : Reach st) (hlen : data.length < 2 ^ 64)
    (h : parseBitstreamObject o st data = .ok (b, st')) :
    b.parsing_options = {} ∧ ∀ x ∈ withStates (fun n => some n.nal_unit_payload) st b.nal_units, UnitOk o.add_checksum x.1 x.2 := by
  unfold parseBitstreamObject at h
  cases hp : parseBitstream o.add_checksum st data with
  | error k => rw [hp] at h; cases h
  | ok x =>
    rw [hp] at h; cases h
    rw [parseBitstream_eq _ _ _ hlen] at hp
    exact ⟨rfl, parseAll_units hs hp⟩

theorem length_units {o : ParsingOptions} {w : Nat} {st st' : ParserState} {data : List UInt8} {b : BitstreamObject} (hs : Reach st) (hw : w ≤ 7)
    (hlen : data.length < 2 ^ 63) (h : parseNaluLengthObject o w st data = .ok (b, st')) :
    b.parsing_options = {} ∧ ∀ x ∈ withStates (fun n => some n.nal_unit_payload) st b.nal_units, UnitOk o.add_checksum x.1 x.2 := by
  unfold parseNaluLengthObject at h
  cases hp : parseBitstreamNaluLength o.add_checksum w st data with
  | error k => rw [hp] at h; cases h
  | ok x =>
    rw [hp] at h; cases h
    refine ⟨rfl, ?_⟩
    by_cases h0 : w = 0
    · subst h0
      by_cases hd : data = []
      · subst hd; cases hp; intro x hx; cases hx
      · rw [C15_no_length _ _ _ hd (by omega)] at hp
        exact parseAll_units hs hp
    · obtain ⟨l, _, he⟩ := C15_length_framing o.add_checksum w st data (by omega) hw hlen
      rw [he] at hp
      exact parseAll_units hs hp

/-- a unit of the list cannot be dumped because of its payload -/
def Spec.NoPayloads (ns : List NalUnit) : Prop := ∃ n ∈ ns, NoPayload n.nal_unit_header.nal_unit_type n.nal_unit_payload

theorem stream_notext {cs : Bool} {o : ParsingOptions} {st : ParserState} {ns : List NalUnit}
    (h : ∀ x ∈ withStates (fun n => some n.nal_unit_payload) st ns, UnitOk cs x.1 x.2) :
    (∃ n ∈ ns, NoText o n) ↔ (o.add_checksum = true ∧ cs = false ∧ ns ≠ []) ∨ Spec.NoPayloads ns := by
  have hc : ∀ n ∈ ns, n.checksum.isSome = cs := by
    intro n hn
    obtain ⟨x, hx, he⟩ := (mem_withStates (pay := fun n : NalUnit => some n.nal_unit_payload) (st := st) (P := fun m => m = n)).2 ⟨n, hn, rfl⟩
    have := (h x hx).checksum
    rw [he] at this; exact this
  unfold NoText Spec.NoPayloads
  constructor
  · rintro ⟨n, hn, ⟨h1, h2⟩ | h1⟩
    · refine .inl ⟨h1, ?_, List.ne_nil_of_mem hn⟩
      have := hc n hn; rw [h2] at this; exact this.symm
    · exact .inr ⟨n, hn, h1⟩
  · rintro (⟨h1, h2, h3⟩ | ⟨n, hn, h1⟩)
    · obtain ⟨n, hn⟩ := List.exists_mem_of_ne_nil _ h3
      refine ⟨n, hn, .inl ⟨h1, ?_⟩⟩
      have := hc n hn; rw [h2] at this
      cases hk : n.checksum with
      | none => rfl
      | some c => rw [hk] at this; cases this
    · exact ⟨n, hn, .inr h1⟩

/-- C49: dumping a bitstream that was parsed with a caller's parser state.  Besides the two unchecked payloads there is one more case: the object does
not remember the options it was parsed with, so if it was parsed without checksums, the dump of any non-empty stream dereferences a null pointer. -/
theorem C49_bitstream {o : ParsingOptions} {st st' : ParserState} {data : List UInt8} {b : BitstreamObject} (hs : Reach st) (hlen : data.length < 2 ^ 64)
    (h : parseBitstreamObject o st data = .ok (b, st')) (lvl : Int) :
    ((o.add_checksum = false ∧ b.nal_units ≠ []) ∨ NoPayloads b.nal_units → (dumpBitstreamObject st b).text lvl = .error .nullDeref) ∧
    (¬ ((o.add_checksum = false ∧ b.nal_units ≠ []) ∨ NoPayloads b.nal_units) → ∃ s, (dumpBitstreamObject st b).text lvl = .ok s) := by
  obtain ⟨ho, hu⟩ := bitstream_units hs hlen h
  have := (null_dumpBitstream (o := b.parsing_options) hu).congr (stream_notext hu)
  refine (this.congr ?_).outcome lvl
  rw [ho]; simp

/-- C49: dumping a bitstream that was parsed with a fresh state: only the two unchecked payloads. -/
theorem C49_bitstream_fresh {o : ParsingOptions} {data : List UInt8} {b : BitstreamObject} (hlen : data.length < 2 ^ 64)
    (h : parseBitstreamFreshObject o data = .ok b) (lvl : Int) :
    (NoPayloads b.nal_units → (dumpBitstreamObject .empty b).text lvl = .error .nullDeref) ∧
    (¬ NoPayloads b.nal_units → ∃ s, (dumpBitstreamObject .empty b).text lvl = .ok s) := by
  unfold parseBitstreamFreshObject parseBitstreamFresh at h
  cases hp : parseBitstream o.add_checksum .empty data with
  | error k => rw [hp] at h; cases h
  | ok x =>
    rw [hp] at h; cases h
    rw [parseBitstream_eq _ _ _ hlen] at hp
    have hu := parseAll_units ⟨_, .nil _⟩ hp
    refine (((null_dumpBitstream (o := o) hu).congr (stream_notext hu)).congr ?_).outcome lvl
    constructor
    · rintro (⟨h1, h2, _⟩ | h)
      · rw [h1] at h2; cases h2
      · exact h
    · exact .inr

/-- C49: the same for streams with length fields, state-taking call -/
theorem C49_length_stream {o : ParsingOptions} {w : Nat} {st st' : ParserState} {data : List UInt8} {b : BitstreamObject} (hs : Reach st) (hw : w ≤ 7)
    (hlen : data.length < 2 ^ 63) (h : parseNaluLengthObject o w st data = .ok (b, st')) (lvl : Int) :
    ((o.add_checksum = false ∧ b.nal_units ≠ []) ∨ NoPayloads b.nal_units → (dumpBitstreamObject st b).text lvl = .error .nullDeref) ∧
    (¬ ((o.add_checksum = false ∧ b.nal_units ≠ []) ∨ NoPayloads b.nal_units) → ∃ s, (dumpBitstreamObject st b).text lvl = .ok s) := by
  obtain ⟨ho, hu⟩ := length_units hs hw hlen h
  have := (null_dumpBitstream (o := b.parsing_options) hu).congr (stream_notext hu)
  refine (this.congr ?_).outcome lvl
  rw [ho]; simp

/-- C49: the same for streams with length fields, fresh state -/
theorem C49_length_stream_fresh {o : ParsingOptions} {w : Nat} {data : List UInt8} {b : BitstreamObject} (hw : w ≤ 7) (hlen : data.length < 2 ^ 63)
    (h : parseNaluLengthFreshObject o w data = .ok b) (lvl : Int) :
    (NoPayloads b.nal_units → (dumpBitstreamObject .empty b).text lvl = .error .nullDeref) ∧
    (¬ NoPayloads b.nal_units → ∃ s, (dumpBitstreamObject .empty b).text lvl = .ok s) := by
  unfold parseNaluLengthFreshObject parseBitstreamNaluLengthFresh at h
  cases hp : parseBitstreamNaluLength o.add_checksum w .empty data with
  | error k => rw [hp] at h; cases h
  | ok x =>
    rw [hp] at h; cases h
    have hu := (length_units (o := o) (w := w) (st := .empty) (st' := x.2) (data := data) (b := ⟨x.1, {}⟩) ⟨_, .nil _⟩ hw hlen
      (by unfold parseNaluLengthObject; rw [hp])).2
    refine (((null_dumpBitstream (o := o) hu).congr (stream_notext hu)).congr ?_).outcome lvl
    constructor
    · rintro (⟨h1, h2, _⟩ | h)
      · rw [h1] at h2; cases h2
      · exact h
    · exact .inr

/-- C50, C51: the text of a stream is the texts of its NAL units in order, each followed by a line break: `nal_unit` texts as they are written for the units alone.
At level -1 each of them is a single line; at a level from 0 on each is indented. -/
theorem C50_bitstream {st : ParserState} {b : BitstreamObject} {lvl : Int} {s : List Char} (h : (dumpBitstreamObject st b).text lvl = .ok s) :
    ∃ ts : List (List Char), ts.length = b.nal_units.length ∧ s = ts.flatMap (fun t => t ++ ['\n']) ∧ (lvl = -1 → ∀ t ∈ ts, OneLine t) ∧
      (∀ l : Nat, lvl = l → ∀ t ∈ ts, Balanced t ∧ Indented l t) ∧
      ∀ k (hk : k < b.nal_units.length) (hk' : k < ts.length),
        (dumpNalUnit b.parsing_options (known st ((b.nal_units.take k).map (·.nal_unit_payload))) b.nal_units[k]).text lvl = .ok ts[k] := by
  obtain ⟨d, hd, rfl⟩ := text_ok h
  obtain ⟨docs, h1, h2, h3⟩ := seq_lines (f := fun x : ParserState × NalUnit => dumpNalUnit b.parsing_options x.1 x.2) hd
  rw [withStates_eq] at h1 h2
  have hlen : docs.length = b.nal_units.length := by simpa using h1
  have key : ∀ k (hk : k < b.nal_units.length) (hk' : k < docs.length),
      dumpNalUnit b.parsing_options (known st ((b.nal_units.take k).map (·.nal_unit_payload))) b.nal_units[k] = .ok docs[k] := by
    intro k hk hk'
    have := h2 k (by simpa using hk) hk'
    simpa using this
  refine ⟨docs.map (·.render lvl), by simpa using hlen, by rw [h3, List.flatMap_map], ?_, ?_, ?_⟩
  · rintro rfl t ht
    obtain ⟨e, he, rfl⟩ := List.mem_map.1 ht
    obtain ⟨k, hk, rfl⟩ := List.getElem_of_mem he
    exact (lay_dumpNalUnit _ _ _ _ (key k (by omega) hk)).2
  · rintro l rfl t ht
    obtain ⟨e, he, rfl⟩ := List.mem_map.1 ht
    obtain ⟨k, hk, rfl⟩ := List.getElem_of_mem he
    have hx := key k (by omega) hk
    obtain ⟨h1, _, h2, _⟩ := C50_nal_unit (lvl := l) (s := docs[k].render l) (by rw [hx]; rfl)
    exact ⟨h1, h2 l rfl⟩
  · intro k hk hk'
    rw [key k hk (by simpa using hk')]
    simp [Dump.text, Except.map]

theorem words_lines : ∀ (ts : List (List Char)), words (ts.flatMap fun t => t ++ ['\n']) = ts.flatMap words
  | [] => rfl
  | t :: ts => by
    have e : (t :: ts).flatMap (fun t => t ++ ['\n']) = t ++ ('\n' :: ts.flatMap fun t => t ++ ['\n']) := by simp
    have h2 := wordsFrom_blank [] ['\n'] (by simp) (by simp [blank]) (ts.flatMap fun t => t ++ ['\n'])
    simp only [List.cons_append, List.nil_append, if_true] at h2
    rw [e, words_sep _ (.inr (.inr ⟨_, rfl⟩)), List.flatMap_cons]
    refine congrArg _ (Eq.trans ?_ (words_lines ts))
    exact h2

theorem stream_words {cs : Bool} {st : ParserState} {b : BitstreamObject} {lvl : Int} {s : List Char}
    (hu : ∀ x ∈ withStates (fun n => some n.nal_unit_payload) st b.nal_units, UnitOk cs x.1 x.2) (h : (dumpBitstreamObject st b).text lvl = .ok s) :
    words s = (textBitstream b.parsing_options st b.nal_units).flatten := by
  obtain ⟨ts, h1, rfl, _, _, h3⟩ := C50_bitstream h
  rw [words_lines]
  have : ts.map words = textBitstream b.parsing_options st b.nal_units := by
    refine List.ext_getElem (by simp [textBitstream, h1]) (fun k hk hk' => ?_)
    have hk1 : k < b.nal_units.length := by simpa [textBitstream] using hk'
    have hk2 : k < ts.length := by omega
    simp only [List.getElem_map, textBitstream, List.getElem_mapIdx]
    have hm : (known st ((b.nal_units.take k).map (·.nal_unit_payload)), b.nal_units[k]) ∈ withStates (fun n => some n.nal_unit_payload) st b.nal_units := by
      rw [withStates_eq]
      refine List.mem_mapIdx.2 ⟨k, hk1, ?_⟩
      simp
    have h4 := h3 k hk1 hk2
    have h5 := (hu _ hm).says (o := b.parsing_options)
    generalize b.nal_units[k] = n at h4 h5 ⊢
    generalize known st ((b.nal_units.take k).map (·.nal_unit_payload)) = t at h4 h5 ⊢
    exact Says.text h5 h4
  rw [← this, List.flatMap_def]

/-- C51: the words of the text of a bitstream, whichever of the four parsing functions returned it (here: with a caller's parser state) -/
theorem C51_bitstream {o : ParsingOptions} {st st' : ParserState} {data : List UInt8} {b : BitstreamObject} (hs : Reach st) (hlen : data.length < 2 ^ 64)
    (h : parseBitstreamObject o st data = .ok (b, st')) {lvl : Int} {s : List Char} (ht : (dumpBitstreamObject st b).text lvl = .ok s) :
    words s = (textBitstream {} st b.nal_units).flatten := by
  obtain ⟨ho, hu⟩ := bitstream_units hs hlen h
  have := stream_words hu ht
  rw [ho] at this; exact this

/-- C51: with a fresh state the options are those of the call -/
theorem C51_bitstream_fresh {o : ParsingOptions} {data : List UInt8} {b : BitstreamObject} (hlen : data.length < 2 ^ 64)
    (h : parseBitstreamFreshObject o data = .ok b) {lvl : Int} {s : List Char} (ht : (dumpBitstreamObject .empty b).text lvl = .ok s) :
    words s = (textBitstream o .empty b.nal_units).flatten := by
  unfold parseBitstreamFreshObject parseBitstreamFresh at h
  cases hp : parseBitstream o.add_checksum .empty data with
  | error k => rw [hp] at h; cases h
  | ok x =>
    rw [hp] at h; cases h
    rw [parseBitstream_eq _ _ _ hlen] at hp
    exact stream_words (parseAll_units ⟨_, .nil _⟩ hp) ht

/-- C51 for streams with length fields -/
theorem C51_length_stream {o : ParsingOptions} {w : Nat} {st st' : ParserState} {data : List UInt8} {b : BitstreamObject} (hs : Reach st) (hw : w ≤ 7)
    (hlen : data.length < 2 ^ 63) (h : parseNaluLengthObject o w st data = .ok (b, st')) {lvl : Int} {s : List Char}
    (ht : (dumpBitstreamObject st b).text lvl = .ok s) : words s = (textBitstream {} st b.nal_units).flatten := by
  obtain ⟨ho, hu⟩ := length_units hs hw hlen h
  have := stream_words hu ht
  rw [ho] at this; exact this

/-! ### Configuration boxes -/

/-- C49: dumping any configuration box returned by the parser, with any options at any level -/
theorem C49_configuration_box {cs : Bool} {st st' : ParserState} {data : List UInt8} {box : ConfigurationBox} {bb' : BB} (hs : Reach st)
    (h : parseConfigurationBoxBytes cs st data = .ok (some box, st') bb') (o : ParsingOptions) (lvl : Int) :
    (NoBoxText o box → (dumpConfigurationBox o st box).text lvl = .error .nullDeref) ∧
    (¬ NoBoxText o box → ∃ s, (dumpConfigurationBox o st box).text lvl = .ok s) :=
  (null_dumpConfigurationBox (box_ok hs h)).outcome lvl

/-- C50 for configuration boxes -/
theorem C50_configuration_box {o : ParsingOptions} {st : ParserState} {box : ConfigurationBox} {lvl : Int} {s : List Char}
    (h : (dumpConfigurationBox o st box).text lvl = .ok s) : GoodLayout (dumpConfigurationBox o st box) lvl s := 
  (lay_dumpConfigurationBox o st box).layout (ind_dumpConfigurationBox o st box) h

/-- C51 for configuration boxes -/
theorem C51_configuration_box {cs : Bool} {st st' : ParserState} {data : List UInt8} {box : ConfigurationBox} {bb' : BB} (hs : Reach st)
    (h : parseConfigurationBoxBytes cs st data = .ok (some box, st') bb') {o : ParsingOptions} {lvl : Int} {s : List Char}
    (ht : (dumpConfigurationBox o st box).text lvl = .ok s) : words s = textConfigurationBox o st box :=
  (says_dumpConfigurationBox (box_ok hs h)).text ht

/-! ### RTP payloads -/

/-- C49: dumping any RTP payload returned by the parser, with any options at any level -/
theorem C49_rtp {st st' : ParserState} {data : List UInt8} {r : Rtp} (hs : Reach st) (hlen : data.length < 2 ^ 32)
    (h : parseRtp st data = .ok (some r, st')) (o : ParsingOptions) (lvl : Int) :
    (NoRtpText r → (dumpRtp o st r).text lvl = .error .nullDeref) ∧ (¬ NoRtpText r → ∃ s, (dumpRtp o st r).text lvl = .ok s) :=
  (null_dumpRtp (rtp_ok hs hlen h)).outcome lvl

/-- C50 for RTP payloads -/
theorem C50_rtp {o : ParsingOptions} {st : ParserState} {r : Rtp} {lvl : Int} {s : List Char} (h : (dumpRtp o st r).text lvl = .ok s) :
    GoodLayout (dumpRtp o st r) lvl s := (lay_dumpRtp o st r).layout (ind_dumpRtp o st r) h

/-- C51 for RTP payloads -/
theorem C51_rtp {st st' : ParserState} {data : List UInt8} {r : Rtp} (hs : Reach st) (hlen : data.length < 2 ^ 32)
    (h : parseRtp st data = .ok (some r, st')) {o : ParsingOptions} {lvl : Int} {s : List Char} (ht : (dumpRtp o st r).text lvl = .ok s) :
    words s = textRtp o st r := (says_dumpRtp (rtp_ok hs hlen h)).text ht

/-! ### Examples -/

/-- the text of a NAL unit parsed in the initial state -/
def nalText (o : ParsingOptions) (lvl : Int) (data : List UInt8) : Except Bad String :=
  match parseNalUnit o.add_checksum .empty data with
  | .ok (n, _) _ => ((dumpNalUnit o .empty n).text lvl).map String.ofList
  | _ => .error .hang

/-- an access unit delimiter -/
example : nalText ⟨false, true, true, false, false⟩ (-1) [0x46, 0x01, 0x50] =
    .ok ("nal_unit { length: 0 parsed_length: 3 nal_unit_header { forbidden_zero_bit: 0 nal_unit_type: 35 nuh_layer_id: 0 nuh_temporal_id_plus1: 1 } " ++
      "nal_unit_payload { aud { pic_type: 2 } } }") := by decide +kernel
example : nalText ⟨true, false, false, false, false⟩ 0 [0x46, 0x01, 0x50] =
    .ok ("nal_unit {\n  offset: 0x00000000\n  nal_unit_header {\n    forbidden_zero_bit: 0\n    nal_unit_type: 35\n    nuh_layer_id: 0\n    nuh_temporal_id_plus1: 1\n  }\n  " ++
      "nal_unit_payload {\n    aud {\n      pic_type: 2\n    }\n  }\n}") := by decide +kernel

/-- C49, the access unit delimiter that cannot be parsed: two bytes are enough -/
theorem C49_aud_null : nalText ⟨false, false, false, false, false⟩ (-1) [0x46, 0x01] = .error .nullDeref := by decide +kernel

/-- C49, the PPS with an unsupported multilayer extension -/
theorem C49_pps_null : nalText ⟨false, false, false, false, false⟩ (-1) ([0x44, 0x01] ++ lostPps) = .error .nullDeref := by decide +kernel

/-- the text of a stream, parsed with a caller's state -/
def streamText (o : ParsingOptions) (lvl : Int) (data : List UInt8) : Except Bad String :=
  match parseBitstreamObject o .empty data with
  | .ok (b, _) => ((dumpBitstreamObject .empty b).text lvl).map String.ofList
  | .error k => .error k

/-- the text of a stream, parsed with a fresh state -/
def freshText (o : ParsingOptions) (lvl : Int) (data : List UInt8) : Except Bad String :=
  match parseBitstreamFreshObject o data with
  | .ok b => ((dumpBitstreamObject .empty b).text lvl).map String.ofList
  | .error k => .error k

/-- C49, the options are not remembered: the same options, the same stream, with a caller's state and with a fresh one -/
theorem C49_options_forgotten :
    streamText ⟨false, false, false, false, false⟩ (-1) [0, 0, 1, 0x46, 0x01, 0x50] = .error .nullDeref ∧
    freshText ⟨false, false, false, false, false⟩ (-1) [0, 0, 1, 0x46, 0x01, 0x50] =
      .ok ("nal_unit { nal_unit_header { forbidden_zero_bit: 0 nal_unit_type: 35 nuh_layer_id: 0 nuh_temporal_id_plus1: 1 } nal_unit_payload { aud { pic_type: 2 } } }\n") := by
  decide +kernel

/-- C49, a null entry of a configuration box -/
theorem C49_box_null : (match parseConfigurationBoxBytes false .empty (boxHead.set 22 1 ++ [0xa0, 0x00, 0x01, 0x00, 0x01, 0x40]) with
    | .ok (some b, _) _ => ((dumpConfigurationBox ⟨false, false, false, false, false⟩ .empty b).text (-1)).map String.ofList
    | _ => .error .hang) = .error .nullDeref := by decide +kernel

/-- C49, C51: a configuration box that can be dumped -/
example : (match parseConfigurationBoxBytes false .empty testBox with
    | .ok (some b, _) _ => ((dumpConfigurationBox ⟨false, false, false, false, false⟩ .empty b).text (-1)).map fun s => (words s).length
    | _ => .error .hang) = .ok 578 := by decide +kernel

/-- C49, C51: an RTP packet -/
example : (match parseRtp .empty [0x46, 0x01, 0x50] with
    | .ok (some r, _) => ((dumpRtp {} .empty r).text (-1)).map String.ofList
    | _ => .error .hang) =
    .ok ("rtp { nal_unit_header { forbidden_zero_bit: 0 nal_unit_type: 35 nuh_layer_id: 0 nuh_temporal_id_plus1: 1 }rtp_single { nal_unit_header { forbidden_zero_bit: 0 " ++
      "nal_unit_type: 35 nuh_layer_id: 0 nuh_temporal_id_plus1: 1 } nal_unit_payload { aud { pic_type: 2 } } } }") := by decide +kernel

end H265
