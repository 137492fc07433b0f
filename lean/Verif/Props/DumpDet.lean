/-
C69: the text form determines what was parsed.  `NalUnit.shown` (Spec/DumpShown) blanks the few elements that are not printed; two objects have the same text, word
by word and at any two indentation levels, exactly if everything else in them is equal.
-/
import Verif.Proof.DumpDet9
import Verif.Props.Dump
import Verif.Props.History

set_option autoImplicit false

namespace H265
open Spec

theorem Null.not_of_text {x : Dump} {B : Prop} (h : Null x B) {lvl : Int} {s : List Char} (ht : x.text lvl = .ok s) : ¬ B := fun hb => by
  rw [(h.outcome lvl).1 hb] at ht; cases ht

/-- C69 for NAL units parsed in the same state: whatever was parsed, with whatever options the two are dumped and at whatever levels. -/
theorem C69_nal_unit {cs cs' : Bool} {st st1 st2 : ParserState} {data data' : List UInt8} {n n' : NalUnit} {b b' : BB} (hs : Reach st)
    (h : parseNalUnit cs st data = .ok (n, st1) b) (h' : parseNalUnit cs' st data' = .ok (n', st2) b') {o : ParsingOptions} {lvl lvl' : Int} {s s' : List Char}
    (ht : (dumpNalUnit o st n).text lvl = .ok s) (ht' : (dumpNalUnit o st n').text lvl' = .ok s') : words s = words s' ↔ n.shown o = n'.shown o := by
  have u := (parseNalUnit_unit hs h).1
  have u' := (parseNalUnit_unit hs h').1
  have i := u.unitIn (o := o) (u.null.not_of_text ht)
  have i' := u'.unitIn (o := o) (u'.null.not_of_text ht')
  rw [C51_nal_unit hs h ht, C51_nal_unit hs h' ht']
  exact ⟨(det_NalUnit (.refl st) i i').eq, textNalUnit_alike (.refl st) i i'⟩

theorem stream_unitsIn {cs : Bool} {o : ParsingOptions} {st : ParserState} {ns : List NalUnit}
    (hu : ∀ x ∈ withStates (fun n => some n.nal_unit_payload) st ns, UnitOk cs x.1 x.2) {lvl : Int} {s : List Char}
    (ht : (dumpBitstreamObject st ⟨ns, o⟩).text lvl = .ok s) : ∀ x ∈ unitsFrom st ns, UnitIn o x.1 x.2 := by
  have hn := (null_dumpBitstream (o := o) hu).not_of_text ht
  intro x hx
  refine (hu x hx).unitIn (fun k => hn ?_)
  have := (mem_withStates (pay := fun n : NalUnit => some n.nal_unit_payload) (st := st) (P := fun m => NoText o m)).1 ⟨x, hx, k⟩
  exact this

theorem stream_texts {cs cs' : Bool} {o : ParsingOptions} {st : ParserState} {ns ns' : List NalUnit}
    (hu : ∀ x ∈ withStates (fun n => some n.nal_unit_payload) st ns, UnitOk cs x.1 x.2)
    (hu' : ∀ x ∈ withStates (fun n => some n.nal_unit_payload) st ns', UnitOk cs' x.1 x.2) {lvl lvl' : Int} {s s' : List Char}
    (ht : (dumpBitstreamObject st ⟨ns, o⟩).text lvl = .ok s) (ht' : (dumpBitstreamObject st ⟨ns', o⟩).text lvl' = .ok s') :
    words s = words s' ↔ ns.map (NalUnit.shown o) = ns'.map (NalUnit.shown o) := by
  rw [stream_words hu ht, stream_words hu' ht', textBitstream_from, textBitstream_from]
  exact ⟨stream_det (.refl st) (stream_unitsIn hu ht) (stream_unitsIn hu' ht'),
    fun h => by rw [stream_alike (.refl st) (stream_unitsIn hu ht) (stream_unitsIn hu' ht') h]⟩

/-- C69 for two byte streams that are parsed with the same state (whatever else is in it), with the call that takes a state.  (It forgets the options: the texts show
everything.)  The two may have different numbers of NAL units, and slices that refer to parameter sets of their own stream. -/
theorem C69_bitstream {o o' : ParsingOptions} {st st1 st2 : ParserState} {data data' : List UInt8} {b b' : BitstreamObject} (hs : Reach st)
    (hlen : data.length < 2 ^ 64) (hlen' : data'.length < 2 ^ 64)
    (h : parseBitstreamObject o st data = .ok (b, st1)) (h' : parseBitstreamObject o' st data' = .ok (b', st2)) {lvl lvl' : Int} {s s' : List Char}
    (ht : (dumpBitstreamObject st b).text lvl = .ok s) (ht' : (dumpBitstreamObject st b').text lvl' = .ok s') :
    words s = words s' ↔ b.nal_units.map (NalUnit.shown {}) = b'.nal_units.map (NalUnit.shown {}) := by
  obtain ⟨ho, hu⟩ := bitstream_units hs hlen h
  obtain ⟨ho', hu'⟩ := bitstream_units hs hlen' h'
  obtain ⟨ns, _⟩ := b
  obtain ⟨ns', _⟩ := b'
  dsimp only at ho ho' hu hu'
  subst ho ho'
  exact stream_texts hu hu' ht ht'

/-- C69 for two byte streams, each parsed on its own; the texts show what the options ask for -/
theorem C69_bitstream_fresh {o : ParsingOptions} {data data' : List UInt8} {b b' : BitstreamObject} (hlen : data.length < 2 ^ 64) (hlen' : data'.length < 2 ^ 64)
    (h : parseBitstreamFreshObject o data = .ok b) (h' : parseBitstreamFreshObject o data' = .ok b') {lvl lvl' : Int} {s s' : List Char}
    (ht : (dumpBitstreamObject .empty b).text lvl = .ok s) (ht' : (dumpBitstreamObject .empty b').text lvl' = .ok s') :
    words s = words s' ↔ b.nal_units.map (NalUnit.shown o) = b'.nal_units.map (NalUnit.shown o) := by
  have key : ∀ {data : List UInt8} {b : BitstreamObject}, data.length < 2 ^ 64 → parseBitstreamFreshObject o data = .ok b →
      b.parsing_options = o ∧ ∀ x ∈ withStates (fun n => some n.nal_unit_payload) .empty b.nal_units, UnitOk o.add_checksum x.1 x.2 := by
    intro data b hlen h
    unfold parseBitstreamFreshObject parseBitstreamFresh at h
    cases hp : parseBitstream o.add_checksum .empty data with
    | error k => rw [hp] at h; cases h
    | ok x =>
      rw [hp] at h; cases h
      rw [parseBitstream_eq _ _ _ hlen] at hp
      exact ⟨rfl, parseAll_units ⟨_, .nil _⟩ hp⟩
  obtain ⟨ho, hu⟩ := key hlen h
  obtain ⟨ho', hu'⟩ := key hlen' h'
  obtain ⟨ns, _⟩ := b
  obtain ⟨ns', _⟩ := b'
  dsimp only at ho ho' hu hu'
  subst ho ho'
  exact stream_texts hu hu' ht ht'

/-- C69 for two streams with length fields -/
theorem C69_length_stream {o o' : ParsingOptions} {w w' : Nat} {st st1 st2 : ParserState} {data data' : List UInt8} {b b' : BitstreamObject} (hs : Reach st) (hw : w ≤ 7)
    (hw' : w' ≤ 7) (hlen : data.length < 2 ^ 63) (hlen' : data'.length < 2 ^ 63)
    (h : parseNaluLengthObject o w st data = .ok (b, st1)) (h' : parseNaluLengthObject o' w' st data' = .ok (b', st2)) {lvl lvl' : Int} {s s' : List Char}
    (ht : (dumpBitstreamObject st b).text lvl = .ok s) (ht' : (dumpBitstreamObject st b').text lvl' = .ok s') :
    words s = words s' ↔ b.nal_units.map (NalUnit.shown {}) = b'.nal_units.map (NalUnit.shown {}) := by
  obtain ⟨ho, hu⟩ := length_units hs hw hlen h
  obtain ⟨ho', hu'⟩ := length_units hs hw' hlen' h'
  obtain ⟨ns, _⟩ := b
  obtain ⟨ns', _⟩ := b'
  dsimp only at ho ho' hu hu'
  subst ho ho'
  exact stream_texts hu hu' ht ht'

/-- C69 for two configuration boxes -/
theorem C69_configuration_box {cs cs' : Bool} {st st1 st2 : ParserState} {data data' : List UInt8} {b b' : ConfigurationBox} {bb bb' : BB} (hs : Reach st)
    (h : parseConfigurationBoxBytes cs st data = .ok (some b, st1) bb) (h' : parseConfigurationBoxBytes cs' st data' = .ok (some b', st2) bb')
    {o : ParsingOptions} {lvl lvl' : Int} {s s' : List Char} (ht : (dumpConfigurationBox o st b).text lvl = .ok s) (ht' : (dumpConfigurationBox o st b').text lvl' = .ok s') :
    words s = words s' ↔ b.shown o = b'.shown o := by
  have u := box_ok hs h
  have u' := box_ok hs h'
  have i := u.boxIn (o := o) ((null_dumpConfigurationBox u).not_of_text ht)
  have i' := u'.boxIn (o := o) ((null_dumpConfigurationBox u').not_of_text ht')
  rw [C51_configuration_box hs h ht, C51_configuration_box hs h' ht']
  exact ⟨(det_ConfigurationBox i i').eq, textBox_alike i i'⟩

/-- C69 for two RTP payloads -/
theorem C69_rtp {st st1 st2 : ParserState} {data data' : List UInt8} {r r' : Rtp} (hs : Reach st) (hlen : data.length < 2 ^ 32) (hlen' : data'.length < 2 ^ 32)
    (h : parseRtp st data = .ok (some r, st1)) (h' : parseRtp st data' = .ok (some r', st2)) {o : ParsingOptions} {lvl lvl' : Int} {s s' : List Char}
    (ht : (dumpRtp o st r).text lvl = .ok s) (ht' : (dumpRtp o st r').text lvl' = .ok s') : words s = words s' ↔ r.shown = r'.shown := by
  have u := rtp_ok hs hlen h
  have u' := rtp_ok hs hlen' h'
  have i := u.rtpIn ((null_dumpRtp (o := o) u).not_of_text ht)
  have i' := u'.rtpIn ((null_dumpRtp (o := o) u').not_of_text ht')
  rw [C51_rtp hs hlen h ht, C51_rtp hs hlen' h' ht']
  exact ⟨rtp_det i i', rtp_alike i i'⟩

/-! ### Examples -/

/-- hypotheses met, and the text tells the two apart: access unit delimiters with pic_type 2 and 1 -/
example : (nalText ⟨false, false, false, false, false⟩ (-1) [0x46, 0x01, 0x50]).toOption.isSome = true ∧
    nalText ⟨false, false, false, false, false⟩ (-1) [0x46, 0x01, 0x50] ≠ nalText ⟨false, false, false, false, false⟩ (-1) [0x46, 0x01, 0x30] := by decide +kernel

/-- the text of a NAL unit parsed in the initial state, as characters -/
def nalChars (o : ParsingOptions) (lvl : Int) (data : List UInt8) : Option (List Char) :=
  match parseNalUnit o.add_checksum .empty data with
  | .ok (n, _) _ => ((dumpNalUnit o .empty n).text lvl).toOption
  | _ => none

/-- two picture parameter sets; their diff_cu_qp_delta_depth is different -/
def hiddenPps : List (List UInt8) := [[0x44, 0x01, 0xc0, 0x72, 0xb0, 0x02, 0x40], [0x44, 0x01, 0xc0, 0x72, 0xf0, 0x02, 0x40]]

/-- `shown` is needed: the two have the same text -/
theorem C69_pps_hidden :
    hiddenPps.map (fun d => (parseNalUnit false .empty d).val?.bind fun x => x.1.nal_unit_payload.pps.map (·.body.head.diff_cu_qp_delta_depth)) = [some 1, some 2] ∧
    (hiddenPps.map fun d => (nalChars ⟨false, true, true, false, true⟩ (-1) d).isSome) = [true, true] ∧
    nalChars ⟨false, true, true, false, true⟩ (-1) hiddenPps[0] = nalChars ⟨false, true, true, false, true⟩ (-1) hiddenPps[1] := by decide +kernel

/-- hypotheses met by a stream with a slice: it has a text -/
example : (parseBitstreamObject {} .empty (annexB testUnits)).toOption.map (fun x => (((dumpBitstreamObject .empty x.1).text (-1)).toOption.isSome, x.1.nal_units.length)) =
    some (true, 4) := by decide +kernel

/-- and by an aggregation packet -/
example : (parseRtp .empty ([0x60, 0x01] ++ [0x00, 0x03, 0x46, 0x01, 0x50] ++ [0x00, 0x03, 0x46, 0x01, 0x30])).toOption.map (fun x => x.1.map fun r =>
    (((dumpRtp {} .empty r).text (-1)).toOption.isSome, r.rtp_ap.map (·.units.length))) = some (some (true, some 2)) := by decide +kernel

/-- and by a configuration box with an access unit delimiter in it -/
example : (match parseConfigurationBoxBytes true .empty (boxHead.set 22 1 ++ [0xa3, 0x00, 0x01, 0x00, 0x03, 0x46, 0x01, 0x50]) with
    | .ok (some b, _) _ => ((dumpConfigurationBox {} .empty b).text (-1)).toOption.isSome
    | _ => false) = true := by decide +kernel

end H265
