/-
C52, C53, C54: the command line tool.
-/
import Verif.Proof.Tool2

set_option autoImplicit false

namespace H265
open Spec

/-! ### The table of `--dump-length` -/

theorem csvUnits_slices (ns : List NalUnit) (hsl : ∀ n ∈ ns, n.nal_unit_payload.slice_segment_layer.isSome = true → isSliceSegment n.nal_unit_header.nal_unit_type = true)
    (h : ¬ NoSlices ns) : ∀ n ∈ ns, isSliceSegment n.nal_unit_header.nal_unit_type = n.nal_unit_payload.slice_segment_layer.isSome := by
  intro n hn
  cases hs : n.nal_unit_payload.slice_segment_layer with
  | some s => rw [hsl n hn (by rw [hs]; rfl)]; rfl
  | none =>
    cases ht : isSliceSegment n.nal_unit_header.nal_unit_type with
    | false => rfl
    | true => exact absurd ⟨n, hn, ht, hs⟩ h

theorem slice_bytes_le : ∀ (ns : List NalUnit), (((ns.map csvUnit).filter CsvUnit.isSlice).map (·.length)).sum ≤ (ns.map (·.length)).sum
  | [] => Nat.le_refl _
  | n :: ns => by
    have ih := slice_bytes_le ns
    rw [List.map_cons, List.filter_cons]
    split
    · simp only [List.map_cons, List.sum_cons]
      have : (csvUnit n).length = n.length := rfl
      omega
    · simp only [List.map_cons, List.sum_cons]; omega

theorem toolLength_table {o : ToolOptions} {ns : List NalUnit}
    (hsl : ∀ n ∈ ns, n.nal_unit_payload.slice_segment_layer.isSome = true → isSliceSegment n.nal_unit_header.nal_unit_type = true)
    (hpos : ∀ n ∈ ns, 0 < n.length) {m : Nat} (hsum : (ns.map (·.length)).sum ≤ m) (hm : m < 2 ^ 64) (hfit : m * 8 * o.frames_per_second.toNat < 2 ^ 64) :
    (NoSlices ns → toolLength o ns = .error .nullDeref) ∧
    (¬ NoSlices ns → toolLength o ns = .ok (lines (csvHeader :: csvTable o.frames_per_second.toNat (ns.map csvUnit)))) := by
  constructor
  · intro h
    unfold toolLength
    rw [lengthLoop_null h]
  · intro h
    have hle := slice_bytes_le ns
    have := lengthLoop_eq (fps := o.frames_per_second.toNat) (us := ns.map csvUnit) (by
        intro u hu _
        obtain ⟨n, hn, rfl⟩ := List.mem_map.1 hu
        exact hpos n hn) (by omega) (Nat.lt_of_le_of_lt (Nat.mul_le_mul_right _ (Nat.mul_le_mul_right _ (Nat.le_trans hle hsum))) hfit) ns [] {} (by simp)
        ⟨rfl, rfl, rfl, fun hne => absurd rfl hne⟩ (csvUnits_slices ns hsl h)
    unfold toolLength
    rw [this]
    have e : csvHeader ++ ['\n'] =
      "nal_num,frame_num,nal_unit_type,nal_unit_type_str,nal_length_bytes,bitrate_bps,first_slice_segment_in_pic_flag,slice_segment_address,slice_pic_order_cnt_lsb\n".toList := by
      decide +kernel
    rw [← e]
    simp only [lines, csvTable, List.flatMap_cons, List.length_nil, List.drop_zero]
    rfl

/-- C52: `--dump-length` on an Annex B stream, with the parameter sets known from a configuration box or none: if every NAL unit of a slice type could be parsed
as a slice, the table is written: the heading, a line per NAL unit, and a line per frame with the bit rate of the slices of that frame; otherwise a null
pointer is dereferenced. -/
theorem C52_stream {o : ToolOptions} {st st' : ParserState} {data : List UInt8} {ns : List NalUnit} (hm : o.dump_length = true) (hw : o.nalu_length_bytes < 0)
    (hlen : data.length < 2 ^ 64) (hfit : data.length * 8 * o.frames_per_second.toNat < 2 ^ 64) (h : parseBitstream o.add_checksum st data = .ok (ns, st')) :
    (NoSlices ns → toolStream o st data = .error .nullDeref) ∧
    (¬ NoSlices ns → toolStream o st data = .ok (lines (csvHeader :: csvTable o.frames_per_second.toNat (ns.map csvUnit)))) := by
  have hp := bitstream_places hlen h
  have h' := h
  rw [parseBitstream_eq _ _ _ hlen] at h'
  have e : toolStream o st data = toolLength o ns := by
    unfold toolStream parseBitstreamObject
    have : o.parsing.add_checksum = o.add_checksum := rfl
    rw [if_pos hw, this, h]
    simp only [hm, if_true]
  rw [e]
  exact toolLength_table (parseAll_slice h') (fun n hn => (hp.1 n hn).1) hp.2 hlen hfit

/-- C52: the same for streams with length fields; but there the lengths of the table, hence the bit rates, are the number of bytes of the length field
instead of the number of bytes of the NAL unit. -/
theorem C52_length_stream {o : ToolOptions} {st st' : ParserState} {data : List UInt8} {ns : List NalUnit} {w : Nat} (hm : o.dump_length = true)
    (hw : o.nalu_length_bytes = w) (hw0 : 0 < w) (hw7 : w ≤ 7) (hlen : data.length < 2 ^ 63) (hfit : data.length * 8 * o.frames_per_second.toNat < 2 ^ 64)
    (h : parseBitstreamNaluLength o.add_checksum w st data = .ok (ns, st')) :
    (∀ n ∈ ns, n.length = w) ∧ (NoSlices ns → toolStream o st data = .error .nullDeref) ∧
    (¬ NoSlices ns → toolStream o st data = .ok (lines (csvHeader :: csvTable o.frames_per_second.toNat (ns.map csvUnit)))) := by
  obtain ⟨p1, p2⟩ := length_places hw0 hw7 hlen h
  have h' := h
  obtain ⟨l, _, he⟩ := C15_length_framing o.add_checksum w st data hw0 hw7 hlen
  rw [he] at h'
  have e : toolStream o st data = toolLength o ns := by
    unfold toolStream parseNaluLengthObject
    have : o.parsing.add_checksum = o.add_checksum := rfl
    rw [if_neg (by omega), this, hw]
    simp only [Int.toNat_natCast]
    rw [h]
    simp only [hm, if_true]
  rw [e]
  refine ⟨p1, toolLength_table (parseAll_slice h') (fun n hn => by rw [p1 n hn]; exact hw0) ?_ (by omega) hfit⟩
  have e : ns.map (·.length) = List.replicate ns.length w := by
    rw [List.eq_replicate_iff]
    exact ⟨by simp, fun b hb => by obtain ⟨n, hn, rfl⟩ := List.mem_map.1 hb; exact p1 n hn⟩
  rw [e, List.sum_replicate_nat, Nat.mul_comm]
  exact p2

/-- C52: the lengths of the table of an Annex B stream are those of the NAL units: the bytes of unit `n` are the bytes from `n.offset` on. -/
theorem C52_lengths {o : ToolOptions} {st st' : ParserState} {data : List UInt8} {ns : List NalUnit} (hlen : data.length < 2 ^ 64)
    (h : parseBitstream o.add_checksum st data = .ok (ns, st')) :
    (∀ u ∈ ns.map csvUnit, 0 < u.length) ∧ ((ns.map csvUnit).map (·.length)).sum ≤ data.length := by
  obtain ⟨h1, h2⟩ := bitstream_places hlen h
  refine ⟨fun u hu => ?_, ?_⟩
  · obtain ⟨n, hn, rfl⟩ := List.mem_map.1 hu
    exact (h1 n hn).1
  · rw [List.map_map]; exact h2

/-- C52: the frames of the table divide the slice segments among them: no slice byte is counted twice or left out. -/
theorem C52_frames (us : List CsvUnit) :
    ((List.range (frameNumber us + 1)).map (frameBytes us)).sum = ((us.filter CsvUnit.isSlice).map (·.length)).sum := frame_total us

/-- each line of the table has nine fields -/
theorem C52_nine_fields (fps : Nat) (us : List CsvUnit) : ∀ l ∈ csvHeader :: csvTable fps us, l.count ',' = 8 := by
  have digits : ∀ n : Int, (decimal n).count ',' = 0 := by
    intro n
    rw [← putD_decimal, List.count_eq_zero]
    intro hm
    unfold putD at hm
    have hu : ∀ k : Nat, ',' ∉ putU k := by
      intro k hk
      obtain ⟨j, hj⟩ := digitsAux_mem _ _ _ _ hk
      by_cases hj16 : j < 16
      · have : ∀ j, j < 16 → ',' ≠ digitChar j := by decide
        exact this j hj16 hj
      · have : digitChar j = 'f' := by unfold digitChar; split <;> first | omega | rfl
        rw [this] at hj; exact absurd hj (by decide)
    split at hm
    · rcases List.mem_cons.1 hm with h | h
      · cases h
      · exact hu _ h
    · exact hu _ hm
  have names : ∀ t : Nat, (nalTypeNames.getD t "unknown").toList.count ',' = 0 := by
    intro t
    by_cases h : t < 64
    · have : ∀ t, t < 64 → (nalTypeNames.getD t "unknown").toList.count ',' = 0 := by decide +kernel
      exact this t h
    · have e : nalTypeNames.getD t "unknown" = "unknown" := by
        rw [List.getD_eq_getElem?_getD, List.getElem?_eq_none (by simp [nalTypeNames]; omega)]; rfl
      rw [e]; decide
  have frame : ∀ f, (csvFrame fps us f).count ',' = 8 := by
    intro f
    unfold csvFrame
    rw [csv9]
    simp only [List.count_append, List.count_cons, List.count_nil, digits, beq_self_eq_true, if_true]
    have : "frame".toList.count ',' = 0 := by decide
    rw [this]
  have opt : ∀ (s : Option CsvSlice) (g : CsvSlice → Int), ((s.map fun x => decimal (g x)).getD []).count ',' = 0 := by
    intro s g
    cases s with
    | none => rfl
    | some x => exact digits _
  have line : ∀ k u, (csvLine us k u).count ',' = 8 := by
    intro k u
    unfold csvLine
    rw [csv9]
    simp only [List.count_append, List.count_cons, List.count_nil, digits, names, beq_self_eq_true, if_true]
    have h1 := opt u.slice fun s => int32 s.first_slice_segment_in_pic_flag
    have h2 := opt u.slice fun s => int32 s.slice_segment_address
    have h3 := opt u.slice fun s => int32 s.slice_pic_order_cnt_lsb
    omega
  intro l hl
  rcases List.mem_cons.1 hl with rfl | hl
  · decide +kernel
  · unfold csvTable at hl
    rcases List.mem_append.1 hl with hl | hl
    · obtain ⟨r, hr, hl⟩ := List.mem_flatten.1 hl
      obtain ⟨k, hk, rfl⟩ := List.mem_mapIdx.1 hr
      rcases List.mem_append.1 hl with hl | hl
      · split at hl
        · cases hl
        · rw [List.mem_singleton.1 hl]; exact frame _
      · rw [List.mem_singleton.1 hl]; exact line _ _
    · split at hl
      · rw [List.mem_singleton.1 hl]; exact frame _
      · cases hl

/-! ### The text of `--dump-all` -/

theorem toolDump_text {o : ToolOptions} {st : ParserState} {data : List UInt8} {ns : List NalUnit}
    (hu : ∀ x ∈ withStates (fun n => some n.nal_unit_payload) st ns, UnitOk o.add_checksum x.1 x.2) :
    (NoPayloads ns → toolDumpAll o data (withStates (fun n => some n.nal_unit_payload) st ns) = .error .nullDeref) ∧
    (¬ NoPayloads ns → ∃ ts : List (List Char), ts.length = ns.length ∧
      toolDumpAll o data (withStates (fun n => some n.nal_unit_payload) st ns) = .ok (lines ts) ∧ (o.as_one_line = true → ∀ t ∈ ts, OneLine t) ∧
      ∀ k (hk : k < ns.length) (hk' : k < ts.length),
        words ts[k] = textNalUnit o.parsing (known st ((ns.take k).map (·.nal_unit_payload))) ns[k] ++
          (if o.add_contents then textContents data ns[k].offset ns[k].length else [])) := by
  have hno := stream_notext (o := o.parsing) hu
  have hno2 : (∃ x ∈ withStates (fun n => some n.nal_unit_payload) st ns, NoText o.parsing x.2) ↔ NoPayloads ns := by
    rw [mem_withStates (pay := fun n : NalUnit => some n.nal_unit_payload) (st := st) (P := fun n => NoText o.parsing n), hno]
    constructor
    · rintro (⟨h1, h2, _⟩ | h)
      · have : o.parsing.add_checksum = o.add_checksum := rfl
        rw [this, h2] at h1; cases h1
      · exact h
    · exact .inr
  obtain ⟨h1, h2⟩ := dumpAll_eq (o := o) (data := data) (fun x hx => (hu x hx).null)
  refine ⟨fun h => h1 (hno2.2 h), fun h => ?_⟩
  obtain ⟨ts, e1, e2, e3⟩ := h2 (mt hno2.1 h)
  have hlen : ts.length = ns.length := by rw [e1, withStates_eq]; simp
  refine ⟨ts.mapIdx fun k t => t ++ (if o.add_contents then (ns[k]?.map fun x => toolContents data x).getD [] else []), by simpa using hlen, ?_, ?_, ?_⟩
  · rw [e2]
    congr 1
    unfold lines
    rw [List.flatMap_def]
    congr 1
    refine List.ext_getElem (by simp) (fun k hk hk' => ?_)
    have hk1 : k < ns.length := by simp at hk; omega
    simp only [List.getElem_mapIdx, List.getElem_map, withStates_eq, List.getElem?_mapIdx, List.getElem?_eq_getElem hk1]
    simp
  · intro ho t ht
    obtain ⟨k, hk, rfl⟩ := List.mem_mapIdx.1 ht
    have hk1 : k < ns.length := by omega
    have h4 := e3 k (by rw [withStates_eq]; simpa using hk1) hk
    obtain ⟨d, hd, hr⟩ := text_ok h4
    have hlv : o.level = -1 := by unfold ToolOptions.level; rw [ho]; rfl
    rw [hlv] at hr
    have h5 := (lay_dumpNalUnit _ _ _ _ hd).2
    rw [hr] at h5
    intro hm
    rcases List.mem_append.1 hm with hm | hm
    · exact h5 hm
    · rw [List.getElem?_eq_getElem hk1] at hm
      by_cases hc : o.add_contents = true
      · rw [if_pos hc] at hm
        exact (toolContents_words data ns[k]).2 hm
      · rw [if_neg hc] at hm; cases hm
  · intro k hk hk'
    have hk2 : k < ts.length := by omega
    have h4 := e3 k (by rw [withStates_eq]; simpa using hk) hk2
    have hm : (known st ((ns.take k).map (·.nal_unit_payload)), ns[k]) ∈ withStates (fun n => some n.nal_unit_payload) st ns := by
      rw [withStates_eq]
      refine List.mem_mapIdx.2 ⟨k, hk, ?_⟩
      simp
    have h5 := (hu _ hm).says (o := o.parsing)
    have e : (withStates (fun n => some n.nal_unit_payload) st ns)[k]'(by rw [withStates_eq]; simpa using hk) = (known st ((ns.take k).map (·.nal_unit_payload)), ns[k]) := by
      simp [withStates_eq]
    rw [e] at h4
    dsimp only at h4 h5
    have h6 : words ts[k] = textNalUnit o.parsing (known st ((ns.take k).map (·.nal_unit_payload))) ns[k] := Says.text h5 h4
    rw [List.getElem_mapIdx, List.getElem?_eq_getElem hk]
    by_cases hc : o.add_contents = true
    · rw [if_pos hc, if_pos hc]
      simp only [Option.map_some, Option.getD_some]
      have hsep : Sep (toolContents data ns[k]) := .inr (.inl ⟨_, rfl⟩)
      rw [words_sep _ hsep, h6, (toolContents_words data ns[k]).1]
    · rw [if_neg hc, if_neg hc]
      simp [h6]

/-- C53: the default mode on an Annex B stream, with the parameter sets known from a configuration box or none: a text per NAL unit (a single line, unless
`--noas-one-line` is given); its words are those of the NAL unit, and with `--add-contents` the bytes of the unit follow.  The only crashes are those of the two
unchecked payloads. -/
theorem C53_stream {o : ToolOptions} {st st' : ParserState} {data : List UInt8} {ns : List NalUnit} (hs : Reach st) (hm : o.dump_length = false)
    (hw : o.nalu_length_bytes < 0) (hlen : data.length < 2 ^ 64) (h : parseBitstream o.add_checksum st data = .ok (ns, st')) :
    (NoPayloads ns → toolStream o st data = .error .nullDeref) ∧
    (¬ NoPayloads ns → ∃ ts : List (List Char), ts.length = ns.length ∧ toolStream o st data = .ok (lines ts) ∧ (o.as_one_line = true → ∀ t ∈ ts, OneLine t) ∧
      ∀ k (hk : k < ns.length) (hk' : k < ts.length),
        words ts[k] = textNalUnit o.parsing (known st ((ns.take k).map (·.nal_unit_payload))) ns[k] ++
          (if o.add_contents then textContents data ns[k].offset ns[k].length else [])) := by
  have h' := h
  rw [parseBitstream_eq _ _ _ hlen] at h'
  have e : toolStream o st data = toolDumpAll o data (withStates (fun n => some n.nal_unit_payload) st ns) := by
    unfold toolStream parseBitstreamObject
    have : o.parsing.add_checksum = o.add_checksum := rfl
    rw [if_pos hw, this, h]
    simp [hm]
  rw [e]
  exact toolDump_text (parseAll_units hs h')

/-- C53 for streams with length fields -/
theorem C53_length_stream {o : ToolOptions} {st st' : ParserState} {data : List UInt8} {ns : List NalUnit} {w : Nat} (hs : Reach st) (hm : o.dump_length = false)
    (hw : o.nalu_length_bytes = w) (hw7 : w ≤ 7) (hlen : data.length < 2 ^ 63) (h : parseBitstreamNaluLength o.add_checksum w st data = .ok (ns, st')) :
    (NoPayloads ns → toolStream o st data = .error .nullDeref) ∧
    (¬ NoPayloads ns → ∃ ts : List (List Char), ts.length = ns.length ∧ toolStream o st data = .ok (lines ts) ∧ (o.as_one_line = true → ∀ t ∈ ts, OneLine t) ∧
      ∀ k (hk : k < ns.length) (hk' : k < ts.length),
        words ts[k] = textNalUnit o.parsing (known st ((ns.take k).map (·.nal_unit_payload))) ns[k] ++
          (if o.add_contents then textContents data ns[k].offset ns[k].length else [])) := by
  have hc : o.parsing.add_checksum = o.add_checksum := rfl
  have hu := (length_units (o := o.parsing) (w := w) (st := st) (st' := st') (data := data) (b := ⟨ns, {}⟩) hs hw7 hlen
      (by unfold parseNaluLengthObject; rw [hc, h])).2
  have e : toolStream o st data = toolDumpAll o data (withStates (fun n => some n.nal_unit_payload) st ns) := by
    unfold toolStream parseNaluLengthObject
    rw [if_neg (by omega), hc, hw]
    simp only [Int.toNat_natCast]
    rw [h]
    simp [hm]
  rw [e]
  exact toolDump_text hu

/-- C53: the contents written for a unit of an Annex B stream are its bytes: `length` of them, from `offset` on, all inside the stream. -/
theorem C53_contents {cs : Bool} {st st' : ParserState} {data : List UInt8} {ns : List NalUnit} (hlen : data.length < 2 ^ 64)
    (h : parseBitstream cs st data = .ok (ns, st')) : ∀ n ∈ ns, 0 < n.length ∧ ((data.drop n.offset).take n.length).length = n.length := by
  intro n hn
  obtain ⟨h1, h2⟩ := (bitstream_places hlen h).1 n hn
  refine ⟨h1, ?_⟩
  rw [List.length_take, List.length_drop]; omega

/-! ### The whole program -/

/-- C53: without a configuration box the program writes what it writes of the stream, in the initial state. -/
theorem C53_main_stream (opts : ToolOptions) (data : List UInt8) :
    toolMain opts .absent (.bytes data) = (toolStream opts.effective .empty data).map some := by
  unfold toolMain
  dsimp only
  cases toolStream opts.effective .empty data <;> rfl

/-- C53: with a configuration box that can be parsed and dumped, its text comes first, then a line break, then what is written of the stream, parsed in the
state the box leaves. -/
theorem C53_main_box {opts : ToolOptions} {box data : List UInt8} {b : ConfigurationBox} {st : ParserState} {bb : BB} {t : List Char}
    (h : parseConfigurationBoxBytes opts.add_checksum .empty box = .ok (some b, st) bb)
    (ht : (dumpConfigurationBox opts.effective.parsing .empty b).text opts.level = .ok t) :
    toolMain opts (.bytes box) (.bytes data) = (toolStream opts.effective st data).map (fun s => some (t ++ ['\n'] ++ s)) ∧
    toolMain opts (.bytes box) .absent = .ok (some (t ++ ['\n'])) := by
  have e1 : opts.effective.add_checksum = opts.add_checksum := by
    unfold ToolOptions.effective; dsimp only; split <;> split <;> rfl
  have e2 : opts.effective.level = opts.level := by
    unfold ToolOptions.effective ToolOptions.level; dsimp only; split <;> split <;> rfl
  unfold toolMain
  dsimp only
  rw [e1, h]
  dsimp only
  rw [e2, ht]
  constructor
  · cases toolStream opts.effective st data <;> rfl
  · rfl

/-- C53: a box that is not a configuration box: nothing is written. -/
theorem C53_main_no_box {opts : ToolOptions} {box : List UInt8} {infile : ToolInput} {st : ParserState} {bb : BB}
    (h : parseConfigurationBoxBytes opts.add_checksum .empty box = .ok (none, st) bb) : toolMain opts (.bytes box) infile = .ok none := by
  have e1 : opts.effective.add_checksum = opts.add_checksum := by
    unfold ToolOptions.effective; dsimp only; split <;> split <;> rfl
  unfold toolMain
  dsimp only
  rw [e1, h]

/-- C53: no input (other than the sizes and length fields the framing does not support) makes the program do anything undefined, except: a null pointer
dereferenced in the dump, and the signed overflow of the parsers. -/
theorem C53_safe {o : ToolOptions} {st : ParserState} {data : List UInt8} {k : Bad} (hs : Reach st) (hw : o.nalu_length_bytes ≤ 7) (hlen : data.length < 2 ^ 32)
    (h : toolStream o st data = .error k) : k = .nullDeref ∨ k = .signedOverflow := by
  have lengthErr : ∀ {fps : Nat} {l : List NalUnit} {v : LengthState} {k : Bad}, toolLengthLoop fps v l = .error k → k = .nullDeref := by
    intro fps l
    induction l with
    | nil => intro v k h; cases h
    | cons n l ih =>
      intro v k h
      unfold toolLengthLoop at h
      split at h
      · rename_i k' hu
        cases h
        unfold toolLengthUnit at hu
        dsimp only at hu
        split at hu
        · split at hu
          · cases hu; rfl
          · cases hu
        · cases hu
      · split at h
        · rename_i hl; cases h; exact ih hl
        · cases h
  have tail : ∀ {ns : List NalUnit}, (∀ x ∈ withStates (fun n => some n.nal_unit_payload) st ns, UnitOk o.add_checksum x.1 x.2) →
      (if o.dump_length then toolLength o ns else toolDumpAll o data (withStates (fun n => some n.nal_unit_payload) st ns)) = .error k → k = .nullDeref := by
    intro ns hu h
    split at h
    · unfold toolLength at h
      split at h
      · rename_i hl; cases h; exact lengthErr hl
      · cases h
    · obtain ⟨h1, h2⟩ := toolDump_text (o := o) (data := data) hu
      by_cases hn : NoPayloads ns
      · rw [h1 hn] at h; cases h; rfl
      · obtain ⟨ts, _, h3, _⟩ := h2 hn
        rw [h3] at h; cases h
  unfold toolStream at h
  by_cases hneg : o.nalu_length_bytes < 0
  · rw [if_pos hneg] at h
    cases hp : parseBitstreamObject o.parsing st data with
    | error k' =>
      rw [hp] at h; cases h
      unfold parseBitstreamObject at hp
      split at hp
      · rename_i hb; cases hp; exact .inr (C44_bitstream_safe hs hlen hb)
      · cases hp
    | ok x =>
      obtain ⟨b, st'⟩ := x
      rw [hp] at h
      exact .inl (tail (bitstream_units hs (by omega) hp).2 h)
  · rw [if_neg hneg] at h
    have hw7 : o.nalu_length_bytes.toNat ≤ 7 := by omega
    cases hp : parseNaluLengthObject o.parsing o.nalu_length_bytes.toNat st data with
    | error k' =>
      rw [hp] at h; cases h
      unfold parseNaluLengthObject at hp
      split at hp
      · rename_i hb; cases hp; exact .inr (C15_safe hs hw7 hlen hb)
      · cases hp
    | ok x =>
      obtain ⟨b, st'⟩ := x
      rw [hp] at h
      exact .inl (tail (length_units hs hw7 (by omega) hp).2 h)

/-! ### The command line -/

/-- a number the program does not accept -/
def Spec.BadNumber : ToolArg → Prop
  | .naluLengthBytes v => ∀ x, v = some x → x < 0 ∨ x > 2 ^ 31 - 1
  | .framesPerSecond v => ∀ x, v = some x → x < 0 ∨ x > 2 ^ 31 - 1
  | _ => False

theorem toolNumber_none (v : Option Int) : toolNumber v = none ↔ ∀ x, v = some x → x < 0 ∨ x > 2 ^ 31 - 1 := by
  unfold toolNumber
  cases v with
  | none => simp
  | some x =>
    simp only [Option.some.injEq]
    constructor
    · intro h y hy
      subst hy
      split at h
      · assumption
      · cases h
    · intro h; rw [if_pos (h x rfl)]

theorem toolArg_none (o : ToolOptions) (a : ToolArg) : toolArg o a = none ↔ BadNumber a := by
  cases a with
  | naluLengthBytes v =>
    show _ ↔ ∀ x, v = some x → x < 0 ∨ x > 2 ^ 31 - 1
    rw [← toolNumber_none]
    unfold toolArg
    dsimp only
    cases toolNumber v <;> simp
  | framesPerSecond v =>
    show _ ↔ ∀ x, v = some x → x < 0 ∨ x > 2 ^ 31 - 1
    rw [← toolNumber_none]
    unfold toolArg
    dsimp only
    cases toolNumber v <;> simp
  | _ => simp [toolArg, BadNumber]

/-- C54: a command line is rejected exactly if it has a number that is not between 0 and 2³¹-1 (this includes `--nalu-length-bytes -1`, the documented default). -/
theorem C54_rejected (args : List ToolArg) (o : ToolOptions) : toolArgs o args = none ↔ ∃ a ∈ args, BadNumber a := by
  induction args generalizing o with
  | nil => simp [toolArgs]
  | cons a l ih =>
    unfold toolArgs
    have h := toolArg_none o a
    cases ha : toolArg o a with
    | none => exact ⟨fun _ => ⟨a, by simp, h.1 ha⟩, fun _ => rfl⟩
    | some o' =>
      dsimp only
      rw [ih]
      have : ¬ BadNumber a := fun hb => by rw [h.2 hb] at ha; cases ha
      simp [this]

theorem lastOf_cons {α β : Type} (f : α → Option β) (d : β) (a : α) (l : List α) : lastOf f d (a :: l) = lastOf f ((f a).getD d) l := by
  unfold lastOf
  cases h : f a with
  | none => rw [List.filterMap_cons_none h]; rfl
  | some b =>
    rw [List.filterMap_cons_some h, Option.getD_some]
    cases l.filterMap f with
    | nil => rfl
    | cons x xs =>
      rw [List.getLast?_cons_cons]
      obtain ⟨y, hy⟩ : ∃ y, (x :: xs).getLast? = some y := by
        cases hl : (x :: xs).getLast? with
        | none => simp at hl
        | some y => exact ⟨y, rfl⟩
      rw [hy]; rfl

/-- the mode an option asks for -/
def Spec.argMode : ToolArg → Option Bool
  | .dumpAll => some false
  | .dumpLength => some true
  | _ => none
/-- the value an option gives to `as_one_line` -/
def Spec.arg_as_one_line : ToolArg → Option Bool
  | .asOneLine b => some b
  | _ => none
/-- the value an option gives to `add_offset` -/
def Spec.arg_add_offset : ToolArg → Option Bool
  | .addOffset b => some b
  | _ => none
/-- the value an option gives to `add_length` -/
def Spec.arg_add_length : ToolArg → Option Bool
  | .addLength b => some b
  | _ => none
/-- the value an option gives to `add_parsed_length` -/
def Spec.arg_add_parsed_length : ToolArg → Option Bool
  | .addParsedLength b => some b
  | _ => none
/-- the value an option gives to `add_checksum` -/
def Spec.arg_add_checksum : ToolArg → Option Bool
  | .addChecksum b => some b
  | _ => none
/-- the value an option gives to `add_resolution` -/
def Spec.arg_add_resolution : ToolArg → Option Bool
  | .addResolution b => some b
  | _ => none
/-- the value an option gives to `add_contents` -/
def Spec.arg_add_contents : ToolArg → Option Bool
  | .addContents b => some b
  | _ => none
/-- the number an option gives to `nalu_length_bytes` -/
def Spec.arg_nalu_length_bytes : ToolArg → Option Int
  | .naluLengthBytes v => v
  | _ => none
/-- the number an option gives to `frames_per_second` -/
def Spec.arg_frames_per_second : ToolArg → Option Int
  | .framesPerSecond v => v
  | _ => none

theorem toolArg_some {o o' : ToolOptions} {a : ToolArg} (h : toolArg o a = some o') :
    o'.dump_length = (argMode a).getD o.dump_length ∧
    o'.as_one_line = (arg_as_one_line a).getD o.as_one_line ∧
    o'.add_offset = (arg_add_offset a).getD o.add_offset ∧
    o'.add_length = (arg_add_length a).getD o.add_length ∧
    o'.add_parsed_length = (arg_add_parsed_length a).getD o.add_parsed_length ∧
    o'.add_checksum = (arg_add_checksum a).getD o.add_checksum ∧
    o'.add_resolution = (arg_add_resolution a).getD o.add_resolution ∧
    o'.add_contents = (arg_add_contents a).getD o.add_contents ∧
    o'.nalu_length_bytes = (arg_nalu_length_bytes a).getD o.nalu_length_bytes ∧
    o'.frames_per_second = (arg_frames_per_second a).getD o.frames_per_second := by
  cases a with
  | naluLengthBytes v =>
    unfold toolArg toolNumber at h
    cases v with
    | none => cases h
    | some x =>
      dsimp only at h
      split at h
      · cases h
      · rename_i hx
        split at hx
        · cases hx
        · cases hx; cases h; exact ⟨rfl, rfl, rfl, rfl, rfl, rfl, rfl, rfl, rfl, rfl⟩
  | framesPerSecond v =>
    unfold toolArg toolNumber at h
    cases v with
    | none => cases h
    | some x =>
      dsimp only at h
      split at h
      · cases h
      · rename_i hx
        split at hx
        · cases hx
        · cases hx; cases h; exact ⟨rfl, rfl, rfl, rfl, rfl, rfl, rfl, rfl, rfl, rfl⟩
  | _ => cases h; exact ⟨rfl, rfl, rfl, rfl, rfl, rfl, rfl, rfl, rfl, rfl⟩

/-- C54: of repeated or contradicting options the last one counts; an option that is not given keeps its default. -/
theorem C54_last_wins {args : List ToolArg} {o o' : ToolOptions} (h : toolArgs o args = some o') :
    o'.dump_length = lastOf argMode o.dump_length args ∧
    o'.as_one_line = lastOf arg_as_one_line o.as_one_line args ∧
    o'.add_offset = lastOf arg_add_offset o.add_offset args ∧
    o'.add_length = lastOf arg_add_length o.add_length args ∧
    o'.add_parsed_length = lastOf arg_add_parsed_length o.add_parsed_length args ∧
    o'.add_checksum = lastOf arg_add_checksum o.add_checksum args ∧
    o'.add_resolution = lastOf arg_add_resolution o.add_resolution args ∧
    o'.add_contents = lastOf arg_add_contents o.add_contents args ∧
    o'.nalu_length_bytes = lastOf arg_nalu_length_bytes o.nalu_length_bytes args ∧
    o'.frames_per_second = lastOf arg_frames_per_second o.frames_per_second args := by
  induction args generalizing o with
  | nil => cases h; exact ⟨rfl, rfl, rfl, rfl, rfl, rfl, rfl, rfl, rfl, rfl⟩
  | cons a l ih =>
    unfold toolArgs at h
    cases ha : toolArg o a with
    | none => rw [ha] at h; cases h
    | some o1 =>
      rw [ha] at h
      have h1 := ih h
      obtain ⟨a1, a2, a3, a4, a5, a6, a7, a8, a9, a10⟩ := toolArg_some ha
      simp only [lastOf_cons, ← a1, ← a2, ← a3, ← a4, ← a5, ← a6, ← a7, ← a8, ← a9, ← a10]
      exact h1

/-- C54: the numbers of an accepted command line are in range: no length field width other than the default is negative. -/
theorem C54_numbers {args : List ToolArg} {o : ToolOptions} (h : toolArgs {} args = some o) :
    (o.nalu_length_bytes = -1 ∨ 0 ≤ o.nalu_length_bytes) ∧ o.nalu_length_bytes < 2 ^ 31 ∧ 0 ≤ o.frames_per_second ∧ o.frames_per_second < 2 ^ 31 := by
  have key : ∀ (args : List ToolArg) (o o' : ToolOptions), toolArgs o args = some o' →
      ((o.nalu_length_bytes = -1 ∨ 0 ≤ o.nalu_length_bytes) ∧ o.nalu_length_bytes < 2 ^ 31 ∧ 0 ≤ o.frames_per_second ∧ o.frames_per_second < 2 ^ 31) →
      ((o'.nalu_length_bytes = -1 ∨ 0 ≤ o'.nalu_length_bytes) ∧ o'.nalu_length_bytes < 2 ^ 31 ∧ 0 ≤ o'.frames_per_second ∧ o'.frames_per_second < 2 ^ 31) := by
    intro args
    induction args with
    | nil => intro o o' h hi; cases h; exact hi
    | cons a l ih =>
      intro o o' h hi
      unfold toolArgs at h
      cases ha : toolArg o a with
      | none => rw [ha] at h; cases h
      | some o1 =>
        rw [ha] at h
        refine ih o1 o' h ?_
        have hb : ¬ BadNumber a := fun hb => by rw [(toolArg_none o a).2 hb] at ha; cases ha
        obtain ⟨_, _, _, _, _, _, _, _, a9, a10⟩ := toolArg_some ha
        cases a with
        | naluLengthBytes v =>
          cases v with
          | none => exact absurd (fun x hx => by cases hx) hb
          | some x =>
            have hx : ¬ (x < 0 ∨ x > 2 ^ 31 - 1) := fun hx => hb (fun y hy => by cases hy; exact hx)
            simp only [arg_nalu_length_bytes, arg_frames_per_second, Option.getD_some, Option.getD_none] at a9 a10
            rw [a9, a10]
            omega
        | framesPerSecond v =>
          cases v with
          | none => exact absurd (fun x hx => by cases hx) hb
          | some x =>
            have hx : ¬ (x < 0 ∨ x > 2 ^ 31 - 1) := fun hx => hb (fun y hy => by cases hy; exact hx)
            simp only [arg_nalu_length_bytes, arg_frames_per_second, Option.getD_some, Option.getD_none] at a9 a10
            rw [a9, a10]
            omega
        | _ =>
          simp only [arg_nalu_length_bytes, arg_frames_per_second, Option.getD_none] at a9 a10
          rw [a9, a10]; exact hi
  exact key args {} o h (by decide)

/-- C54: which options take part in parsing and dumping: contents need offsets and lengths, the table needs lengths; nothing else is changed. -/
theorem C54_effective (o : ToolOptions) :
    o.effective = { o with add_offset := o.add_offset || o.add_contents, add_length := o.add_length || o.add_contents || o.dump_length } := by
  obtain ⟨dl, ol, ao, al, ap, ac, ar, ct, w, f⟩ := o
  unfold ToolOptions.effective
  cases dl <;> cases ct <;> cases ao <;> cases al <;> rfl

/-! ### Names -/

/-- C54: the names of the NAL unit types are those of Table 7-1 -/
theorem C54_type_name (t : Nat) : nalUnitTypeToString t = nalTypeNames.getD t "unknown" := nalTypeName_eq t

/-- C54: different NAL unit types have different names -/
theorem C54_type_names_distinct {t u : Nat} (ht : t < 64) (hu : u < 64) (h : nalUnitTypeToString t = nalUnitTypeToString u) : t = u := by
  have : ∀ t, t < 64 → ∀ u, u < 64 → nalUnitTypeToString t = nalUnitTypeToString u → t = u := by decide +kernel
  exact this t ht u hu h

/-- all profiles -/
def allProfiles : List ProfileType := [
  .UNSPECIFIED, .MAIN, .MAIN_10, .MAIN_STILL_PICTURE, .FREXT, .MULTIVIEW_MAIN, .SCALABLE, ._3D_MAIN, .SCREEN_EXTENDED, .MULTILAYER, .SCREEN_EXTENDED_HIGH_THROUGHPUT, .MULTIVIEW_EXTENDED, .MULTIVIEW_EXTENDED_10, .MAIN_10_STILL_PICTURE, .MONOCHROME, .MONOCHROME_10, .MONOCHROME_12, .MONOCHROME_16, .MAIN_12, .MAIN_422_10, .MAIN_422_12, .MAIN_444, .MAIN_444_10, .MAIN_444_12, .MAIN_INTRA, .MAIN_10_INTRA, .MAIN_12_INTRA, .MAIN_422_10_INTRA, .MAIN_422_12_INTRA, .MAIN_444_INTRA, .MAIN_444_10_INTRA, .MAIN_444_12_INTRA, .MAIN_444_16_INTRA, .MAIN_444_STILL_PICTURE, .MAIN_444_16_STILL_PICTURE, .HIGH_THROUGHPUT_444, .HIGH_THROUGHPUT_444_10, .HIGH_THROUGHPUT_444_14, .HIGH_THROUGHPUT_444_16_INTRA, .SCALABLE_MAIN, .SCALABLE_MAIN_10, .SCREEN_EXTENDED_MAIN, .SCREEN_EXTENDED_MAIN_10, .SCREEN_EXTENDED_MAIN_444, .SCREEN_EXTENDED_MAIN_444_10, .SCREEN_EXTENDED_HIGH_THROUGHPUT_444, .SCREEN_EXTENDED_HIGH_THROUGHPUT_444_10, .SCREEN_EXTENDED_HIGH_THROUGHPUT_444_14, .MONOCHROME_STILL_PICTURE, .MONOCHROME_10_STILL_PICTURE, .MAIN_444_10_STILL_PICTURE, .HIGH_THROUGHPUT]

/-- C54: different profiles have different names -/
theorem C54_profile_names_distinct {p q : ProfileType} (h : profileTypeToString p = profileTypeToString q) : p = q := by
  have key : ∀ p ∈ allProfiles, ∀ q ∈ allProfiles, profileTypeToString p = profileTypeToString q → p = q := by decide +kernel
  exact key p (by cases p <;> decide) q (by cases q <;> decide) h

/-! ### Examples -/

/-- what the program writes for a stream -/
def toolText (args : List ToolArg) (data : List UInt8) : Except Bad (Option String) :=
  match toolArgs {} args with
  | none => .ok none
  | some o => (toolMain o .absent (.bytes data)).map (·.map String.ofList)

/-- C52: parameter sets and an IDR picture -/
example : toolText [.dumpLength] testStream = .ok (some (
    "nal_num,frame_num,nal_unit_type,nal_unit_type_str,nal_length_bytes,bitrate_bps,first_slice_segment_in_pic_flag,slice_segment_address,slice_pic_order_cnt_lsb\n" ++
    "0,0,32,vps,23,,,,\n1,0,33,sps,39,,,,\n2,0,34,pps,7,,,,\n3,0,19,idr_w_radl,15,,1,0,0\n,0,19,frame,,3600,,,\n")) := by decide +kernel

/-- C52: a slice without parameter sets -/
theorem C52_null : toolText [.dumpLength] [0, 0, 1, 0x02, 0x01, 0x80] = .error .nullDeref := by decide +kernel

/-- C52, C53: streams with length fields: the length of the access unit delimiter (three bytes) is given as two, and its contents are cut. -/
theorem C52_length_wrong : toolText [.naluLengthBytes (some 2), .dumpLength] [0, 3, 0x46, 0x01, 0x50] = .ok (some (
    "nal_num,frame_num,nal_unit_type,nal_unit_type_str,nal_length_bytes,bitrate_bps,first_slice_segment_in_pic_flag,slice_segment_address,slice_pic_order_cnt_lsb\n" ++
    "0,0,35,aud,2,,,,\n")) := by decide +kernel
theorem C53_contents_cut : toolText [.naluLengthBytes (some 2), .addContents true] [0, 3, 0x46, 0x01, 0x50] = .ok (some (
    "nal_unit { offset: 0x00000002 length: 2 nal_unit_header { forbidden_zero_bit: 0 nal_unit_type: 35 nuh_layer_id: 0 nuh_temporal_id_plus1: 1 } " ++
    "nal_unit_payload { aud { pic_type: 2 } } } contents { 46 01 }\n")) := by decide +kernel

/-- C53: contents -/
example : toolText [.addContents true] [0, 0, 1, 0x46, 0x01, 0x50] = .ok (some (
    "nal_unit { offset: 0x00000003 length: 3 nal_unit_header { forbidden_zero_bit: 0 nal_unit_type: 35 nuh_layer_id: 0 nuh_temporal_id_plus1: 1 } " ++
    "nal_unit_payload { aud { pic_type: 2 } } } contents { 46 01 50 }\n")) := by decide +kernel

/-- C54 -/
example : toolText [.naluLengthBytes (some (-1))] testStream = .ok none := by decide +kernel
example : toolArgs {} [.addOffset true, .addContents true, .addOffset false, .framesPerSecond (some 60)] = some { add_contents := true, frames_per_second := 60 } := by
  decide +kernel

end H265
