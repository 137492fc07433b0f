/-
Model of the command line tool, tools/h265nal.cc (compiled under FDUMP_DEFINE).  Here the arguments are given as a list
of options and the inputs as bytes; the arguments as typed and the files are in CommandLine.lean.
-/
import Verif.Model.DumpNal

set_option autoImplicit false

namespace H265

/-- `NalUnitTypeToString`, src/h265_common.cc:20-153 -/
def nalUnitTypeToString (t : Nat) : String :=
  match t with
  | 0 => "trail_n"
  | 1 => "trail_r"
  | 2 => "tsa_n"
  | 3 => "tsa_r"
  | 4 => "stsa_n"
  | 5 => "stsa_r"
  | 6 => "radl_n"
  | 7 => "radl_r"
  | 8 => "rasl_n"
  | 9 => "rasl_r"
  | 10 => "rsv_vcl_n10"
  | 11 => "rsv_vcl_r11"
  | 12 => "rsv_vcl_n12"
  | 13 => "rsv_vcl_r13"
  | 14 => "rsv_vcl_n14"
  | 15 => "rsv_vcl_r15"
  | 16 => "bla_w_lp"
  | 17 => "bla_w_radl"
  | 18 => "bla_n_lp"
  | 19 => "idr_w_radl"
  | 20 => "idr_n_lp"
  | 21 => "cra"
  | 22 => "rsv_irap_vcl22"
  | 23 => "rsv_irap_vcl23"
  | 24 => "rsv_vcl24"
  | 25 => "rsv_vcl25"
  | 26 => "rsv_vcl26"
  | 27 => "rsv_vcl27"
  | 28 => "rsv_vcl28"
  | 29 => "rsv_vcl29"
  | 30 => "rsv_vcl30"
  | 31 => "rsv_vcl31"
  | 32 => "vps"
  | 33 => "sps"
  | 34 => "pps"
  | 35 => "aud"
  | 36 => "eos"
  | 37 => "eob"
  | 38 => "fd"
  | 39 => "prefix_sei"
  | 40 => "suffix_sei"
  | 41 => "rsv_nvcl41"
  | 42 => "rsv_nvcl42"
  | 43 => "rsv_nvcl43"
  | 44 => "rsv_nvcl44"
  | 45 => "rsv_nvcl45"
  | 46 => "rsv_nvcl46"
  | 47 => "rsv_nvcl47"
  | 48 => "ap"
  | 49 => "fu"
  | 50 => "unspec50"
  | 51 => "unspec51"
  | 52 => "unspec52"
  | 53 => "unspec53"
  | 54 => "unspec54"
  | 55 => "unspec55"
  | 56 => "unspec56"
  | 57 => "unspec57"
  | 58 => "unspec58"
  | 59 => "unspec59"
  | 60 => "unspec60"
  | 61 => "unspec61"
  | 62 => "unspec62"
  | 63 => "unspec63"
  | _ => "unknown"

/-- `arg_options`, tools/h265nal.cc:42-57, with the defaults of lines 60-75.  `dump_length` is `dumpmode == dump_length`. -/
structure ToolOptions where
  dump_length : Bool := false
  as_one_line : Bool := true
  add_offset : Bool := false
  add_length : Bool := false
  add_parsed_length : Bool := false
  add_checksum : Bool := false
  add_resolution : Bool := false
  add_contents : Bool := false
  nalu_length_bytes : Int := -1
  frames_per_second : Int := 30
  deriving DecidableEq

/-- An option on the command line, as returned by `getopt_long`; a numeric argument is its value as found by `strtol`, `none` if `strtol` reports an
error or does not read the whole argument.  tools/h265nal.cc:164-320. -/
inductive ToolArg where
  | dumpAll
  | dumpLength
  | asOneLine (b : Bool)
  | addOffset (b : Bool)
  | addLength (b : Bool)
  | addParsedLength (b : Bool)
  | addChecksum (b : Bool)
  | addResolution (b : Bool)
  | addContents (b : Bool)
  | naluLengthBytes (v : Option Int)
  | framesPerSecond (v : Option Int)

/-- `strtol` and the checks after it, tools/h265nal.cc:298-307, 309-318: negative numbers and numbers above INT_MAX are rejected -/
def toolNumber (v : Option Int) : Option Int :=
  match v with
  | none => none
  | some x => if x < 0 ∨ x > 2 ^ 31 - 1 then none else some x

/-- one round of the loop of `parse_args`, tools/h265nal.cc:200-334; `none`: returns -1 -/
def toolArg (o : ToolOptions) (a : ToolArg) : Option ToolOptions :=
  match a with
  | .dumpAll => some { o with dump_length := false }
  | .dumpLength => some { o with dump_length := true }
  | .asOneLine b => some { o with as_one_line := b }
  | .addOffset b => some { o with add_offset := b }
  | .addLength b => some { o with add_length := b }
  | .addParsedLength b => some { o with add_parsed_length := b }
  | .addChecksum b => some { o with add_checksum := b }
  | .addResolution b => some { o with add_resolution := b }
  | .addContents b => some { o with add_contents := b }
  | .naluLengthBytes v =>
    match toolNumber v with
    | none => none
    | some x => some { o with nalu_length_bytes := x }
  | .framesPerSecond v =>
    match toolNumber v with
    | none => none
    | some x => some { o with frames_per_second := x }

/-- `parse_args`, tools/h265nal.cc:158-343 -/
def toolArgs (o : ToolOptions) : List ToolArg → Option ToolOptions
  | [] => some o
  | a :: l =>
    match toolArg o a with
    | none => none
    | some o' => toolArgs o' l

/-- tools/h265nal.cc:375-384: `add_contents` requires `add_offset` and `add_length`, `dump_length` requires `add_length` -/
def ToolOptions.effective (o : ToolOptions) : ToolOptions :=
  let o := if o.add_contents then { o with add_offset := true, add_length := true } else o
  if o.dump_length then { o with add_length := true } else o

/-- tools/h265nal.cc:386-392 -/
def ToolOptions.parsing (o : ToolOptions) : ParsingOptions where
  add_offset := o.add_offset
  add_length := o.add_length
  add_parsed_length := o.add_parsed_length
  add_checksum := o.add_checksum
  add_resolution := o.add_resolution

/-- `indent_level`, tools/h265nal.cc:462 -/
def ToolOptions.level (o : ToolOptions) : Int := if o.as_one_line then -1 else 0

/-- the loop over the bytes of a NAL unit, tools/h265nal.cc:487-494, from byte `i` on; at most `fuel` bytes (the loop ends at `length`).  `offset + i` does
not wrap: the buffer is shorter than 2⁶³ and a length is at most the size of the buffer or INT_MAX. -/
def contentsLoop (buffer : List UInt8) (offset length : Nat) : Nat → Nat → List Char
  | 0, _ => []
  | fuel + 1, i =>
    if i < length then
      match buffer[offset + i]? with
      | none => []
      | some b => (' ' :: putX0 2 b.toNat) ++ ((if (i + 1) % 16 = 0 then [' '] else []) ++ contentsLoop buffer offset length fuel (i + 1))
    else []

/-- tools/h265nal.cc:485-496 -/
def toolContents (buffer : List UInt8) (n : NalUnit) : List Char :=
  " contents {".toList ++ (contentsLoop buffer n.offset n.length n.length 0 ++ " }".toList)

/-- one round of the loop over the NAL units in mode `dump_all`, tools/h265nal.cc:483-497 -/
def toolDumpUnit (o : ToolOptions) (buffer : List UInt8) (x : ParserState × NalUnit) : Except Bad (List Char) :=
  match (dumpNalUnit o.parsing x.1 x.2).text o.level with
  | .error k => .error k
  | .ok t => .ok (t ++ ((if o.add_contents then toolContents buffer x.2 else []) ++ ['\n']))

/-- the loop over the NAL units in mode `dump_all`, tools/h265nal.cc:482-497 -/
def toolDumpAll (o : ToolOptions) (buffer : List UInt8) : List (ParserState × NalUnit) → Except Bad (List Char)
  | [] => .ok []
  | x :: l =>
    match toolDumpUnit o buffer x with
    | .error k => .error k
    | .ok t =>
      match toolDumpAll o buffer l with
      | .error k => .error k
      | .ok s => .ok (t ++ s)

/-- the variables of the loop over the NAL units, tools/h265nal.cc:478-481 -/
structure LengthState where
  total_bytes : Nat := 0
  nal_num : Nat := 0
  frame_num : Nat := 0
  last_slice_nal_unit_type : Nat := 0

/-- `fprintf(outfp, ",%zu,%u,frame,,%zu,,,\n", …)`, tools/h265nal.cc:520-523, 547-550; `size_t` arithmetic -/
def toolFrameLine (fps : Nat) (v : LengthState) : List Char :=
  ',' :: (putU v.frame_num ++ ',' :: (putU v.last_slice_nal_unit_type ++ ",frame,,".toList ++
    putU (v.total_bytes * 8 % 2 ^ 64 * fps % 2 ^ 64) ++ ",,,\n".toList))

/-- `opt_value`, tools/h265nal.cc:345-347 -/
def optValue (v : Nat) (has_value : Bool) : List Char := if has_value then putI v else []

/-- `fprintf(outfp, "%zu,%zu,%u,%s,%zu,,%s,%s,%s\n", …)`, tools/h265nal.cc:530-540 -/
def toolNalLine (v : LengthState) (t len first addr poc : Nat) (is_slice : Bool) : List Char :=
  putU v.nal_num ++ ',' :: (putU v.frame_num ++ ',' :: (putU t ++ ',' :: ((nalUnitTypeToString t).toList ++ ',' :: (putU len ++ ",,".toList ++
    (optValue first is_slice ++ ',' :: (optValue addr is_slice ++ ',' :: (optValue poc is_slice ++ ['\n'])))))))

/-- one round of the loop over the NAL units in mode `dump_length`, tools/h265nal.cc:498-542: the text and the variables after it.
`slice_segment_layer` is dereferenced without a check. -/
def toolLengthUnit (fps : Nat) (v : LengthState) (n : NalUnit) : Except Bad (List Char × LengthState) :=
  let t := n.nal_unit_header.nal_unit_type
  if isSliceSegment t then
    match n.nal_unit_payload.slice_segment_layer with
    | none => .error .nullDeref
    | some h =>
      let first := h.head.first_slice_segment_in_pic_flag
      let new := first = 1 ∧ v.total_bytes > 0
      let frame := if new then toolFrameLine fps v else []
      let v1 : LengthState := if new then { v with frame_num := v.frame_num + 1, total_bytes := 0 } else v
      let v2 : LengthState := { v1 with last_slice_nal_unit_type := t, total_bytes := (v1.total_bytes + n.length) % 2 ^ 64 }
      .ok (frame ++ toolNalLine v2 t n.length first h.body.slice_segment_address h.body.slice_pic_order_cnt_lsb true, { v2 with nal_num := v2.nal_num + 1 })
  else .ok (toolNalLine v t n.length 0 0 0 false, { v with nal_num := v.nal_num + 1 })

/-- the loop in mode `dump_length` and the line after it, tools/h265nal.cc:482-552 -/
def toolLengthLoop (fps : Nat) : LengthState → List NalUnit → Except Bad (List Char)
  | v, [] => .ok (if v.total_bytes > 0 then toolFrameLine fps v else [])
  | v, n :: l =>
    match toolLengthUnit fps v n with
    | .error k => .error k
    | .ok (t, v') =>
      match toolLengthLoop fps v' l with
      | .error k => .error k
      | .ok s => .ok (t ++ s)

/-- the table of mode `dump_length`, tools/h265nal.cc:470-552 -/
def toolLength (o : ToolOptions) (ns : List NalUnit) : Except Bad (List Char) :=
  match toolLengthLoop o.frames_per_second.toNat {} ns with
  | .error k => .error k
  | .ok s => .ok ("nal_num,frame_num,nal_unit_type,nal_unit_type_str,nal_length_bytes,bitrate_bps,first_slice_segment_in_pic_flag,slice_segment_address,slice_pic_order_cnt_lsb\n".toList ++ s)

/-- An input of the tool: not given, given but not readable (or empty: `ReadFile`, src/h265_utils.cc:136-173), or its bytes. -/
inductive ToolInput where
  | absent
  | unreadable
  | bytes (data : List UInt8)

/-- steps 3 and 4.3 of `main` for an input of these bytes, tools/h265nal.cc:421-440, 469-553, in the state left by the configuration box -/
def toolStream (o : ToolOptions) (st : ParserState) (data : List UInt8) : Except Bad (List Char) :=
  match (if o.nalu_length_bytes < 0 then parseBitstreamObject o.parsing st data else parseNaluLengthObject o.parsing o.nalu_length_bytes.toNat st data) with
  | .error k => .error k
  | .ok (b, _) =>
    if o.dump_length then toolLength o b.nal_units
    else toolDumpAll o data (withStates (fun n => some n.nal_unit_payload) st b.nal_units)

/-- `main`, tools/h265nal.cc:349-562, after `parse_args`; `none`: returns -1 before anything is written; `some s`: returns 0, `s` is written to the output.
Simplified: the stream is parsed before the configuration box is dumped; the model composes the two texts in the order they are written. -/
def toolMain (opts : ToolOptions) (hvcc infile : ToolInput) : Except Bad (Option (List Char)) :=
  let o := opts.effective
  let stream (st : ParserState) (box : Except Bad (List Char)) : Except Bad (Option (List Char)) :=
    match infile with
    | .unreadable => .ok none
    | .absent =>
      match box with
      | .error k => .error k
      | .ok t => .ok (some t)
    | .bytes data =>
      match toolStream o st data with
      | .error k => .error k
      | .ok s =>
        match box with
        | .error k => .error k
        | .ok t => .ok (some (t ++ s))
  match hvcc with
  | .unreadable => .ok none
  | .absent => stream .empty (.ok [])
  | .bytes data =>
    match parseConfigurationBoxBytes o.add_checksum .empty data with
    | .bad k => .error k
    | .fail _ => .ok none
    | .ok (none, _) _ => .ok none
    | .ok (some box, st) _ => stream st (((dumpConfigurationBox o.parsing .empty box).text o.level).map (· ++ ['\n']))

end H265
