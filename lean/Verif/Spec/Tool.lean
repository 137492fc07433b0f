/-
What a user expects of the command line tool: the table of `--dump-length` and the contents of `--add-contents`.
-/
import Verif.Model.Nal
import Verif.Spec.DumpText

set_option autoImplicit false

namespace H265.Spec

/-- The names of the NAL unit types 0..63 (Table 7-1 of the standard, lower case, without `_nut`). -/
def nalTypeNames : List String := [
  "trail_n", "trail_r", "tsa_n", "tsa_r", "stsa_n", "stsa_r", "radl_n", "radl_r", "rasl_n", "rasl_r",
  "rsv_vcl_n10", "rsv_vcl_r11", "rsv_vcl_n12", "rsv_vcl_r13", "rsv_vcl_n14", "rsv_vcl_r15",
  "bla_w_lp", "bla_w_radl", "bla_n_lp", "idr_w_radl", "idr_n_lp", "cra", "rsv_irap_vcl22", "rsv_irap_vcl23",
  "rsv_vcl24", "rsv_vcl25", "rsv_vcl26", "rsv_vcl27", "rsv_vcl28", "rsv_vcl29", "rsv_vcl30", "rsv_vcl31",
  "vps", "sps", "pps", "aud", "eos", "eob", "fd", "prefix_sei", "suffix_sei",
  "rsv_nvcl41", "rsv_nvcl42", "rsv_nvcl43", "rsv_nvcl44", "rsv_nvcl45", "rsv_nvcl46", "rsv_nvcl47", "ap", "fu",
  "unspec50", "unspec51", "unspec52", "unspec53", "unspec54", "unspec55", "unspec56", "unspec57", "unspec58", "unspec59",
  "unspec60", "unspec61", "unspec62", "unspec63"]

/-- What the table shows of a slice segment. -/
structure CsvSlice where
  first_slice_segment_in_pic_flag : Nat
  slice_segment_address : Nat
  slice_pic_order_cnt_lsb : Nat
  deriving DecidableEq

/-- What the table shows of a NAL unit. -/
structure CsvUnit where
  nal_unit_type : Nat
  length : Nat
  slice : Option CsvSlice
  deriving DecidableEq

/-- what the table shows of this NAL unit -/
def csvUnit (n : NalUnit) : CsvUnit where
  nal_unit_type := n.nal_unit_header.nal_unit_type
  length := n.length
  slice := n.nal_unit_payload.slice_segment_layer.map fun h =>
    ⟨h.head.first_slice_segment_in_pic_flag, h.body.slice_segment_address, h.body.slice_pic_order_cnt_lsb⟩

/-- a slice segment -/
def CsvUnit.isSlice (u : CsvUnit) : Bool := u.slice.isSome
/-- the first slice segment of a picture -/
def CsvUnit.isFirst (u : CsvUnit) : Bool := u.slice.any fun s => s.first_slice_segment_in_pic_flag == 1

/-- The number of the current frame after the units `p`, beginning with 0: every slice segment that is the first one of its picture begins a
new frame, except the very first slice segment. -/
def frameNumber (p : List CsvUnit) : Nat := ((p.filter CsvUnit.isSlice).drop 1).countP CsvUnit.isFirst

/-- the slice segments of frame `f` -/
def frameSlices (us : List CsvUnit) (f : Nat) : List CsvUnit :=
  ((us.mapIdx fun k u => (frameNumber (us.take (k + 1)), u)).filter fun x => x.2.isSlice && x.1 == f).map (·.2)

/-- the number of bytes of frame `f` -/
def frameBytes (us : List CsvUnit) (f : Nat) : Nat := ((frameSlices us f).map (·.length)).sum

/-- the type of the last slice segment of frame `f` -/
def frameType (us : List CsvUnit) (f : Nat) : Nat := (((frameSlices us f).getLast?).map (·.nal_unit_type)).getD 0

/-- fields separated by commas -/
def csv (fields : List (List Char)) : List Char := [','].intercalate fields

/-- the first line of the table -/
def csvHeader : List Char := csv (["nal_num", "frame_num", "nal_unit_type", "nal_unit_type_str", "nal_length_bytes", "bitrate_bps",
  "first_slice_segment_in_pic_flag", "slice_segment_address", "slice_pic_order_cnt_lsb"].map String.toList)

/-- the line of frame `f`: number, type, and bit rate for `fps` such frames per second -/
def csvFrame (fps : Nat) (us : List CsvUnit) (f : Nat) : List Char :=
  csv [[], decimal f, decimal (frameType us f), "frame".toList, [], decimal (frameBytes us f * 8 * fps : Nat), [], [], []]

/-- the line of unit `k` -/
def csvLine (us : List CsvUnit) (k : Nat) (u : CsvUnit) : List Char :=
  csv [decimal k, decimal (frameNumber (us.take (k + 1))), decimal u.nal_unit_type, (nalTypeNames.getD u.nal_unit_type "unknown").toList, decimal u.length, [],
    (u.slice.map fun s => decimal (int32 s.first_slice_segment_in_pic_flag)).getD [],
    (u.slice.map fun s => decimal (int32 s.slice_segment_address)).getD [],
    (u.slice.map fun s => decimal (int32 s.slice_pic_order_cnt_lsb)).getD []]

/-- The table after the first line: a line per unit; where a unit begins a new frame, the line of the frame before it comes first; the line of the last
frame comes at the end. -/
def csvTable (fps : Nat) (us : List CsvUnit) : List (List Char) :=
  List.flatten (us.mapIdx fun k u =>
    (if frameNumber (us.take (k + 1)) = frameNumber (us.take k) then [] else [csvFrame fps us (frameNumber (us.take k))]) ++ [csvLine us k u]) ++
  (if us.any CsvUnit.isSlice then [csvFrame fps us (frameNumber us)] else [])

/-- `contents { 40 01 … }`: the bytes of a unit -/
def textContents (data : List UInt8) (offset length : Nat) : Text :=
  block "contents" [((data.drop offset).take length).map fun b => hexadecimal 2 b.toNat]

/-- lines of text -/
def lines (ls : List (List Char)) : List Char := ls.flatMap (· ++ ['\n'])

/-- some NAL unit of a slice type was not parsed as a slice -/
def NoSlices (ns : List NalUnit) : Prop :=
  ∃ n ∈ ns, isSliceSegment n.nal_unit_header.nal_unit_type = true ∧ n.nal_unit_payload.slice_segment_layer = none

/-- the value given last on a command line -/
def lastOf {α β : Type} (f : α → Option β) (default : β) (args : List α) : β := ((args.filterMap f).getLast?).getD default

/-- two frames: the first of two slice segments -/
example : let us : List CsvUnit := [⟨32, 20, none⟩, ⟨19, 100, some ⟨1, 0, 0⟩⟩, ⟨19, 50, some ⟨0, 8, 0⟩⟩, ⟨35, 3, none⟩, ⟨1, 30, some ⟨1, 0, 1⟩⟩]
    (csvTable 30 us).map String.ofList = ["0,0,32,vps,20,,,,", "1,0,19,idr_w_radl,100,,1,0,0", "2,0,19,idr_w_radl,50,,0,8,0", "3,0,35,aud,3,,,,",
      ",0,19,frame,,36000,,,", "4,1,1,trail_r,30,,1,0,1", ",1,1,frame,,7200,,,"] := by decide +kernel

end H265.Spec
