/-
What a user expects of the program for a stream made after the standard: the rows of the `--dump-length` table.
-/
import Verif.Spec.StdStream
import Verif.Spec.Tool

set_option autoImplicit false

namespace H265.Std
open Spec

/-- what the table shows of a NAL unit that was sent: type, size, and, for a slice segment, three values of its header -/
def tableRow (size : StdNal → Nat) (x : StdNal) : CsvUnit where
  nal_unit_type := x.header.nal_unit_type
  length := size x
  slice := match x.unit with
    | .slice hd s _ => some ⟨hd.first_slice_segment_in_pic_flag, s.slice_segment_address, s.slice_pic_order_cnt_lsb⟩
    | _ => none

/-- the number of bytes of a NAL unit -/
def nalSize (x : StdNal) : Nat := (escape x.rbsp).length

/-- the contents of a `.265` file: an Annex B byte stream; `start` says which start codes have an extra zero byte -/
def fileOf (start : List Bool) (l : List StdNal) : List UInt8 := annexB (start.zip (l.map fun x => escape x.rbsp))

/-- the same NAL units behind length fields of `k` bytes, as in an MP4 file -/
def lengthFileOf (k : Nat) (l : List StdNal) : List UInt8 := lengthPrefixed k (l.map fun x => escape x.rbsp)

end H265.Std
