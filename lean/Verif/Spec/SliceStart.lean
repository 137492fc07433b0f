/-
Specification for C83: streams whose slices conform to the standard but need not be supported by the library, and what is reported for them.  Not a model of code.
-/
import Verif.Spec.StdReports

set_option autoImplicit false

namespace H265.Std
open Spec

/-- The same values for the syntax elements in front of ref_pic_lists_modification( ) (clause 7.3.6.1): everything about the place of the slice, its type, its picture
order count, its reference picture set, and the number of its reference pictures. -/
structure SameStart (a b : SliceBody) : Prop where
  dependent_slice_segment_flag : a.dependent_slice_segment_flag = b.dependent_slice_segment_flag
  slice_segment_address : a.slice_segment_address = b.slice_segment_address
  slice_reserved_flag : a.slice_reserved_flag = b.slice_reserved_flag
  slice_type : a.slice_type = b.slice_type
  pic_output_flag : a.pic_output_flag = b.pic_output_flag
  colour_plane_id : a.colour_plane_id = b.colour_plane_id
  slice_pic_order_cnt_lsb : a.slice_pic_order_cnt_lsb = b.slice_pic_order_cnt_lsb
  short_term_ref_pic_set_sps_flag : a.short_term_ref_pic_set_sps_flag = b.short_term_ref_pic_set_sps_flag
  st_ref_pic_set : a.st_ref_pic_set = b.st_ref_pic_set
  short_term_ref_pic_set_idx : a.short_term_ref_pic_set_idx = b.short_term_ref_pic_set_idx
  num_long_term_sps : a.num_long_term_sps = b.num_long_term_sps
  num_long_term_pics : a.num_long_term_pics = b.num_long_term_pics
  lt_ref_pics : a.lt_ref_pics = b.lt_ref_pics
  slice_temporal_mvp_enabled_flag : a.slice_temporal_mvp_enabled_flag = b.slice_temporal_mvp_enabled_flag
  slice_sao_luma_flag : a.slice_sao_luma_flag = b.slice_sao_luma_flag
  slice_sao_chroma_flag : a.slice_sao_chroma_flag = b.slice_sao_chroma_flag
  num_ref_idx_active_override_flag : a.num_ref_idx_active_override_flag = b.num_ref_idx_active_override_flag
  num_ref_idx_l0_active_minus1 : a.num_ref_idx_l0_active_minus1 = b.num_ref_idx_l0_active_minus1
  num_ref_idx_l1_active_minus1 : a.num_ref_idx_l1_active_minus1 = b.num_ref_idx_l1_active_minus1

/-- A NAL unit with a slice that conforms to the standard (as `SentNal` for slices, but without `SupportedSlice`): it may have a reference list modification, a
prediction weight table of a B slice, deblocking switched off by the PPS, and so on. -/
structure ConformingSlice (d : StdParams) (n : StdNal) (hd : SliceHead) (s : SliceBody) (x : SliceExtra) : Prop where
  header : ValidNalUnitHeader n.header
  type : n.header.nal_unit_type ≤ 9 ∨ (16 ≤ n.header.nal_unit_type ∧ n.header.nal_unit_type ≤ 21)
  unit : n.unit = .slice hd s x
  contents : ∃ P ptl S, d.pps hd.slice_pic_parameter_set_id = some P ∧ d.sps P.head.pps_seq_parameter_set_id = some (ptl, S) ∧
    ConformsSliceHead n.header.nal_unit_type hd ∧ ConformsSliceBody n.header.nal_unit_type P S hd.first_slice_segment_in_pic_flag s ∧
    bitsOf n.rbsp = Spec.nalUnitHeader n.header ++ (Std.sliceSegmentHeader n.header.nal_unit_type P S hd s x ++ n.tail)
  last : (escape n.rbsp).getLast? ≠ some 0

/-- a sequence of NAL units that conform to the standard; those marked `true` are supported, the others are slices -/
inductive Conforming : StdParams → List (StdNal × Bool) → StdParams → Prop
  | nil (d : StdParams) : Conforming d [] d
  | supported {d d' : StdParams} {n : StdNal} {l : List (StdNal × Bool)} : SentNal d n → Conforming (d.after n.unit) l d' → Conforming d ((n, true) :: l) d'
  | slice {d d' : StdParams} {n : StdNal} {hd : SliceHead} {s : SliceBody} {x : SliceExtra} {l : List (StdNal × Bool)} : ConformingSlice d n hd s x →
      Conforming d l d' → Conforming d ((n, false) :: l) d'

/-- the NAL unit reported for a conforming slice: its header, and no slice or one with the same start -/
def ReportsStart (l : StdNal) (n : NalUnit) : Prop :=
  n.nal_unit_header = l.header ∧ ∀ hd s x, l.unit = .slice hd s x →
    n.nal_unit_payload = {} ∨ ∃ b, n.nal_unit_payload = { slice_segment_layer := some ⟨l.header.nal_unit_type, hd, b⟩ } ∧ SameStart b s

/-- complete for the supported ones, the start for the others -/
def ReportsMarked (l : StdNal × Bool) (n : NalUnit) : Prop := if l.2 then Reports l.1 n else ReportsStart l.1 n

end H265.Std
