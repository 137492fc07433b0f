/-
Specification for C85: the picture sizes of a sequence parameter set as the standard derives them, and NAL units that carry one.  Not a model of code.
-/
import Verif.Spec.Front

set_option autoImplicit false

namespace H265.Std
open Spec

/-- the pictures shown are what the conformance cropping window leaves of the pictures coded (clause 7.4.3.2.1) -/
def croppedWidth (s : SpsBody) : Nat := s.pic_width_in_luma_samples - subWidthC s * (s.conf_win_left_offset + s.conf_win_right_offset)
def croppedHeight (s : SpsBody) : Nat := s.pic_height_in_luma_samples - subHeightC s * (s.conf_win_top_offset + s.conf_win_bottom_offset)

/-- MinCbSizeY, equations 7-10 and 7-12 -/
def minCbSizeY (s : SpsBody) : Nat := 2 ^ (s.log2_min_luma_coding_block_size_minus3 + 3)

/-- the size accessors of an SPS returned, `v`, give the sizes of the SPS sent, `s` -/
structure HasSizes (v s : SpsBody) : Prop where
  /-- the resolution: positive, and what is left by the cropping window -/
  resolution : v.getResolution = .ok ((croppedWidth s : Int), (croppedHeight s : Int)) ∧ 0 < croppedWidth s ∧ 0 < croppedHeight s
  /-- the coding tree blocks (equations 7-15, 7-17, 7-19) -/
  ctbs : v.getCtbSizeY = ctbSizeY s ∧ v.getPicWidthInCtbsY = picWidthInCtbsY s ∧ v.getPicHeightInCtbsY = picHeightInCtbsY s ∧ v.getPicSizeInCtbsY = picSizeInCtbsY s
  /-- the minimum coding blocks: they fill the picture exactly (equations 7-14, 7-16, 7-18) -/
  minCbs : v.getPicWidthInMinCbsY * minCbSizeY s = s.pic_width_in_luma_samples ∧ v.getPicHeightInMinCbsY * minCbSizeY s = s.pic_height_in_luma_samples ∧
    v.getPicSizeInMinCbsY = v.getPicWidthInMinCbsY * v.getPicHeightInMinCbsY
  /-- the samples (equation 7-20) -/
  samples : v.getPicSizeInSamplesY = s.pic_width_in_luma_samples * s.pic_height_in_luma_samples

/-- the bytes of a NAL unit with an SPS whose first part is that of `s`; anything may follow -/
structure SpsNal (nal : List UInt8) (ptl : StdPtl) (s : SpsBody) : Prop where
  front : FrontSps ptl s
  bytes : ∃ (h : NalUnitHeader) (tail : List Bool) (rbsp : List UInt8), ValidNalUnitHeader h ∧ h.nal_unit_type = 33 ∧ nal = escape rbsp ∧
    bitsOf rbsp = Spec.nalUnitHeader h ++ (spsFront ptl s ++ tail)

end H265.Std
