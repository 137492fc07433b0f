/-
Model of the derived values of `SpsState` (src/h265_sps_parser.cc:863-995).
-/
import Verif.Model.Sps

namespace H265

/-- `uint32_t` arithmetic, e.g. src/h265_sps_parser.cc:869-877 -/
def w32 (x : Nat) : Nat := x % 2 ^ 32

/-- `getMinCbLog2SizeY`, src/h265_sps_parser.cc:869-872 -/
def SpsBody.getMinCbLog2SizeY (s : SpsBody) : Nat := w32 (s.log2_min_luma_coding_block_size_minus3 + 3)
/-- `getCtbLog2SizeY`, src/h265_sps_parser.cc:874-877 -/
def SpsBody.getCtbLog2SizeY (s : SpsBody) : Nat := w32 (s.getMinCbLog2SizeY + s.log2_diff_max_min_luma_coding_block_size)
/-- `getMinCbSizeY`, src/h265_sps_parser.cc:879-882 (the shift is by at most 6 for a parsed SPS) -/
def SpsBody.getMinCbSizeY (s : SpsBody) : Nat := 2 ^ s.getMinCbLog2SizeY
/-- `getCtbSizeY`, src/h265_sps_parser.cc:884-887 (the shift is by at most 9 for a parsed SPS) -/
def SpsBody.getCtbSizeY (s : SpsBody) : Nat := 2 ^ s.getCtbLog2SizeY
/-- `static_cast<uint32_t>(std::ceil(1.0 * a / b))` for 32-bit `a` and `b`: the result is the ceiling of the exact quotient
(proved for the double precision computation: `C87_ceil`, `C87_sps`).  src/h265_sps_parser.cc:896-897, 907-908. -/
def ceilDiv (a b : Nat) : Nat := a / b + (if a % b = 0 then 0 else 1)
/-- `getPicWidthInMinCbsY`, src/h265_sps_parser.cc:889-892 -/
def SpsBody.getPicWidthInMinCbsY (s : SpsBody) : Nat := s.pic_width_in_luma_samples / s.getMinCbSizeY
/-- `getPicWidthInCtbsY`, src/h265_sps_parser.cc:894-898 -/
def SpsBody.getPicWidthInCtbsY (s : SpsBody) : Nat := ceilDiv s.pic_width_in_luma_samples s.getCtbSizeY
/-- `getPicHeightInMinCbsY`, src/h265_sps_parser.cc:900-903 -/
def SpsBody.getPicHeightInMinCbsY (s : SpsBody) : Nat := s.pic_height_in_luma_samples / s.getMinCbSizeY
/-- `getPicHeightInCtbsY`, src/h265_sps_parser.cc:905-909 -/
def SpsBody.getPicHeightInCtbsY (s : SpsBody) : Nat := ceilDiv s.pic_height_in_luma_samples s.getCtbSizeY
/-- `getPicSizeInMinCbsY`, src/h265_sps_parser.cc:911-914 -/
def SpsBody.getPicSizeInMinCbsY (s : SpsBody) : Nat := w32 (s.getPicWidthInMinCbsY * s.getPicHeightInMinCbsY)
/-- `getPicSizeInCtbsY`, src/h265_sps_parser.cc:916-919 -/
def SpsBody.getPicSizeInCtbsY (s : SpsBody) : Nat := w32 (s.getPicWidthInCtbsY * s.getPicHeightInCtbsY)
/-- `getPicSizeInSamplesY`, src/h265_sps_parser.cc:921-924 -/
def SpsBody.getPicSizeInSamplesY (s : SpsBody) : Nat := w32 (s.pic_width_in_luma_samples * s.pic_height_in_luma_samples)

/-- `getSubWidthC`, src/h265_sps_parser.cc:938-957 -/
def SpsBody.getSubWidthC (s : SpsBody) : Int :=
  if s.chroma_format_idc = 0 ∧ s.separate_colour_plane_flag = 0 then 1
  else if s.chroma_format_idc = 1 ∧ s.separate_colour_plane_flag = 0 then 2
  else if s.chroma_format_idc = 2 ∧ s.separate_colour_plane_flag = 0 then 2
  else if s.chroma_format_idc = 3 ∧ s.separate_colour_plane_flag = 0 then 1
  else if s.chroma_format_idc = 3 ∧ s.separate_colour_plane_flag = 1 then 1
  else -1
/-- `getSubHeightC`, src/h265_sps_parser.cc:959-978 -/
def SpsBody.getSubHeightC (s : SpsBody) : Int :=
  if s.chroma_format_idc = 0 ∧ s.separate_colour_plane_flag = 0 then 1
  else if s.chroma_format_idc = 1 ∧ s.separate_colour_plane_flag = 0 then 2
  else if s.chroma_format_idc = 2 ∧ s.separate_colour_plane_flag = 0 then 1
  else if s.chroma_format_idc = 3 ∧ s.separate_colour_plane_flag = 0 then 1
  else if s.chroma_format_idc = 3 ∧ s.separate_colour_plane_flag = 1 then 1
  else -1

/-- `a * b` in `int`, src/h265_sps_parser.cc:990-994 -/
def mulInt (a b : Int) : Except Bad Int :=
  if -(2 ^ 31) ≤ a * b ∧ a * b ≤ 2 ^ 31 - 1 then .ok (a * b) else .error .signedOverflow
/-- `a + b` in `int`, src/h265_sps_parser.cc:990-994 -/
def addInt (a b : Int) : Except Bad Int :=
  if -(2 ^ 31) ≤ a + b ∧ a + b ≤ 2 ^ 31 - 1 then .ok (a + b) else .error .signedOverflow

/-- `getResolution`, src/h265_sps_parser.cc:980-995, with non-null pointers.  (The `static_cast<int>` keep the value of the fields,
which are below 2^31 for a parsed SPS.) -/
def SpsBody.getResolution (s : SpsBody) : Except Bad (Int × Int) := do
  let l ← mulInt s.getSubWidthC s.conf_win_left_offset
  let r ← mulInt s.getSubWidthC s.conf_win_right_offset
  let lr ← addInt l r
  let width ← addInt s.pic_width_in_luma_samples (-lr)
  let t ← mulInt s.getSubHeightC s.conf_win_top_offset
  let b ← mulInt s.getSubHeightC s.conf_win_bottom_offset
  let tb ← addInt t b
  let height ← addInt s.pic_height_in_luma_samples (-tb)
  return (width, height)

end H265
