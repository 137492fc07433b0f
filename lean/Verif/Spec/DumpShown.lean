/-
What the text form shows.  Everything that was parsed is in the text, except for the elements listed here: `shown` blanks them, and keeps everything else.
-/
import Verif.Model.Nal
import Verif.Model.Rtp
import Verif.Model.ConfigBox
import Verif.Model.Dump
import Verif.Spec.Pps
import Verif.Spec.Sps
import Verif.Spec.Vps

set_option autoImplicit false

namespace H265

/-- Of a scaling list the coefficients are printed, not the scaling_list_delta_coef they were computed from. -/
def ScalingMatrix.shown (m : ScalingMatrix) : ScalingMatrix := { m with coefs := m.coefs.map fun c => { c with delta := 0 } }
/-- of each of the matrices -/
def ScalingListData.shown (s : ScalingListData) : ScalingListData := { sizes := s.sizes.map fun l => l.map ScalingMatrix.shown }

/-- Of the hrd_parameters() of a VPS the last one is printed; of the others only the layer set and whether the common part is present. -/
def shownHrds (l : List VpsHrd) : List VpsHrd := l.dropLast.map (fun h => { h with hrd_parameters := default }) ++ l.getLast?.toList

/-- a video parameter set -/
def Vps.shown (v : Vps) : Vps := { v with body := { v.body with hrds := shownHrds v.body.hrds } }

/-- The contents of a sequence parameter set. -/
def SpsBody.shown (s : SpsBody) : SpsBody := { s with scaling_list_data := s.scaling_list_data.map ScalingListData.shown }
/-- sps_extension_data_flag is not printed. -/
def Sps.shown (v : Sps) : Sps := { body := v.body.shown, sps_extension_data_flag := 0 }

/-- chroma_bit_depth_entry_minus8 is not printed when it is present: the parser reads it for monochrome palettes, the text shows it for the others -/
def PpsSccExtension.shown (s : PpsSccExtension) : PpsSccExtension := { s with chroma_bit_depth_entry_minus8 := 0 }
/-- diff_cu_qp_delta_depth is not printed: the text repeats cu_qp_delta_enabled_flag in its place. -/
def PpsBody.shown (s : PpsBody) : PpsBody :=
  { s with
    head := { s.head with scaling_list_data := s.head.scaling_list_data.map ScalingListData.shown, diff_cu_qp_delta_depth := 0 }
    pps_scc_extension := s.pps_scc_extension.map PpsSccExtension.shown }
/-- pps_extension_data_flag is not printed. -/
def Pps.shown (v : Pps) : Pps := { body := v.body.shown, pps_extension_data_flag := 0 }

/-- a payload: slices, access unit delimiters and SEI messages are printed completely -/
def NalUnitPayload.shown (p : NalUnitPayload) : NalUnitPayload :=
  { p with vps := p.vps.map Vps.shown, sps := p.sps.map Sps.shown, pps := p.pps.map Pps.shown }

/-- a NAL unit: its place, its lengths and its checksum are printed if the option is on -/
def NalUnit.shown (o : ParsingOptions) (n : NalUnit) : NalUnit :=
  { nal_unit_header := n.nal_unit_header
    nal_unit_payload := n.nal_unit_payload.shown
    offset := if o.add_offset then n.offset else 0
    length := if o.add_length then n.length else 0
    parsed_length := if o.add_parsed_length then n.parsed_length else 0
    checksum := if o.add_checksum then n.checksum else none }

/-- a configuration box: its NAL units as above, everything else completely -/
def HvccUnit.shown (o : ParsingOptions) (u : HvccUnit) : HvccUnit := { u with nalUnit := u.nalUnit.map (NalUnit.shown o) }
/-- an array of a configuration box -/
def HvccArray.shown (o : ParsingOptions) (a : HvccArray) : HvccArray := { a with units := a.units.map (HvccUnit.shown o) }
/-- a configuration box -/
def ConfigurationBox.shown (o : ParsingOptions) (b : ConfigurationBox) : ConfigurationBox := { b with arrays := b.arrays.map (HvccArray.shown o) }

/-- an RTP payload: its NAL unit payloads as above, everything else completely -/
def RtpSingle.shown (x : RtpSingle) : RtpSingle := { x with nal_unit_payload := x.nal_unit_payload.shown }
/-- an element of an aggregation packet -/
def RtpApUnit.shown (x : RtpApUnit) : RtpApUnit := { x with nal_unit_payload := x.nal_unit_payload.shown }
/-- an aggregation packet -/
def RtpAp.shown (x : RtpAp) : RtpAp := { x with units := x.units.map RtpApUnit.shown }
/-- a fragmentation unit -/
def RtpFu.shown (x : RtpFu) : RtpFu := { x with nal_unit_payload := x.nal_unit_payload.map NalUnitPayload.shown }
/-- an RTP payload -/
def Rtp.shown (r : Rtp) : Rtp :=
  { r with rtp_single := r.rtp_single.map RtpSingle.shown, rtp_ap := r.rtp_ap.map RtpAp.shown, rtp_fu := r.rtp_fu.map RtpFu.shown }

end H265
