/-
Writing NAL units from parsed objects: what a program does that uses the library to read a stream and writes out what it was told.
-/
import Verif.Spec.ByteStream
import Verif.Spec.Sei
import Verif.Spec.Slice
import Verif.Spec.Headers
import Verif.Spec.Vps
import Verif.Model.Nal

set_option autoImplicit false

namespace H265.Spec

/-- bits written into bytes, most significant bit first; a last group of less than 8 bits is not written -/
def packBytes : List Bool → List UInt8
  | b7 :: b6 :: b5 :: b4 :: b3 :: b2 :: b1 :: b0 :: r => UInt8.ofNat (val [b7, b6, b5, b4, b3, b2, b1, b0]) :: packBytes r
  | _ => []

/-- rbsp_trailing_bits (clause 7.3.2.11): a stop bit and zeros up to the byte boundary -/
def withTrailingBits (w : List Bool) : List Bool := w ++ true :: List.replicate (7 - w.length % 8) false

/-- the parameter sets known after a NAL unit with these contents -/
def received (st : ParserState) (p : NalUnitPayload) : ParserState where
  vps := fun i => match p.vps with | some x => if i = x.body.vps_video_parameter_set_id then some x else st.vps i | none => st.vps i
  sps := fun i => match p.sps with | some x => if i = x.body.sps_seq_parameter_set_id then some x else st.sps i | none => st.sps i
  pps := fun i => match p.pps with | some x => if i = x.body.head.pps_pic_parameter_set_id then some x else st.pps i | none => st.pps i

/-- The syntax structure reported for a NAL unit of the given type, as bits.  There are none to write if the type is one the library decodes but
nothing was reported, if only the frame of an SEI message was reported, or if the reported PPS lacks the multilayer extension it announces. -/
def payloadSyntax (st : ParserState) (t : Nat) (p : NalUnitPayload) : Option (List Bool) :=
  if t = 32 then p.vps.map fun x => vpsBody x.body
  else if t = 33 then p.sps.map fun x => spsBody x.body
  else if t = 34 then p.pps.bind fun x =>
    if x.body.head.pps_multilayer_extension_flag = 1 ∧ x.body.pps_multilayer_extension.isNone = true then none else some (ppsBody x.body)
  else if t = 35 then p.aud.map aud
  else if t = 39 ∨ t = 40 then p.sei.bind fun m => m.payload_state.map fun q => ffCoded m.payload_type ++ ffCoded m.payload_size ++ seiPayload q
  else if t ≤ 9 ∨ (16 ≤ t ∧ t ≤ 21) then p.slice_segment_layer.bind fun h => (st.pps h.head.slice_pic_parameter_set_id).bind fun P =>
    (st.sps P.body.head.pps_seq_parameter_set_id).map fun S =>
      sliceHead t h.head ++ sliceBody t P.body S.body h.head.first_slice_segment_in_pic_flag h.body
  else some []

/-- extension data with the reported last flag: nothing for 0, one bit for 1 -/
def extensionData (p : NalUnitPayload) : List Bool :=
  if p.vps.map (·.vps_extension_data_flag) = some 1 ∨ p.sps.map (·.sps_extension_data_flag) = some 1 ∨
    p.pps.map (·.pps_extension_data_flag) = some 1 then [true] else []

/-- a NAL unit written from what was reported: header, syntax structure, extension data, trailing bits and emulation prevention -/
def rewriteUnit (st : ParserState) (n : NalUnit) : Option (List UInt8) :=
  (payloadSyntax st n.nal_unit_header.nal_unit_type n.nal_unit_payload).map fun w =>
    escape (packBytes (withTrailingBits (nalUnitHeader n.nal_unit_header ++ w ++ extensionData n.nal_unit_payload)))

/-- all NAL units of a result, one after the other; a slice is written with the parameter sets reported before it -/
def rewriteAll (st : ParserState) : List NalUnit → Option (List (List UInt8))
  | [] => some []
  | n :: ns => (rewriteUnit st n).bind fun u => (rewriteAll (received st n.nal_unit_payload) ns).map fun us => u :: us

/-- header and contents of a NAL unit -/
def told (n : NalUnit) : NalUnitHeader × NalUnitPayload := (n.nal_unit_header, n.nal_unit_payload)

example : packBytes (withTrailingBits [true, false, true]) = [0xb0] := by decide
example : packBytes (withTrailingBits (List.replicate 8 true)) = [0xff, 0x80] := by decide

end H265.Spec
