/-
Model of src/h265_utils.cc: `GetSliceQpY` for bitstreams and for RTP packets.
-/
import Verif.Model.Rtp

namespace H265

/-- `int32_t slice_qpy = 26 + init_qp_minus26 + slice_qp_delta;`, src/h265_utils.cc:72-73; both additions are signed -/
def sliceQpSum (init_qp_minus26 slice_qp_delta : Int) : Except Bad Int :=
  let fits (x : Int) : Prop := -(2 ^ 31) ≤ x ∧ x ≤ 2 ^ 31 - 1
  if fits (26 + init_qp_minus26) ∧ fits (26 + init_qp_minus26 + slice_qp_delta) then .ok (26 + init_qp_minus26 + slice_qp_delta) else .error .signedOverflow

/-- `GetSliceQpYInternal`, src/h265_utils.cc:44-76 -/
def getSliceQpYInternal (nal_unit_type : Nat) (payload : Option NalUnitPayload) (st : ParserState) : Except Bad (Option Int) :=
  if isSliceSegment nal_unit_type then
    match payload.bind (·.slice_segment_layer) with
    | none => .ok none
    | some h =>
      match st.pps h.head.slice_pic_parameter_set_id with
      | none => .ok none
      | some pps =>
        match sliceQpSum pps.body.head.init_qp_minus26 h.body.slice_qp_delta with
        | .ok q => .ok (some q)
        | .error k => .error k
  else .ok none

/-- `GetSliceQpY(rtp, bitstream_parser_state)`, src/h265_utils.cc:79-111.  `nal_unit_headers.size() - 1` wraps for an aggregation packet without units. -/
def getSliceQpYRtp (rtp : Rtp) (st : ParserState) : Except Bad (Option Int) :=
  if rtp.nal_unit_header.nal_unit_type ≤ 47 then
    match rtp.rtp_single with
    | none => .error .nullDeref
    | some s => getSliceQpYInternal s.nal_unit_header.nal_unit_type (some s.nal_unit_payload) st
  else if rtp.nal_unit_header.nal_unit_type = 48 then
    match rtp.rtp_ap with
    | none => .error .nullDeref
    | some ap =>
      match ap.units[(ap.units.length + 2 ^ 64 - 1) % 2 ^ 64]? with
      | none => .error .oob
      | some u => getSliceQpYInternal u.nal_unit_header.nal_unit_type (some u.nal_unit_payload) st
  else if rtp.nal_unit_header.nal_unit_type = 49 then
    match rtp.rtp_fu with
    | none => .error .nullDeref
    | some fu => if fu.s_bit = 0 then .ok none else getSliceQpYInternal fu.fu_type fu.nal_unit_payload st
  else .ok none

/-- The loop of `GetSliceQpY(data, length, bitstream_parser_state)`, src/h265_utils.cc:123-132 -/
def sliceQpLoop (st : ParserState) : List NalUnit → Except Bad (List Int)
  | [] => .ok []
  | n :: ns =>
    match getSliceQpYInternal n.nal_unit_header.nal_unit_type (some n.nal_unit_payload) st with
    | .error k => .error k
    | .ok q =>
      match sliceQpLoop st ns with
      | .error k => .error k
      | .ok qs => .ok (q.toList ++ qs)

/-- `GetSliceQpY(data, length, bitstream_parser_state)`, src/h265_utils.cc:114-135: all NAL units are parsed first, so that the values are computed
with the parser state at the end of the stream. -/
def getSliceQpY (st : ParserState) (data : List UInt8) : Except Bad (List Int × ParserState) :=
  match parseBitstream false st data with
  | .error k => .error k
  | .ok (ns, st') =>
    match sliceQpLoop st' ns with
    | .error k => .error k
    | .ok qs => .ok (qs, st')

end H265
