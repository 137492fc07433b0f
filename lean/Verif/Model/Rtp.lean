/-
Model of the RTP payload parsers: src/h265_rtp_parser.cc, src/h265_rtp_single_parser.cc, src/h265_rtp_ap_parser.cc, src/h265_rtp_fu_parser.cc.
-/
import Verif.Model.Nal

namespace H265
open Prog

/-- `RtpSingleState`, include/h265_rtp_single_parser.h:22-40 -/
structure RtpSingle where
  nal_unit_header : NalUnitHeader
  nal_unit_payload : NalUnitPayload
  deriving DecidableEq

/-- `ParseRtpSingle(bit_buffer, ...)`, src/h265_rtp_single_parser.cc:32-58 -/
def parseRtpSingle (st : ParserState) : Prog (RtpSingle × ParserState) := do
  let nal_unit_header ← parseNalUnitHeader
  let (nal_unit_payload, st') ← parseNalUnitPayload nal_unit_header.nal_unit_type st
  return ({ nal_unit_header, nal_unit_payload }, st')

/-- Entry `i` of the three vectors of `RtpApState`, include/h265_rtp_ap_parser.h:40-48, which grow in lockstep in every object that is returned -/
structure RtpApUnit where
  nal_unit_size : Nat
  nal_unit_header : NalUnitHeader
  nal_unit_payload : NalUnitPayload
  deriving DecidableEq

/-- `RtpApState`, include/h265_rtp_ap_parser.h:22-49 -/
structure RtpAp where
  header : NalUnitHeader
  units : List RtpApUnit
  deriving DecidableEq

/-- Size and header of one aggregated unit, src/h265_rtp_ap_parser.cc:49-66.  `nalu_size * 8` cannot overflow: `nalu_size` has 16 bits. -/
def parseApHead : Prog (Nat × NalUnitHeader) := do
  let nalu_size ← u 16
  (remaining fun r => check (nalu_size * 8 ≤ r))
  let h ← parseNalUnitHeader
  return (nalu_size, h)

/-- The loop of `ParseRtpAp`, src/h265_rtp_ap_parser.cc:48-78.  `none` = returns null; parameter sets parsed before that stay in the parser state.  Neither the payload parser
nor the next iteration is told about `nalu_size`. -/
def apLoop : Nat → ParserState → Prog (Option (List RtpApUnit) × ParserState)
  | 0, _ => bad .hang
  | fuel + 1, st =>
    remaining fun r =>
      if r = 0 then ret (some [], st)
      else parseApHead.attempt.bind fun
        | none => ret (none, st)
        | some (nal_unit_size, nal_unit_header) =>
          (parseNalUnitPayload nal_unit_header.nal_unit_type st).bind fun (nal_unit_payload, st1) =>
            (apLoop fuel st1).bind fun (o, st2) => ret (o.map (⟨nal_unit_size, nal_unit_header, nal_unit_payload⟩ :: ·), st2)

/-- `ParseRtpAp(bit_buffer, ...)`, src/h265_rtp_ap_parser.cc:33-80; each iteration consumes bits, so that one iteration per remaining bit is enough -/
def parseRtpAp (st : ParserState) : Prog (Option RtpAp × ParserState) :=
  parseNalUnitHeader.attempt.bind fun
    | none => ret (none, st)
    | some header => remaining fun r => (apLoop (r + 1) st).bind fun (o, st') => ret (o.map (⟨header, ·⟩), st')

/-- `RtpFuState`, include/h265_rtp_fu_parser.h:21-46 -/
structure RtpFu where
  header : NalUnitHeader
  s_bit : Nat
  e_bit : Nat
  fu_type : Nat
  nal_unit_payload : Option NalUnitPayload
  deriving DecidableEq

/-- `ParseRtpFu(bit_buffer, ...)`, src/h265_rtp_fu_parser.cc:32-68 -/
def parseRtpFu (st : ParserState) : Prog (RtpFu × ParserState) := do
  let header ← parseNalUnitHeader
  let s_bit ← u 1
  let e_bit ← u 1
  let fu_type ← u 6
  if s_bit = 0 then return ({ header, s_bit, e_bit, fu_type, nal_unit_payload := none }, st)
  else do
    let (p, st') ← parseNalUnitPayload fu_type st
    return ({ header, s_bit, e_bit, fu_type, nal_unit_payload := some p }, st')

/-- `RtpState`, include/h265_rtp_parser.h:23-43 -/
structure Rtp where
  nal_unit_header : NalUnitHeader
  rtp_single : Option RtpSingle := none
  rtp_ap : Option RtpAp := none
  rtp_fu : Option RtpFu := none
  deriving DecidableEq

/-- What `ParseRtp` makes of the result of `ParseRtpSingle` / `ParseRtpFu`, src/h265_rtp_parser.cc:52-54, 68-70: null in, null out. -/
def rtpOut {α : Type} (st : ParserState) (f : α → Rtp) : Res (α × ParserState) → Except Bad (Option Rtp × ParserState)
  | .ok (x, st') _ => .ok (some (f x), st')
  | .fail _ => .ok (none, st)
  | .bad k => .error k

/-- The same for `ParseRtpAp`, src/h265_rtp_parser.cc:60-62 -/
def rtpApOut (st : ParserState) (f : RtpAp → Rtp) : Res (Option RtpAp × ParserState) → Except Bad (Option Rtp × ParserState)
  | .ok (o, st') _ => .ok (o.map f, st')
  | .fail _ => .ok (none, st)
  | .bad k => .error k

/-- `ParseRtp(bit_buffer, ...)`, src/h265_rtp_parser.cc:31-74; `Seek(0, 0)` goes to the first byte of the buffer (it cannot fail).
Result: the returned object (null = `none`) and the parser state. -/
def parseRtpBB (st : ParserState) (bb : BB) : Except Bad (Option Rtp × ParserState) :=
  match parseNalUnitHeader.run bb with
  | .bad k => .error k
  | .fail _ => .ok (none, st)
  | .ok h b1 =>
    let b0 : BB := { b1 with byteOff := 0, bitOff := 0 }
    if h.nal_unit_type ≤ 47 then rtpOut st (fun x => { nal_unit_header := h, rtp_single := some x }) ((parseRtpSingle st).run b0)
    else if h.nal_unit_type = 48 then rtpApOut st (fun x => { nal_unit_header := h, rtp_ap := some x }) ((parseRtpAp st).run b0)
    else if h.nal_unit_type = 49 then rtpOut st (fun x => { nal_unit_header := h, rtp_fu := some x }) ((parseRtpFu st).run b0)
    else .ok (some { nal_unit_header := h }, st)

/-- `ParseRtp(data, length, ...)`, src/h265_rtp_parser.cc:23-29 -/
def parseRtp (st : ParserState) (data : List UInt8) : Except Bad (Option Rtp × ParserState) :=
  match unescapeRbsp data with
  | .ok bytes => if bytes.length ≤ 2 ^ 32 - 1 then parseRtpBB st (BB.init bytes) else .error .assertion
  | .error k => .error k

end H265
