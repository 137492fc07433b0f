/-
Specification for C72: RTP packets that get lost.  Not a model of code: a user's view of a session, packet by packet.
-/
import Verif.Spec.History
import Verif.Model.Rtp

set_option autoImplicit false

namespace H265.Spec
open H265

/-- the NAL unit payloads reported for an RTP packet, in order -/
def rtpPayloads (r : Rtp) : List NalUnitPayload :=
  (match r.rtp_single with | some x => [x.nal_unit_payload] | none => []) ++
  (match r.rtp_ap with | some x => x.units.map (·.nal_unit_payload) | none => []) ++
  (match r.rtp_fu with | some x => x.nal_unit_payload.toList | none => [])

/-- RTP payloads parsed one after the other with one parser state: one result for each payload, null results included -/
def rtpResults : List (List UInt8) → ParserState → Except Bad (List (Option Rtp) × ParserState)
  | [], st => .ok ([], st)
  | p :: ps, st =>
    match parseRtp st p with
    | .error k => .error k
    | .ok (r, st1) =>
      match rtpResults ps st1 with
      | .error k => .error k
      | .ok (rs, st2) => .ok (r :: rs, st2)

/-- a packet that may get lost: no payload reported for it has a parameter set, unless one that is known already; null is allowed for packets of all types but
aggregation packets (type 48), whose first units are installed even if the packet is rejected later -/
def MayGetLost (st : ParserState) (packet : List UInt8) : Option Rtp → Prop
  | some r => ∀ p ∈ rtpPayloads r, Current st p
  | none => ∀ h, rawHeader packet = some h → h.nal_unit_type ≠ 48

/-- a session where the packets marked `false` get lost: each of them may, in the state the parser has when all packets before it have arrived -/
def LossHarmless : ParserState → List (List UInt8 × Bool) → Prop
  | _, [] => True
  | st, (packet, arrives) :: rest =>
    match parseRtp st packet with
    | .error _ => False
    | .ok (o, st1) => (arrives = false → MayGetLost st packet o) ∧ LossHarmless st1 rest

/-- what can be told from the first three bytes of a packet: it is not an aggregation packet, a parameter set or the first fragment of one -/
def carriesNoParameterSet : List UInt8 → Bool
  | b0 :: _ :: rest =>
    let t := b0.toNat / 2 % 64
    if t = 49 then
      match rest with
      | b2 :: _ => decide (b2.toNat < 128) || !(decide (b2.toNat % 64 ∈ [32, 33, 34]))
      | [] => true
    else !(decide (t ∈ [32, 33, 34, 48]))
  | _ => true

end H265.Spec
