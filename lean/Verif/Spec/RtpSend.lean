/-
Specification for C77: a conforming sequence of NAL units sent over RTP (RFC 7798, packetization without DONL fields).  Not a model of code.
-/
import Verif.Spec.StdStream
import Verif.Spec.Loss

set_option autoImplicit false

namespace H265.Std
open Spec

/-- The header and the payload of the NAL units reported for an RTP packet, in order.  For the first fragment of a NAL unit the header is the one of the packet with
the type in the FU header; the other fragments report no NAL unit. -/
def rtpUnits (r : Rtp) : List (NalUnitHeader × NalUnitPayload) :=
  (match r.rtp_single with | some x => [(x.nal_unit_header, x.nal_unit_payload)] | none => []) ++
  (match r.rtp_ap with | some x => x.units.map fun u => (u.nal_unit_header, u.nal_unit_payload) | none => []) ++
  (match r.rtp_fu with
    | some x => match x.nal_unit_payload with | some p => [({ x.header with nal_unit_type := x.fu_type }, p)] | none => []
    | none => [])

/-- RFC 7798, section 4.4.3: a fragmentation unit with the bytes `data` of a NAL unit with header `h`: the header with type 49, S bit, E bit, the type of the
NAL unit, and the bytes -/
def FuPacket (h : NalUnitHeader) (s e : Nat) (data packet : List UInt8) : Prop :=
  ∃ head, packet = head ++ data ∧ bitsOf head = Spec.nalUnitHeader { h with nal_unit_type := 49 } ++ (u 1 s ++ (u 1 e ++ u 6 h.nal_unit_type))

/-- the second and later fragments: the E bit marks the last one -/
inductive FuRest (h : NalUnitHeader) : List (List UInt8) → List (List UInt8) → Prop
  | last {data packet : List UInt8} : FuPacket h 0 1 data packet → FuRest h [data] [packet]
  | more {data packet : List UInt8} {datas packets : List (List UInt8)} : FuPacket h 0 0 data packet → FuRest h datas packets →
      FuRest h (data :: datas) (packet :: packets)

/-- The bytes of the first fragment, with the NAL unit header in front, hold the whole syntax structure of the NAL unit `x` (its slice segment header, parameter set,
first SEI message, ...): they begin with the bytes of some `part` that has it, followed by no matter what. -/
def StartHolds (d : StdParams) (x : StdNal) (start : List UInt8) : Prop :=
  ∃ part tail w, escape part <+: start ∧ Sent d x.header.nal_unit_type tail x.unit w ∧ bitsOf part = Spec.nalUnitHeader x.header ++ w

/-- a NAL unit that ends with its syntax structure: parameter set without extension data or access unit delimiter, with the trailing bits, or a NAL unit that is a
header only (such as end of sequence) -/
def Closed (x : StdNal) : Prop :=
  match x.unit with
  | .vps _ s => s.vps_extension_flag = 0 ∧ ∃ k, k ≤ 7 ∧ x.tail = true :: List.replicate k false
  | .sps _ s => s.sps_extension_4bits = 0 ∧ ∃ k, k ≤ 7 ∧ x.tail = true :: List.replicate k false
  | .pps s => s.head.pps_extension_4bits = 0 ∧ ∃ k, k ≤ 7 ∧ x.tail = true :: List.replicate k false
  | .aud _ => ∃ k, k ≤ 7 ∧ x.tail = true :: List.replicate k false
  | .other => x.tail = []
  | _ => False

/-- Each NAL unit of an aggregation packet has no more emulation prevention bytes than there are bytes (without emulation prevention) behind it in the packet:
2 for the size of each later NAL unit, and the NAL unit. -/
def Fits : List StdNal → Prop
  | [] => True
  | x :: xs => (escape x.rbsp).length - x.rbsp.length ≤ (xs.map fun y => 2 + y.rbsp.length).sum ∧ Fits xs

/-- RFC 7798, section 4.4.2: an aggregation packet: a header with type 48, and each NAL unit with its size in front -/
def ApPacket (h : NalUnitHeader) (xs : List StdNal) (packet : List UInt8) : Prop :=
  ∃ head, packet = head ++ lengthPrefixed 2 (xs.map fun x => escape x.rbsp) ∧ bitsOf head = Spec.nalUnitHeader h ∧ h.nal_unit_type = 48 ∧
    ValidNalUnitHeader h ∧ h.nuh_temporal_id_plus1 ≠ 0 ∧ ∀ x ∈ xs, (escape x.rbsp).length < 2 ^ 16

/-- The packets of a conforming sequence of NAL units: each NAL unit in a packet of its own, in two or more fragments, or together with others. -/
inductive SentRtp : StdParams → List StdNal → List (List UInt8) → StdParams → Prop
  | nil (d : StdParams) : SentRtp d [] [] d
  | single {d d' : StdParams} {x : StdNal} {xs : List StdNal} {ps : List (List UInt8)} :
      SentNal d x → x.header.nal_unit_type ≤ 47 → SentRtp (d.after x.unit) xs ps d' → SentRtp d (x :: xs) (escape x.rbsp :: ps) d'
  | fragments {d d' : StdParams} {x : StdNal} {xs : List StdNal} {head first p : List UInt8} {datas qs ps : List (List UInt8)} :
      SentNal d x → x.header.nuh_temporal_id_plus1 ≠ 0 → escape x.rbsp = head ++ (first ++ datas.flatten) → head.length = 2 → StartHolds d x (head ++ first) →
      FuPacket x.header 1 0 first p → FuRest x.header datas qs → SentRtp (d.after x.unit) xs ps d' → SentRtp d (x :: xs) (p :: (qs ++ ps)) d'
  | aggregate {d d1 d' : StdParams} {h : NalUnitHeader} {as xs : List StdNal} {p : List UInt8} {ps : List (List UInt8)} :
      SentAll d as d1 → as ≠ [] → (∀ x ∈ as, Closed x) → Fits as → ApPacket h as p → SentRtp d1 xs ps d' → SentRtp d (as ++ xs) (p :: ps) d'

end H265.Std
