/-
Specification for C92: a sender that sends any NAL units as RTP payloads (RFC 7798 without DONL fields), each in a packet of its own or in fragments, cut wherever it
likes.  Not a model of code of the library.
-/
import Verif.Spec.RtpSend
import Verif.Spec.Sharing

set_option autoImplicit false

namespace H265

/-- first byte of the payload header of a fragmentation unit: that of the NAL unit, with type 49 -/
def fuByte0 (b0 : UInt8) : UInt8 := UInt8.ofNat (b0.toNat / 128 * 128 + 49 * 2 + b0.toNat % 2)

/-- FU header: S bit, E bit, type of the NAL unit -/
def fuByte2 (s e : Nat) (b0 : UInt8) : UInt8 := UInt8.ofNat (s * 128 + e * 64 + b0.toNat / 2 % 64)

/-- the fragments behind the first one; the E bit marks the last -/
def laterFragments (b0 b1 : UInt8) : List (List UInt8) → List (List UInt8)
  | [] => []
  | [d] => [fuByte0 b0 :: b1 :: fuByte2 0 1 b0 :: d]
  | d :: ds => (fuByte0 b0 :: b1 :: fuByte2 0 0 b0 :: d) :: laterFragments b0 b1 ds

/-- How a NAL unit is sent: in a packet of its own, or the bytes behind its two header bytes in fragments: `first`, then each of `more`. -/
inductive Sending where
  | whole (nal : List UInt8)
  | fragments (b0 b1 : UInt8) (first : List UInt8) (more : List (List UInt8))

namespace Sending

/-- the NAL unit that is sent -/
def nal : Sending → List UInt8
  | whole x => x
  | fragments b0 b1 first more => b0 :: b1 :: (first ++ more.flatten)

/-- its packets -/
def packets : Sending → List (List UInt8)
  | whole x => [x]
  | fragments b0 b1 first more => (fuByte0 b0 :: b1 :: fuByte2 1 0 b0 :: first) :: laterFragments b0 b1 more

/-- what is left of it when it is cut off behind the first fragment -/
def start : Sending → List UInt8
  | whole x => x
  | fragments b0 b1 first _ => b0 :: b1 :: first

/-- A NAL unit of a type that RFC 7798 leaves to the video (0 to 47).  One that is sent in fragments has at least one behind the first, and a second byte that is not
zero (nuh_temporal_id_plus1 is never 0). -/
def Ok : Sending → Prop
  | whole x => ∀ b0 r, x = b0 :: r → b0.toNat / 2 % 64 ≤ 47
  | fragments b0 b1 _ more => b0.toNat / 2 % 64 ≤ 47 ∧ b1 ≠ 0 ∧ more ≠ []

def isFragmented : Sending → Bool
  | whole _ => false
  | fragments .. => true

end Sending

/-- header and payload of a NAL unit -/
def contentsOf (n : NalUnit) : NalUnitHeader × NalUnitPayload := (n.nal_unit_header, n.nal_unit_payload)

/-- header and payload of the NAL units reported for packets, null results left out -/
def reportedIn (x : List (Option Rtp) × ParserState) : List (NalUnitHeader × NalUnitPayload) × ParserState :=
  ((x.1.filterMap id).flatMap Std.rtpUnits, x.2)

/-- header and payload of the NAL units reported, null results left out -/
def contentsIn (x : List (Option NalUnit) × ParserState) : List (NalUnitHeader × NalUnitPayload) × ParserState :=
  ((x.1.filterMap id).map contentsOf, x.2)

end H265
