/-
Streams of NAL units written after the syntax tables of the standard: what each NAL unit carries and which parameter sets a slice uses.
-/
import Verif.Spec.StdConf
import Verif.Spec.StdOk
import Verif.Spec.ByteStream
import Verif.Spec.Sei

namespace H265.Std
open Spec

set_option autoImplicit false

/-- what a NAL unit carries -/
inductive StdUnit where
  | vps (ptl : StdPtl) (s : VpsBody)
  | sps (ptl : StdPtl) (s : SpsBody)
  | pps (s : PpsBody)
  | slice (hd : SliceHead) (s : SliceBody) (x : SliceExtra)
  | aud (a : Aud)
  | sei (payload_type payload_size : Nat) (p : SeiPayload)
  | other

/-- the parameter sets received so far, by id -/
structure StdParams where
  vps : Nat → Option (StdPtl × VpsBody)
  sps : Nat → Option (StdPtl × SpsBody)
  pps : Nat → Option PpsBody

def StdParams.none : StdParams := ⟨fun _ => .none, fun _ => .none, fun _ => .none⟩

/-- a parameter set replaces the one received before with its id -/
def StdParams.after (d : StdParams) : StdUnit → StdParams
  | .vps ptl s => { d with vps := fun i => if i = s.vps_video_parameter_set_id then some (ptl, s) else d.vps i }
  | .sps ptl s => { d with sps := fun i => if i = s.sps_seq_parameter_set_id then some (ptl, s) else d.sps i }
  | .pps s => { d with pps := fun i => if i = s.head.pps_pic_parameter_set_id then some s else d.pps i }
  | _ => d

/-- The bits of a NAL unit behind its header, when the parameter sets `d` have been received: the syntax structure that belongs to
nal_unit_type, with values the standard allows and the library supports, and then `tail` (extension data, trailing bits, slice data,
more SEI messages).  The parameter sets used by a slice are the ones its PPS id names. -/
inductive Sent (d : StdParams) (nal_unit_type : Nat) (tail : List Bool) : StdUnit → List Bool → Prop
  | vps (ptl : StdPtl) (s : VpsBody) : nal_unit_type = 32 → ConformsVpsBody ptl s → SupportedPtl ptl → s.hrds = [] →
      Sent d nal_unit_type tail (.vps ptl s) (Std.vps ptl s ++ tail)
  | sps (ptl : StdPtl) (s : SpsBody) : nal_unit_type = 33 → ConformsSpsBody ptl s → SupportedSps ptl s →
      Sent d nal_unit_type tail (.sps ptl s) (Std.sps ptl s ++ tail)
  | pps (s : PpsBody) : nal_unit_type = 34 → ConformsPpsBody s → SupportedPps s → Sent d nal_unit_type tail (.pps s) (Std.pps s ++ tail)
  | slice (hd : SliceHead) (s : SliceBody) (x : SliceExtra) (P : PpsBody) (ptl : StdPtl) (S : SpsBody) :
      nal_unit_type ≤ 9 ∨ (16 ≤ nal_unit_type ∧ nal_unit_type ≤ 21) →
      d.pps hd.slice_pic_parameter_set_id = some P → d.sps P.head.pps_seq_parameter_set_id = some (ptl, S) →
      ConformsSliceHead nal_unit_type hd → ConformsSliceBody nal_unit_type P S hd.first_slice_segment_in_pic_flag s →
      SupportedSlice nal_unit_type P S s →
      Sent d nal_unit_type tail (.slice hd s x) (Std.sliceSegmentHeader nal_unit_type P S hd s x ++ tail)
  | aud (a : Aud) : nal_unit_type = 35 → a.pic_type ≤ 7 → Sent d nal_unit_type tail (.aud a) (Spec.aud a ++ tail)
  | sei (t size : Nat) (p : SeiPayload) : nal_unit_type = 39 ∨ nal_unit_type = 40 → t < 2 ^ 32 → size < 2 ^ 32 → ValidSeiPayload t size p →
      Sent d nal_unit_type tail (.sei t size p) (ffCoded t ++ ffCoded size ++ seiPayload p ++ tail)
  | other : 9 < nal_unit_type → ¬ (16 ≤ nal_unit_type ∧ nal_unit_type ≤ 21) → ¬ (32 ≤ nal_unit_type ∧ nal_unit_type ≤ 35) →
      nal_unit_type ≠ 39 → nal_unit_type ≠ 40 → Sent d nal_unit_type tail .other tail

/-- a NAL unit: header, contents, what follows them, and the bytes (without emulation prevention) -/
structure StdNal where
  header : NalUnitHeader
  unit : StdUnit
  tail : List Bool
  rbsp : List UInt8

/-- the bytes of a NAL unit are its header and contents; the last byte of the NAL unit is not 0 (clause 7.4.1.1) -/
structure SentNal (d : StdParams) (n : StdNal) : Prop where
  header : ValidNalUnitHeader n.header
  contents : ∃ w, Sent d n.header.nal_unit_type n.tail n.unit w ∧ bitsOf n.rbsp = Spec.nalUnitHeader n.header ++ w
  last : (escape n.rbsp).getLast? ≠ some 0

/-- a sequence of NAL units, each sent with the parameter sets received before it -/
inductive SentAll : StdParams → List StdNal → StdParams → Prop
  | nil (d : StdParams) : SentAll d [] d
  | cons {d d' : StdParams} {n : StdNal} {ns : List StdNal} : SentNal d n → SentAll (d.after n.unit) ns d' → SentAll d (n :: ns) d'

end H265.Std
