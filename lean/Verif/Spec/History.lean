/-
Vocabulary for properties of whole streams and of histories of a parser state.
-/
import Verif.Model.Nal

set_option autoImplicit false

namespace H265.Spec

/-- a NAL unit without its place in the stream: header, payload, checksum and parsed length -/
def contents (n : NalUnit) : NalUnit := { n with offset := 0, length := 0 }

/-- the NAL unit header in the first two bytes of a NAL unit (clause 7.3.1.2); a NAL unit with less than two bytes has none -/
def rawHeader : List UInt8 → Option NalUnitHeader
  | b0 :: b1 :: _ => some ⟨b0.toNat / 128, b0.toNat / 2 % 64, b0.toNat % 2 * 32 + b1.toNat / 8, b1.toNat % 8⟩
  | _ => none

/-- the decision to keep a NAL unit, made by its header -/
def kept (keep : NalUnitHeader → Bool) (nal : List UInt8) : Bool :=
  match rawHeader nal with
  | some h => keep h
  | none => true

/-- state `b` holds every SPS and PPS that state `a` holds -/
structure Knows (a b : ParserState) : Prop where
  sps : ∀ i S, a.sps i = some S → b.sps i = some S
  pps : ∀ i P, a.pps i = some P → b.pps i = some P

/-- state `b` with the parameter sets of `a` written over it -/
def overlay (a b : ParserState) : ParserState := ⟨fun i => (a.vps i).or (b.vps i), fun i => (a.sps i).or (b.sps i), fun i => (a.pps i).or (b.pps i)⟩

/-- every slice NAL unit of a result has its slice header -/
def AllHeaders (ns : List NalUnit) : Prop :=
  ∀ n ∈ ns, isSliceSegment n.nal_unit_header.nal_unit_type = true → n.nal_unit_payload.slice_segment_layer ≠ none

/-- the parameter sets in a payload are the ones the state holds for their ids -/
structure Current (st : ParserState) (p : NalUnitPayload) : Prop where
  vps : ∀ x, p.vps = some x → st.vps x.body.vps_video_parameter_set_id = some x
  sps : ∀ x, p.sps = some x → st.sps x.body.sps_seq_parameter_set_id = some x
  pps : ∀ x, p.pps = some x → st.pps x.body.head.pps_pic_parameter_set_id = some x

example : rawHeader [0x42, 0x01, 0xff] = some ⟨0, 33, 0, 1⟩ := by decide
example : kept (fun h => h.nal_unit_type == 33) [0x42, 0x01, 0xff] = true ∧ kept (fun h => h.nal_unit_type == 33) [0x40, 0x01] = false := by decide

end H265.Spec
