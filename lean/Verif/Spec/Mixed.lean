/-
Specification for C78: streams in which NAL units written after the standard, with contents the library supports, stand among others.  Not a model of code.
-/
import Verif.Spec.RtpSend

set_option autoImplicit false

namespace H265.Std
open Spec

/-- a NAL unit of the stream: one that conforms and is supported, or any bytes -/
inductive Item where
  | known (x : StdNal)
  | unknown (bytes : List UInt8)

def Item.bytes : Item → List UInt8
  | .known x => escape x.rbsp
  | .unknown b => b

/-- A sequence of NAL units, of which the known ones are sent with the parameter sets received before them; the others can be anything (slices or SEI messages with
contents the library does not support or that do not conform, reserved types, ...) but parameter sets: they have a header with another type. -/
inductive Mixed : StdParams → List Item → StdParams → Prop
  | nil (d : StdParams) : Mixed d [] d
  | known {d d' : StdParams} {x : StdNal} {l : List Item} : SentNal d x → Mixed (d.after x.unit) l d' → Mixed d (.known x :: l) d'
  | unknown {d d' : StdParams} {b : List UInt8} {h : NalUnitHeader} {l : List Item} : NalBytes b → rawHeader b = some h → h.nal_unit_type ∉ [32, 33, 34] →
      Mixed d l d' → Mixed d (.unknown b :: l) d'

end H265.Std
