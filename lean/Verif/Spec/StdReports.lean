/-
What it means that NAL units written after the standard were reported.  Not a model of code.
-/
import Verif.Spec.StdStream
import Verif.Model.Nal

namespace H265.Std
open Spec

set_option autoImplicit false

/-- the payload reported for a NAL unit that was sent: the same contents -/
def ReportsPayload (l : StdNal) (p : NalUnitPayload) : Prop :=
  match l.unit with
  | .vps _ s => ∃ v, p = { vps := some v } ∧ v.body = s
  | .sps _ s => ∃ v, p = { sps := some v } ∧ v.body = s
  | .pps s => ∃ v, p = { pps := some v } ∧ v.body = s
  | .slice hd s _ => p = { slice_segment_layer := some ⟨l.header.nal_unit_type, hd, s⟩ }
  | .aud a => p = { aud := some a }
  | .sei t size q => p = { sei := some ⟨t, size, some q⟩ }
  | .other => p = {}

/-- the NAL unit reported for one that was sent: same header, same contents -/
def Reports (l : StdNal) (n : NalUnit) : Prop := n.nal_unit_header = l.header ∧ ReportsPayload l n.nal_unit_payload

/-- the parser state holds the parameter sets received -/
structure Holds (d : StdParams) (st : ParserState) : Prop where
  vps : ∀ i ptl s, d.vps i = some (ptl, s) → ∃ v, st.vps i = some v ∧ v.body = s
  sps : ∀ i ptl s, d.sps i = some (ptl, s) → ∃ v, st.sps i = some v ∧ v.body = s
  pps : ∀ i s, d.pps i = some s → ∃ v, st.pps i = some v ∧ v.body = s

end H265.Std
