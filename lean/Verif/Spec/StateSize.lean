/-
What a parser state has been through, and how much it holds.
-/
import Verif.Spec.Size
import Verif.Model.Nal
import Verif.Model.Rtp

namespace H265.Spec

/-- `Received L T st`: the parser state `st` was created empty and then handed to calls that parse one NAL unit or one RTP packet of at most `L` bytes each, `T` bytes in
total.  Calls with a null result count as well, as they may have changed the state. -/
inductive Received (L : Nat) : Nat → ParserState → Prop
  | new : Received L 0 .empty
  | nalUnit {T : Nat} {st st' : ParserState} {cs : Bool} {data : List UInt8} {n : NalUnit} {b : BB} :
      Received L T st → data.length ≤ L → parseNalUnit cs st data = .ok (n, st') b → Received L (T + data.length) st'
  | packet {T : Nat} {st st' : ParserState} {data : List UInt8} {o : Option Rtp} :
      Received L T st → data.length ≤ L → parseRtp st data = .ok (o, st') → Received L (T + data.length) st'

/-- What a parser state stores: its VPSs and SPSs with ids below 16, and its PPSs with the ids listed; an empty place counts 1. -/
def stateSize (st : ParserState) (ids : List Nat) : Nat :=
  ((List.range 16).map fun i => size (st.vps i)).sum + ((List.range 16).map fun i => size (st.sps i)).sum + (ids.map fun i => size (st.pps i)).sum

/-- nothing is stored outside these places -/
def StoredWithin (st : ParserState) (ids : List Nat) : Prop :=
  ∀ i, (16 ≤ i → st.vps i = none ∧ st.sps i = none) ∧ (st.pps i ≠ none → i ∈ ids)

end H265.Spec
