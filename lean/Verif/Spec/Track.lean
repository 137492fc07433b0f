/-
Specification for C80: a track as in an MP4 file, given to the library sample by sample.  Not a model of code: this is what a caller does.
-/
import Verif.Spec.StdReports

set_option autoImplicit false

namespace H265.Std
open Spec

/-- the bytes of a sample: its NAL units, each behind a length field of `k` bytes (ISO/IEC 14496-15 clause 8.3.3) -/
def sampleBytes (k : Nat) (sample : List StdNal) : List UInt8 := lengthPrefixed k (sample.map fun x => escape x.rbsp)

/-- A caller that gives each sample to ParseBitstreamNALULength, with one parser state: the NAL units of each sample, and the parser state at the end. -/
def parseSamples (cs : Bool) (k : Nat) : List (List UInt8) → ParserState → Except Bad (List (List NalUnit) × ParserState)
  | [], st => .ok ([], st)
  | s :: ss, st =>
    match parseBitstreamNaluLength cs k st s with
    | .error e => .error e
    | .ok (ns, st1) =>
      match parseSamples cs k ss st1 with
      | .error e => .error e
      | .ok (nss, st2) => .ok (ns :: nss, st2)

/-- the samples were reported: as many NAL units as sent for each, in order, each with the header and contents that were sent -/
inductive SamplesReported : List (List StdNal) → List (List NalUnit) → Prop
  | nil : SamplesReported [] []
  | cons {s : List StdNal} {ns : List NalUnit} {ss : List (List StdNal)} {nss : List (List NalUnit)} :
    ns.length = s.length → (∀ x ∈ s.zip ns, Reports x.1 x.2) → SamplesReported ss nss → SamplesReported (s :: ss) (ns :: nss)

end H265.Std
