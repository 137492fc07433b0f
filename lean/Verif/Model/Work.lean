/-
A count of the work done by a parse: the calls of functions that read from the `BitBuffer`, and the iterations of the loop in `ReadExponentialGolomb`.
-/
import Verif.Model.Rtp
import Verif.Model.ConfigBox

set_option autoImplicit false

namespace H265

/-- the number of iterations of the loop `while (PeekBits(1, peeked_bit) && peeked_bit == 0)` in `ReadExponentialGolomb`, src/rtc_common.cc:248-251: the value
of `zero_bit_count` behind it -/
def BB.zeroSteps (bb : BB) : Nat :=
  match BB.zeroLoop (bb.remaining + 1) 0 bb with
  | .ok zeros _ => zeros
  | _ => 0

/-- The work of a run of a parser: one step for every call of `ReadBits`, `PeekBits`, `ReadExponentialGolomb`, `ReadSignedExponentialGolomb` (src/rtc_common.cc:112-279)
and one for every iteration of the loop in `ReadExponentialGolomb`.  Not counted: `RemainingBitCount` and `byte_aligned`, which only look at the offsets. -/
def Prog.steps {α : Type} : Prog α → BB → Nat
  | ret _, _ => 0
  | fail, _ => 0
  | bad _, _ => 0
  | read w n k, bb =>
    match bb.readBits w n with
    | .ok v bb' => 1 + steps (k (some v)) bb'
    | .fail bb' => 1 + steps (k none) bb'
    | .bad _ => 1
  | ue k, bb =>
    match bb.readUE with
    | .ok v bb' => 1 + bb.zeroSteps + steps (k (some v)) bb'
    | .fail bb' => 1 + bb.zeroSteps + steps (k none) bb'
    | .bad _ => 1 + bb.zeroSteps
  | se k, bb =>
    match bb.readSE with
    | .ok v bb' => 1 + bb.zeroSteps + steps (k (some v)) bb'
    | .fail bb' => 1 + bb.zeroSteps + steps (k none) bb'
    | .bad _ => 1 + bb.zeroSteps
  | peek n k, bb =>
    match bb.peekBits 32 n with
    | .ok v bb' => 1 + steps (k (some v)) bb'
    | .fail bb' => 1 + steps (k none) bb'
    | .bad _ => 1
  | remaining k, bb => steps (k bb.remaining) bb
  | aligned k, bb => steps (k (bb.bitOff == 0)) bb

/-- `ParseNalUnit(data, length, ...)`, src/h265_nal_unit_parser.cc:35-85 (the `BitBuffer` constructor asserts that the size fits in 32 bits); without `UnescapeRbsp` and `GetNaluChecksum`, which pass over the bytes once -/
def nalUnitSteps (st : ParserState) (data : List UInt8) : Nat :=
  match unescapeRbsp data with
  | .ok bytes => if bytes.length ≤ 2 ^ 32 - 1 then (parseNalUnitParts st).steps (BB.init bytes) else 0
  | .error _ => 0

/-- the loop over the NAL units, src/h265_bitstream_parser.cc:144-161 -/
def unitsSteps (add_checksum : Bool) (data : List UInt8) : List NaluIndex → ParserState → Nat
  | [], _ => 0
  | e :: es, st =>
    match sliceOf data e.payloadStartOffset e.payloadSize with
    | .error _ => 0
    | .ok bytes =>
      nalUnitSteps st bytes +
        match parseUnitAt add_checksum data e.payloadStartOffset e.payloadSize e.payloadSize st with
        | .error _ => 0
        | .ok (_, st1) => unitsSteps add_checksum data es st1

/-- `ParseBitstream(data, length, state, options)`, src/h265_bitstream_parser.cc:127-164; without `FindNaluIndices`, which passes over the bytes once -/
def bitstreamSteps (add_checksum : Bool) (st : ParserState) (data : List UInt8) : Nat :=
  match findNaluIndices data with
  | .error _ => 0
  | .ok es => unitsSteps add_checksum data es st

/-- `ParseRtp(bit_buffer, ...)`, src/h265_rtp_parser.cc:31-74 -/
def rtpStepsBB (st : ParserState) (bb : BB) : Nat :=
  parseNalUnitHeader.steps bb +
    match parseNalUnitHeader.run bb with
    | .ok h b1 =>
      let b0 : BB := { b1 with byteOff := 0, bitOff := 0 }
      if h.nal_unit_type ≤ 47 then (parseRtpSingle st).steps b0
      else if h.nal_unit_type = 48 then (parseRtpAp st).steps b0
      else if h.nal_unit_type = 49 then (parseRtpFu st).steps b0
      else 0
    | _ => 0

/-- `ParseRtp(data, length, ...)`, src/h265_rtp_parser.cc:23-29; the `BitBuffer` constructor asserts that the size fits in 32 bits -/
def rtpSteps (st : ParserState) (data : List UInt8) : Nat :=
  match unescapeRbsp data with
  | .error _ => 0
  | .ok bytes => if bytes.length ≤ 2 ^ 32 - 1 then rtpStepsBB st (BB.init bytes) else 0

/-- the loop of `ParseBitstreamNALULength`, src/h265_bitstream_parser.cc:209-248; without `read_nalu_length`, which reads at most 8 bytes -/
def nalLengthSteps (add_checksum : Bool) (data : List UInt8) (n : Nat) : Nat → Nat → ParserState → Nat
  | 0, _, _ => 0
  | fuel + 1, i, st =>
    if i < data.length then
      if n > 0 then
        match readNaluLength data i n with
        | .error _ => 0
        | .ok none => 0
        | .ok (some len) =>
          if len = 0 ∨ (i + n + len) % 2 ^ 64 > data.length then 0
          else
            match sliceOf data (i + n) len with
            | .error _ => 0
            | .ok bytes =>
              nalUnitSteps st bytes +
                match parseUnitAt add_checksum data (i + n) len n st with
                | .error _ => 0
                | .ok (_, st1) => nalLengthSteps add_checksum data n fuel ((i + n + len) % 2 ^ 64) st1
      else
        match sliceOf data i data.length with
        | .error _ => 0
        | .ok bytes =>
          nalUnitSteps st bytes +
            match parseUnitAt add_checksum data i data.length n st with
            | .error _ => 0
            | .ok (_, st1) => nalLengthSteps add_checksum data n fuel ((i + data.length) % 2 ^ 64) st1
    else 0

/-- `ParseBitstreamNALULength(data, length, nalu_length_bytes, state, options)`, src/h265_bitstream_parser.cc:192-248 -/
def bitstreamNaluLengthSteps (add_checksum : Bool) (n : Nat) (st : ParserState) (data : List UInt8) : Nat := nalLengthSteps add_checksum data n (data.length + 1) 0 st

/-- the loop over the NAL units of an array of a configuration box, src/h265_configuration_box_parser.cc:242-258: reading the bytes and parsing them -/
def hvccUnitsSteps (add_checksum : Bool) : Nat → ParserState → BB → Nat
  | 0, _, _ => 0
  | n + 1, st, bb =>
    parseHvccBytes.steps bb +
      match parseHvccBytes.run bb with
      | .ok data b1 =>
        nalUnitSteps st data +
          match parseNalUnit add_checksum st data with
          | .ok (_, st1) _ => hvccUnitsSteps add_checksum n st1 b1
          | .fail _ => hvccUnitsSteps add_checksum n st b1
          | .bad _ => 0
      | _ => 0

/-- the loop over the arrays, src/h265_configuration_box_parser.cc:208-259 -/
def hvccArraysSteps (add_checksum : Bool) : Nat → ParserState → BB → Nat
  | 0, _, _ => 0
  | n + 1, st, bb =>
    parseHvccArrayHead.steps bb +
      match parseHvccArrayHead.run bb with
      | .ok head b1 =>
        hvccUnitsSteps add_checksum head.numNalus st b1 +
          match (hvccUnits add_checksum head.numNalus st).run b1 with
          | .ok (some _, st1) b2 => hvccArraysSteps add_checksum n st1 b2
          | _ => 0
      | _ => 0

/-- `ParseConfigurationBox(data, length, ...)`, src/h265_configuration_box_parser.cc:24-262; the `BitBuffer` constructor asserts that the size fits in 32 bits -/
def configurationBoxSteps (add_checksum : Bool) (st : ParserState) (data : List UInt8) : Nat :=
  if data.length ≤ 2 ^ 32 - 1 then
    parseHvccHeader.steps (BB.init data) +
      match parseHvccHeader.run (BB.init data) with
      | .ok head b1 => hvccArraysSteps add_checksum head.numOfArrays st b1
      | _ => 0
  else 0

end H265
