/-
Model of src/h265_nal_unit_payload_parser.cc, src/h265_nal_unit_parser.cc,
src/h265_bitstream_parser_state.cc and the parsing functions of src/h265_bitstream_parser.cc.
-/
import Verif.Model.NaluIndex
import Verif.Model.Headers
import Verif.Model.Vps
import Verif.Model.Slice
import Verif.Model.Sei

namespace H265
open Prog

/-- `H265BitstreamParserState`, include/h265_bitstream_parser_state.h:20-45.  A `std::map` is modelled as a partial function;
`GetVps`, `GetSps`, `GetPps` (src/h265_bitstream_parser_state.cc:32-63) are the application of that function (null = `none`). -/
structure ParserState where
  vps : Nat → Option Vps
  sps : Nat → Option Sps
  pps : Nat → Option Pps

/-- The default-constructed state, include/h265_bitstream_parser_state.h:21 -/
def ParserState.empty : ParserState := ⟨fun _ => none, fun _ => none, fun _ => none⟩

/-- `map[id] = ptr;`, e.g. src/h265_nal_unit_payload_parser.cc:104 -/
def mapSet {α : Type} (m : Nat → Option α) (id : Nat) (a : α) : Nat → Option α :=
  fun i => if i = id then some a else m i

/-- `NalUnitPayloadState`, include/h265_nal_unit_payload_parser.h:27-48 -/
structure NalUnitPayload where
  vps : Option Vps := none
  sps : Option Sps := none
  pps : Option Pps := none
  aud : Option Aud := none
  slice_segment_layer : Option SliceSegmentHeader := none
  sei : Option SeiMessage := none
  deriving DecidableEq

/-- `if (nal_unit_payload->vps != nullptr) vps[vps_id] = nal_unit_payload->vps;`, src/h265_nal_unit_payload_parser.cc:99-107 -/
def vpsOut (st : ParserState) : Option Vps → NalUnitPayload × ParserState
  | some x => ({ vps := some x }, { st with vps := mapSet st.vps x.body.vps_video_parameter_set_id x })
  | none => ({}, st)

/-- `if (nal_unit_payload->sps != nullptr) sps[sps_id] = nal_unit_payload->sps;`, src/h265_nal_unit_payload_parser.cc:108-116 -/
def spsOut (st : ParserState) : Option Sps → NalUnitPayload × ParserState
  | some x => ({ sps := some x }, { st with sps := mapSet st.sps x.body.sps_seq_parameter_set_id x })
  | none => ({}, st)

/-- `if (nal_unit_payload->pps != nullptr) pps[pps_id] = nal_unit_payload->pps;`, src/h265_nal_unit_payload_parser.cc:117-125 -/
def ppsOut (st : ParserState) : Option Pps → NalUnitPayload × ParserState
  | some x => ({ pps := some x }, { st with pps := mapSet st.pps x.body.head.pps_pic_parameter_set_id x })
  | none => ({}, st)

/-- `ParseNalUnitPayload`, src/h265_nal_unit_payload_parser.cc:38-161; a failed sub-parser leaves a null pointer, and the function itself
never returns null.  The parser state is passed and returned explicitly. -/
def parseNalUnitPayload (nal_unit_type : Nat) (st : ParserState) : Prog (NalUnitPayload × ParserState) :=
  if nal_unit_type ≤ 9 ∨ (16 ≤ nal_unit_type ∧ nal_unit_type ≤ 21) then
    (parseSliceSegmentLayer nal_unit_type st.pps st.sps).attempt.bind fun s => ret ({ slice_segment_layer := s }, st)
  else if nal_unit_type = 32 then parseVps.attempt.bind fun v => ret (vpsOut st v)
  else if nal_unit_type = 33 then parseSps.attempt.bind fun v => ret (spsOut st v)
  else if nal_unit_type = 34 then parsePps.attempt.bind fun v => ret (ppsOut st v)
  else if nal_unit_type = 35 then parseAud.attempt.bind fun a => ret ({ aud := a }, st)
  else if nal_unit_type = 39 ∨ nal_unit_type = 40 then parseSei.attempt.bind fun s => ret ({ sei := s }, st)
  else ret ({}, st)

/-- `NalUnitState`, include/h265_nal_unit_parser.h:24-54; `make_unique` value-initialises `offset` and `length` to 0 -/
structure NalUnit where
  offset : Nat := 0
  length : Nat := 0
  parsed_length : Nat
  checksum : Option (List UInt8)
  nal_unit_header : NalUnitHeader
  nal_unit_payload : NalUnitPayload
  deriving DecidableEq

/-- `if (parsing_options.add_checksum) nal_unit->checksum = GetNaluChecksum(bit_buffer);`, src/h265_nal_unit_parser.cc:57-60 -/
def BB.checksumIf (add_checksum : Bool) (bb : BB) : Res (Option (List UInt8)) :=
  if add_checksum then
    match bb.getNaluChecksum with
    | .ok c bb' => .ok (some c) bb'
    | .fail bb' => .fail bb'
    | .bad k => .bad k
  else .ok none bb

/-- Header and payload, src/h265_nal_unit_parser.cc:63-79 -/
def parseNalUnitParts (st : ParserState) : Prog (NalUnitHeader × NalUnitPayload × ParserState) := do
  let h ← parseNalUnitHeader
  let p ← parseNalUnitPayload h.nal_unit_type st
  return (h, p)

/-- `ParseNalUnit(bit_buffer, ...)`, src/h265_nal_unit_parser.cc:46-85.  Returning null (`fail`) leaves the parser state as it was: the state is
only written by the payload parser, which does not fail. -/
def parseNalUnitBB (add_checksum : Bool) (st : ParserState) (bb : BB) : Res (NalUnit × ParserState) :=
  match bb.checksumIf add_checksum with
  | .bad k => .bad k
  | .fail b => .fail b
  | .ok checksum b =>
    match (parseNalUnitParts st).run b with
    | .ok (h, p, st') b' => .ok ({ parsed_length := getCurrentOffset b', checksum, nal_unit_header := h, nal_unit_payload := p }, st') b'
    | .fail b' => .fail b'
    | .bad k => .bad k

/-- `ParseNalUnitUnescaped`, src/h265_nal_unit_parser.cc:24-33; the `BitBuffer` constructor asserts that the size fits in 32 bits -/
def parseNalUnitUnescaped (add_checksum : Bool) (st : ParserState) (bytes : List UInt8) : Res (NalUnit × ParserState) :=
  if bytes.length ≤ 2 ^ 32 - 1 then parseNalUnitBB add_checksum st (BB.init bytes) else .bad .assertion

/-- `ParseNalUnit(data, length, ...)`, src/h265_nal_unit_parser.cc:35-44 -/
def parseNalUnit (add_checksum : Bool) (st : ParserState) (data : List UInt8) : Res (NalUnit × ParserState) :=
  match unescapeRbsp data with
  | .ok bytes => parseNalUnitUnescaped add_checksum st bytes
  | .error k => .bad k

/-- the bytes `data[off .. off + len)` handed to a parser: all of them are read (src/h265_bitstream_parser.cc:146-148, 228-229) -/
def sliceOf (data : List UInt8) (off len : Nat) : Except Bad (List UInt8) :=
  if off + len ≤ data.length then .ok ((data.drop off).take len) else .error .oob

/-- One iteration: parse the NAL unit at `[off, off + len)`; the unit is stored with the given offset and length, a null result is skipped.
src/h265_bitstream_parser.cc:146-160 and 228-246 -/
def parseUnitAt (add_checksum : Bool) (data : List UInt8) (off len storedLen : Nat) (st : ParserState) : Except Bad (Option NalUnit × ParserState) :=
  match sliceOf data off len with
  | .error k => .error k
  | .ok bytes =>
    match parseNalUnit add_checksum st bytes with
    | .ok (n, st') _ => .ok (some { n with offset := off, length := storedLen }, st')
    | .fail _ => .ok (none, st)
    | .bad k => .error k

/-- The loop over the NAL units, src/h265_bitstream_parser.cc:144-161 -/
def parseUnits (add_checksum : Bool) (data : List UInt8) : List NaluIndex → ParserState → Except Bad (List NalUnit × ParserState)
  | [], st => .ok ([], st)
  | e :: es, st =>
    match parseUnitAt add_checksum data e.payloadStartOffset e.payloadSize e.payloadSize st with
    | .error k => .error k
    | .ok (n, st1) =>
      match parseUnits add_checksum data es st1 with
      | .error k => .error k
      | .ok (ns, st2) => .ok (n.toList ++ ns, st2)

/-- `ParseBitstream(data, length, state, options)`, src/h265_bitstream_parser.cc:127-164 -/
def parseBitstream (add_checksum : Bool) (st : ParserState) (data : List UInt8) : Except Bad (List NalUnit × ParserState) :=
  match findNaluIndices data with
  | .error k => .error k
  | .ok es => parseUnits add_checksum data es st

/-- `ParseBitstream(data, length, options)` with a fresh state, src/h265_bitstream_parser.cc:166-184 -/
def parseBitstreamFresh (add_checksum : Bool) (data : List UInt8) : Except Bad (List NalUnit) :=
  match parseBitstream add_checksum .empty data with
  | .error k => .error k
  | .ok (ns, _) => .ok ns

/-- `read_nalu_length`, src/h265_bitstream_parser.cc:31-41, on the bytes from `i` on: `size_t` arithmetic; `none` = returns false -/
def readNaluLength (data : List UInt8) (i n : Nat) : Except Bad (Option Nat) :=
  if n > data.length - i then .ok none
  else
    match sliceOf data i n with
    | .error k => .error k
    | .ok bs => .ok (some (bs.foldl (fun acc b => (acc * 256 % 2 ^ 64 + b.toNat) % 2 ^ 64) 0))

/-- The loop of `ParseBitstreamNALULength`, src/h265_bitstream_parser.cc:209-248; the sum `i + nalu_length` is computed in `size_t`,
and the stored length is `nalu_length_bytes`. -/
def nalLengthLoop (add_checksum : Bool) (data : List UInt8) (n : Nat) : Nat → Nat → ParserState → Except Bad (List NalUnit × ParserState)
  | 0, _, _ => .error .hang
  | fuel + 1, i, st =>
    if i < data.length then
      if n > 0 then
        match readNaluLength data i n with
        | .error k => .error k
        | .ok none => .ok ([], st)
        | .ok (some len) =>
          if len = 0 ∨ (i + n + len) % 2 ^ 64 > data.length then .ok ([], st)
          else
            match parseUnitAt add_checksum data (i + n) len n st with
            | .error k => .error k
            | .ok (u, st1) =>
              match nalLengthLoop add_checksum data n fuel ((i + n + len) % 2 ^ 64) st1 with
              | .error k => .error k
              | .ok (us, st2) => .ok (u.toList ++ us, st2)
      else
        match parseUnitAt add_checksum data i data.length n st with
        | .error k => .error k
        | .ok (u, st1) =>
          match nalLengthLoop add_checksum data n fuel ((i + data.length) % 2 ^ 64) st1 with
          | .error k => .error k
          | .ok (us, st2) => .ok (u.toList ++ us, st2)
    else .ok ([], st)

/-- `ParseBitstreamNALULength(data, length, nalu_length_bytes, state, options)`, src/h265_bitstream_parser.cc:192-248; each iteration
advances, so that `length + 1` iterations are enough -/
def parseBitstreamNaluLength (add_checksum : Bool) (n : Nat) (st : ParserState) (data : List UInt8) : Except Bad (List NalUnit × ParserState) :=
  nalLengthLoop add_checksum data n (data.length + 1) 0 st

/-- `ParseBitstreamNALULength(data, length, nalu_length_bytes, options)` with a fresh state, src/h265_bitstream_parser.cc:250-272 -/
def parseBitstreamNaluLengthFresh (add_checksum : Bool) (n : Nat) (data : List UInt8) : Except Bad (List NalUnit) :=
  match parseBitstreamNaluLength add_checksum n .empty data with
  | .error k => .error k
  | .ok (ns, _) => .ok ns

end H265
