# Formal model of h265nal in Lean 4 — design

## 1. Shape of the model (`lean/Verif/Model`)

* **Bytes** are `List UInt8`. The bit string of a buffer is `Spec.bitsOf`: most significant bit first.
* **Bit reader / writer** (`Model/BitBuffer.lean`, `Model/BitWriter.lean`) follow `src/rtc_common.cc` statement by
  statement: `byte_offset_`, `bit_offset_`, masks, shifts, the byte loops of `PeekBits` and `WriteBits`.
* **Outcome** of a reader or parser call (`Res`): `ok a bb` (value + reader afterwards), `fail bb` (the C++ function returned
  `false`/`nullptr`; the reader position is kept because callers such as the RTP aggregation parser go on reading),
  `bad k` (undefined behaviour or abort). The kinds `k`: `oob` (access outside the buffer or a vector),
  `assertion` (a failing `RTC_DCHECK`/`assert`), `signedOverflow`, `shift` (shift amount out of range), `nullDeref`,
  `hang` (fuel of a `while` loop exhausted), `floatCast` (float to integer conversion out of range). So "no crash" is a
  theorem about the model, not a convention of it.
* **Parsers** are programs `Prog α` (`Model/Prog.lean`): trees of reader calls, each continued with what the code does with
  the returned bool and value. `Prog.run` executes a program on the statement-level reader. One Lean definition per C++
  parse function, same order of reads, same range checks, one structure field per C++ member. Unsigned arithmetic is `Nat`
  with the explicit wrap-around of the C++ type; signed arithmetic that may overflow goes through `Prog.int32`.
* **Loops**: `for` loops are structural recursion on the trip count; `while` loops recurse on fuel, and running out of fuel
  is `bad hang`; the safety theorems prove that this never happens, so termination is proved and not assumed.
* **Parser state** (`H265BitstreamParserState`): three partial maps from ids.
* **fdump** (`Model/Dump*.lean`): a document per structure, rendered for an indentation level to a list of characters;
  dereferencing a null member is `bad nullDeref`.
* **The tool** `h265nal` (`Model/Tool.lean`): options, effective parsing options, both dump modes, `main`.
* **Entry points and fuzz targets** (`Model/EntryPoints.lean`, `Model/Fuzz.lean`): the `(data, length)` overload of every
  parser (unescape, construct the reader, call the parser) and the 27 functions `LLVMFuzzerTestOneInput`.
* **Checksum text** (`Model/Printable.lean`): `NaluChecksum::fdump` and `GetPrintableChecksum` on character arrays with
  uninitialised characters.
* **Frame rate** (`Model/Framerate.lean`): single precision conversion and division, as exact integer arithmetic.
* **Unit tests** (`Verif/Tests`): all 65 tests of `/repo/test` (1276 expectations) with their bytes and expected values, run on the model by
  the kernel; the model meets every one. Left out: the three assertions on the number of entries of the parser state's maps
  (h265_slice_parser_unittest.cc; maps are functions in the model). These are checks of the model; no property is counted as proved by them.

## 2. Specification (independent of the model, `lean/Verif/Spec`)

* `Bits`, `NonSymmetric`: bit strings, the descriptors u(n), ue(v), se(v) of clause 9.2, encoders of
  optional and repeated elements.
* `ByteStream`: emulation prevention, start codes, length framing, one's complement sum.
* `Headers`, `Sps`, `Vps`, `Pps`, `Vui`, `Hrd`, `Rps`, `Scaling`, `Pwt`, `Slice`, `Sei`, `SpsExt`, `Hvcc`: per
  structure the *syntax the library implements*: `write x` (bits of the structure) and `Valid x` (range of every element).
  The value structures (plain records) are shared with the model, nothing else is.
* `Std`, `StdConf`, `StdOk`, `StdStream`: the syntax tables and value ranges of the *standard* (clauses 7.3, 7.4, E.2),
  transcribed without looking at the library's deviations, and the subset the library supports.
* `DumpTables`, `DumpNalText`, `DumpText`, `Dump`: which name/value pairs the text form consists of; `Tool`: the tables of the tool.
* `Size`: the number of values stored in an object.

Property theorems relate parsers and specification:
* **completeness**: parsing `write x ++ rest` for valid `x` yields `x` and leaves `rest`;
* **soundness**: a successful parse consumed exactly `write x` of the returned `x`, which is valid;
* **safety**: no `bad` outcome except those listed.

## 3. Proof technique

`Prog.denote` (`Proof/Denote.lean`) is the meaning of a program on bit lists; `Prog.run_agrees` proves that running a
program on the statement-level reader refines it. `Codec` (`Proof/Codec.lean`) packages completeness, soundness and safety of
a program against a writer and a validity predicate; it is closed under sequencing, options and repetition, so each
parser is proved by composition, with separate inductions where the code is not of this shape (inter-RPS derivation, long-term
loop, more_rbsp_data, attempt-and-continue calls). Scanners are proved with loop invariants, streams by induction over
the list of units with the parser state threaded (`Steps`, `Reach`).

## 4. Trusted base

* Lean 4.33.0's kernel. No `native_decide`/`bv_decide`, no own axioms. `decide +kernel` is used for closed goals (kernel evaluation).
* Axioms of the theorems listed in MANIFEST.json: a subset of `propext`, `Quot.sound`, `Classical.choice` (checked with
  `#print axioms` for each; listed in section 7). Mathlib is not imported.
* That the model says what the C++ code does. Each definition cites the lines it models. The model was validated by
  reading, by the unit test vectors (`Verif/Tests`) and by the seeded wrong programs of `seeded/LOG.jsonl`.
* The transcription of the tables of the standard in `Spec/Std*.lean` (made from the syntax tables, no copy of the standard was available
  in the sandbox).
* Integer widths as on the platforms the project targets: `size_t` 64 bits, `int` 32 bits.

### Not modelled

* Allocation failure and memory limits (the SEI parsers allocate `payload_size` bytes before reading them: bounded by C40_sei_alloc).
* Object lifetime of `unique_ptr`/`shared_ptr`; a null pointer is `none`. Threads: the library has none.
* `static_cast<size_t>(ceil(log2((float)x)))` for x > 2^20 is `opaque floatCeilLog2`: theorems hold for whatever it returns.
  Up to 2^20 the exact ceiling is used, assuming `log2f` has an error below one ulp and is exact at powers of two (C87 proves that this is enough).
* `%.5f`/`%.4f` of `v * 0.00002`/`v * 0.0001` in the dump of mastering display SEI and `ceil(1.0 * a / b)` of the SPS: the rest of the model has the
  exact results; C87 proves that the double precision computations (`Model/Double.lean`) give them. Trusted: binary64 arithmetic rounds to nearest
  and `printf` rounds correctly.
* Messages of the tool to stderr, among them the usage text; failing writes to the output; `SMALL_FOOTPRINT`.
* External functions used by the tool, modelled after their documentation and trusted: `getopt_long` (glibc, POSIXLY_CORRECT not set), `strtol`, `fopen`/`fseek`/`ftell`/`fread`
  on regular files that do not change while the program runs (a file is its list of bytes), `std::cin.read`.
* Logging macros (`FPRINT_ERRORS`), build system, test code.

## 5. Plan per property

| id | modelled | proof |
|----|----------|-------|
| C01-C04 | `BitBuffer` statement by statement | refinement of the bit-list spec; induction over operation sequences (C03) |
| C05-C06 | Exp-Golomb readers | induction on the zero run; case analysis; exact behaviour of se(v) at and above 2^30 |
| C07-C09, C47 | `BitBufferWriter`, non-symmetric codes | bit-level frame lemma for `WriteBits`; composition with the reader lemmas; induction over call sequences |
| C10-C11 | `UnescapeRbsp` | list induction with generalised state |
| C12-C14 | `FindNaluIndices*` | loop invariant over the scan index |
| C15 | `ParseBitstreamNALULength` | loop invariant, wrap-around witness |
| C16 | `GetNaluChecksum` | induction on words, arithmetic of folding |
| C17-C18 | `more_rbsp_data`, `rbsp_trailing_bits` | reader refinement |
| C19-C20 | header parser, type predicates | codec; case analysis over 64 values + bound |
| C21-C25 | payload dispatch, state maps, bitstream loop | induction over NAL unit lists |
| C26-C36 | SPS, VPS, PPS, VUI, HRD, PTL, RPS, scaling lists, weights, slice header | codecs: completeness, soundness, safety |
| C37-C39 | RTP parsers | case analysis, loop invariant for AP |
| C40 | SEI framing and payloads | induction over ff runs, codecs |
| C41 | `H265Utils::GetSliceQpY` | unfolding over the list of units |
| C42 | SPS getters | arithmetic |
| C43 | configuration box | loop invariants |
| C44 | all parsers | composition of the safety parts; invariant of reachable states |
| C45 | all parsers | size of the result against bits consumed, by composition |
| C46 | all parsers | programs factor through the remaining bits (`denote`) |
| C48 | standard syntax against the library's | writers agree on the supported subset; simulation over the list of NAL units |
| C49-C51 | all `fdump` functions | documents: null dereferences, layout, word lists; induction over documents |
| C52-C54 | tools/h265nal.cc | induction over the list of units / options |
| C55 | `(data, length)` overloads | unescaping + codecs; safety for caller-built states (`UsableFor`) |
| C56 | fuzz targets | instances of C55/C44, witnesses computed and checked by the kernel |
| C57 | checksum as text | loop invariant over the character array; digits by exhaustion over the 256 bytes, text characterised by digit values |
| C58 | frame rate of the VUI | binary32 rounding as exact integer arithmetic; nearest number by comparison of multiples, error bound by composing three roundings |
| C59 | removing NAL units | streams as lists of NAL units (C13, C15, C25); induction over the list with the fact that only types 32 to 34 change the state |
| C60 | no influence of earlier streams | order on states (`Spec.Knows`); monotony of the slice header program in the parameter sets; the final state by C21 |
| C61 | repeated parameter sets | a NAL unit that is no slice does not read the state; `Spec.Current` is kept by NAL units of other types |
| C62 | containers | all entry points reduced to the same fold over the NAL units; results compared without places (`Spec.placeless`) |
| C63 | option for checksums | equality of the two runs, for every input |
| C64 | detection by the checksum | one's complement sums as residues modulo 2^32-1 |
| C65 | slice header independent of the slice data | a reader is `Streaming` if on success it consumed bits that alone determine the result, and every proper start of them fails; closed under the combinators |
| C66 | trailing bytes are ignored | the readers up to the extension data are `Streaming`; the trailing bits never fail; the scan on streams with zero bytes in between |
| C67 | truncated parameter sets and SEI messages | the readers are `Streaming`: the bits read are needed; the trailing bits take at most one byte |
| C68 | linear work | `Prog.steps` counts reads; every reader is `Frugal` (four steps per bit it consumes), also when it fails; sums over disjoint units; a recurrence for the aggregation packet of zeros |
| C69 | the text determines the object | `Det`: a table's text is a prefix code; one determinacy lemma per table, in the order of its entries, so that each condition is known from the entries before it |
| C70 | parse, write, parse | soundness of each parser gives a valid object, completeness parses its serialisation; the state is threaded through the stream by induction |
| C71 | streams that are cut off | the start codes of a prefix are a prefix of the start codes; the fold of parsed units is split at the last common start code; for length fields the remaining bytes meet a stop condition of the loop |
| C72 | RTP packet loss and order | the state after a packet is the old one overwritten by the parameter sets reported (C21); a packet that overwrites nothing can be taken out of the fold |
| C73 | order of NAL units | a reported slice depends on the state only through the two parameter sets it names, other units do not depend on it; updates of different ids commute |
| C74 | the command line as typed | `getopt_long` and `strtol` modelled after their documentation; a relation says which words are a correct way to type which options; by induction both are the same |
| C75 | files read and written | standard input, standard output and the files as a state; the program as a function of it |
| C76 | conforming streams through the program | composition of the standard's syntax (C48), the parsers, the dump and the program as a function of files |
| C77 | conforming streams over RTP | the packets of RFC 7798 as a relation (`SentRtp`) on top of the standard's syntax (C48); induction over the packets with C37, C38, C39; emulation prevention inside aggregation packets |
| C78 | supported among unsupported NAL units | induction over the stream, C48 for the known units and C22 for the others; C72 and C77 for RTP |
| C79 | slice QPs of conforming streams | induction over the stream with C48 (C77 for RTP) and C41 |
| C80 | tracks (configuration box and samples) | induction over the samples with C43 and C48; the parser state holds the parameter sets of the box throughout |
| C81 | byte streams behind arbitrary bytes | the start codes of `a ++ b` are those of `a`, one that `b` completes, and those of `b`; the place of a unit depends on its own start code's end and the next one's beginning only; then C60 and C48 |
| C82 | NAL units tagged with their source | induction over the schedule: the common state contains the parameter sets of every source's own state; a unit of another source changes none of them; then C60 per unit (C48 for conforming sources) |
| C83 | the syntax tables of the standard (as C48), without `SupportedSlice` | the bits of the table are those of the first 19 elements of the model's own layout and a rest; the codecs of these elements applied in turn, then a postcondition of the remaining program; induction over the stream as in C78 |
| C84 | the syntax tables of the standard up to the unsupported parts, then arbitrary bits | as C83: the codecs of the first elements in turn, a postcondition of the rest of the program; a slice start depends on the first parts of the parameter sets only; induction over the stream, with the state as an approximation of what was sent |
| C85 | the accessors, and the derivations of the standard as a separate specification | C84 for the values, C42 for the accessors of a returned SPS, the limits of conforming values for positivity and divisibility; induction over the NAL units of the stream |
| C86 | the receiving program on top of the model of `FindNaluIndices` and `ParseNalUnit` | the places found divide at the last start code, and stay when bytes are appended; invariant: what is reported and what the kept bytes with all bytes to come give is the whole; induction over the pieces |
| C87 | `Model/Double.lean`: binary64 rounding, product, quotient, `ceil`, `%.df` | error bound of one rounding, error of the composition below half a unit of the text; Bernoulli's inequality for the logarithm |
| C88 | the receiving program on top of the model of `ParseBitstreamNALULength` | the framing of bytes to which more bytes are appended; one piece, seen from the whole stream; induction over the pieces |
| C89 | the parser programs with the code numbers that they read | a bound on the differences of derived reference picture sets (64 sets of 16 pictures), as an invariant of the parser state, for all parser programs |
| C90 | parser state, NAL unit and RTP parsers | invariant over histories of calls (values per parameter set, number of ids), from the bound on one payload; for the missing limit, a NAL unit built for each id |
| C91 | the converting program on top of the model of FindNaluIndices | what FindNaluIndices finds in the written stream, by induction over the units with the cut lemma of C86; C15 for the length fields; C62 for packets |
| C92 | the sending program (Spec) on top of the model of the RTP parsers | one NAL unit by C39 and C37, sessions by induction; C66 for complete first fragments, C65 and C67 for those cut short, C91 for the byte stream |
| C93 | two runs of the model of the NAL unit parser, agreement of their states outside a set of ids (Spec) | that agreement is an invariant: a unit stores only the parameter sets it reports, only slices read the state, and only the PPS they name and its SPS (lemmas of Props/History and Props/Order) |
| C94 | a program with a disk and crashes as a transition system (Spec) on top of the model of the NAL unit parser | invariant: the kept NAL units represent the parser state, which is that without crashes, perhaps with the next parameter set stored already; parameter sets are parsed alike in every state |
| C95 | the recording program (Spec) on top of C94's | the kept NAL units represent the parser state (invariant of C94); NAL units found in a stream can be framed again (C91), C43 for the record, C15 for length fields |
| C96 | workers and schedules as a transition system (Spec) on top of the model of the NAL unit parser, each worker with a parser state of its own (what threads share inside the parameter sets is only read; data races are outside of the model) | only parameter sets change the state (C22), so the first pass finds the states of parsing in order; each job stays on its way to the results of its segment (invariant) |
| C97 | `parseBitstream`, `parseBitstreamNaluLength`, `parseRtp`; the extracting program is in Spec/Extract | induction on the NAL units: the states of both parses agree outside of what is not needed (C93's relation); then `tame_places` (C91) for the new stream. Generalises C59, which keeps all parameter sets. `C97_shared_ids` evaluates the counterexample without the condition |
| C98 | `parseBitstream`, `parseBitstreamNaluLength`, `parseRtp`; clips and playlists are in Spec/Playlist | induction on the list of streams with C25 (a stream may be cut at a start code) and C60 (a self-contained stream means the same in every state); C91 for packets |

## 6. What the model showed about the code

Each item is a theorem (named) or an example beside one.

1. `PeekBits`/`ReadBits` of 0 bits trip an assertion. `ReadBytes` and `ReadNonSymmetric` move the reader on failure (C02).
2. se(v): 2^30 overflows, larger values get the wrong sign (C06). `WriteBits` of 0 or more than 64 bits shifts out of range
   (C07); non-symmetric codes with 1 or 2^31 values (C09).
3. `FindNaluIndices` ignores a start code in the last 3 bytes (C13). Explicit framing hangs at 4 GiB (C14).
4. `ParseBitstreamNALULength` stores the width of the length field as NAL unit length; 8-byte lengths read out of bounds (C15).
5. `NaluChecksum` on an unaligned reader shifts out of range (C16).
6. The result of `rbsp_trailing_bits` is ignored by VPS, SPS, PPS and AUD.
7. fdump dereferences null for an AUD whose payload failed, a PPS whose multilayer extension failed, a stream parsed with a
   caller's state without checksums, and a configuration box entry without NAL unit (C49). The PPS text omits
   diff_cu_qp_delta_depth (cu_qp_delta_enabled_flag is printed twice); scaling list deltas, extension data flags and all but the last VPS HRD are not
   printed; %i prints values from 2^31 as negative.
8. `GetSliceQpY` uses the PPS known at the end of the stream, can overflow int32, and reads out of bounds for an RTP
   aggregation packet without units (C41).
9. RTP aggregation: unit sizes are not enforced on the payload parser; a valid packet whose last unit has emulation
   prevention bytes is rejected (C38).
10. SPS: MinCbSizeY is computed before its syntax element is read, so the size must always be a multiple of 8 only; the resolution can
    be non-positive (C42).
11. Inter RPS derivation overflows int32 exactly when the derived deltas do not fit (C33).
12. Slice header: no ref_pic_lists_modification, no inference of default active counts, list-1 weights never read, ... (C48); the
    long-term loop with a wrapped count runs until the bits run out.
13. PPS: ids not range-checked; range and 3D extensions rejected; a failing multilayer extension is ignored; the chroma depth condition of the SCC
    extension is inverted (C29, C48).
14. VPS: cprms_present_flag for the first HRD is read although the standard infers it; read as ue(v); only the last HRD is kept (C28).
15. HRD: fixed_pic_rate_within_cvs_flag is not inferred (C31). PTL: the sub-layer level is read under the profile flag (C48).
16. Scaling lists: the dc coefficient is not range-checked, nextCoef can overflow (C34).
17. SEI: payload_size is not enforced on structured payloads; only the first message of a NAL unit is parsed (C40).
18. Configuration box: entries can be null (C43).
19. Tool: `--dump-length` dereferences null for an unparsable slice (C52); `--nalu-length-bytes -1`, the documented default, is
    rejected (C54); with length fields the lengths, bit rates and contents are wrong (C52, C53).
20. A caller-built SPS without picture size makes slice parsing convert log2(0) to an integer; the project's own slice, RTP FU
    and utils fuzz targets build such a state (C56).
21. VUI: offsets of the default display window are limited to 16384 by the library only.
22. `NaluChecksum::fdump(output, 2)` leaves the first character uninitialised; with `output_len <= 0` it writes before the array (C57).
23. `getFramerate` divides by zero (infinity, NaN) for a VUI without timing information or with `vui_num_units_in_tick` 0, which the parser accepts (C58).
24. A PPS cut off inside its multilayer extension is accepted and stored without the extension: the result of that parser is not checked (C67).
25. `GetNaluChecksum` off a byte boundary shifts by a negative amount (C16); the library itself always calls it on a boundary.
26. An RTP aggregation packet can take quadratic time: `ReadExponentialGolomb` counts all zero bits up to the end of the packet before it rejects a code of more than 31
    zeros and seeks back, and `ParseRtpAp` goes on behind the failed payload, so that a packet of n zero bytes after the header takes about n*n steps (C68). README.md shows `h265nal ../media/foo.265`; without `-i` that is rejected too.
27. The help text of the tool offers `-q` and says that the input defaults to stdin; `-q` is rejected (only `--quiet` exists) and so is a command line without input (C74).
    `--nalu-length-bytes ""` is taken for 0. An empty file is an error, an empty standard input is not (C75).
28. PPS multilayer extension: the four phases, ue(v) in clause F.7.3.2.3.4, are read as se(v): the usual chroma phase 8 is reported as -4; an extension with a
    colour mapping table is dropped (C48).
29. The id of a PPS is not limited (the standard: at most 63), while those of VPSs and SPSs are: NAL units of 15 bytes can make a parser state grow without limit, one
    PPS for each of 2^32 - 1 ids (C90).

## 7. Axioms of each theorem in MANIFEST.json

From `#print axioms` (names without the prefix `H265.`).

* **none** (4 theorems): `C41_internal`, `C41_internal_other`, `C54_effective`, `C54_type_names_distinct`.

* **Quot.sound, propext** (21 theorems): `C01_remaining`, `C10_unescape_escape`, `C10_escape_safe`, `C14_wrap_hangs`, `C15_no_length`, `C21_fresh_state`, `C21_length_fresh_state`, `C41_rtp`, `Std.C48_lists_modification_not_read`, `Std.C48_weights_need_sao`, `Std.C48_sub_layer_level_not_read`, `Std.exNals_sent`, `C54_rejected`, `C54_type_name`, `C55_escaped`, `C55_too_long`, `C57_fdump_two`, `C57_fdump_nothing`, `C70_unit_bytes`, `Std.C77_last_escaped`, `Std.C84_conforming`.

* **propext** (45 theorems): `C02_readBytes_counterexample`, `C02_readNonSymmetric_counterexample`, `C07_writeBits_zero_is_undefined`, `C08_writeUE_max`, `C08_writeSE_min`, `C08_se_roundtrip_counterexample`, `C09_limits`, `C13_final_start_code_ignored`, `C15_stored_length_is_field_width`, `C17_past_stop_bit`, `C21_fresh_safe`, `C21_length_fresh_safe`, `C25_cut_needs_nonzero`, `C28_cprms_counterexample`, `C28_cprms_ue_counterexample`, `C28_only_last_hrd_kept`, `C29_multilayer_lost`, `C29_scc_chroma_depth_counterexample`, `C31_fixed_pic_rate_counterexample`, `C33_overflow_counterexample`, `C34_overflow_counterexample`, `C38_escaped_last_unit_rejected`, `C38_sizes_not_enforced`, `C41_later_pps_counterexample`, `C41_overflow_counterexample`, `C42_nonpositive_resolution`, `C43_null_entry`, `C47_signed_limit`, `Std.C48_default_active_not_inferred`, `Std.C48_list1_weights_not_read`, `Std.C48_deblocking_not_inferred`, `Std.C48_entry_points_rejected`, `Std.C48_phases_excluded`, `C54_last_wins`, `C54_profile_names_distinct`, `C55_slice_layer`, `C56_overflow_reached`, `C56_mock_reached`, `C60_needs_parameter_sets`, `C66_extension_data`, `C67_pps_multilayer`, `C89_limit`, `C91_not_back`, `C91_empty_units`, `C97_shared_ids`.

* **Classical.choice, Quot.sound, propext** (447 theorems): all the others.
