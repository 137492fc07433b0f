{"id": "C01", "title": "Fixed-length bit reads return exactly the next bits", "statement": "Reading n bits from a bit reader succeeds exactly when n is at most the number of bits left (and at most 32, or 64 for the 64-bit overload); the value returned is the big-endian unsigned value of the next n bits of the buffer and the position advances by exactly n bits.", "quantifier": "every buffer, every reachable position, every n from 1 to 64", "why_tests_cant": "the result depends on every combination of buffer length, byte offset, bit offset and count; tests only sample a few alignments", "anchors": ["src/rtc_common.cc: BitBuffer::PeekBits, ReadBits, ReadUInt8/16/32, ConsumeBits, LowestBits, HighestBits"]}
{"id": "C02", "title": "A failed read does not move the reader", "statement": "When ReadBits, PeekBits, ReadUInt8/16/32, ReadExponentialGolomb, ReadSignedExponentialGolomb, ConsumeBits, ConsumeBytes or Seek reports failure the reader's position and remaining bit count are unchanged. (ReadBytes and ReadNonSymmetric are documented exceptions: a counterexample is proved for each.)", "quantifier": "every buffer, position and argument", "why_tests_cant": "needs every failing alignment and every length of zero run at the end of the data", "anchors": ["src/rtc_common.cc: BitBuffer::ReadBits, ReadExponentialGolomb, ConsumeBits, ConsumeBytes, Seek, ReadBytes, ReadNonSymmetric"]}
{"id": "C03", "title": "The reader never leaves its buffer", "statement": "Starting from a freshly constructed reader, after any finite sequence of reader operations (with positive bit counts) the reported position lies inside the buffer or at its end, bytes read + bits remaining add up to the buffer size, no byte outside the buffer was accessed and no internal assertion fired. The one exception: a sequence with a signed Exp-Golomb read may stop in a signed integer overflow (see C06).", "quantifier": "every buffer and every finite sequence of reader operations", "why_tests_cant": "histories of operations are unbounded", "anchors": ["src/rtc_common.cc: class BitBuffer"]}
{"id": "C04", "title": "Peeking is free and reads compose", "statement": "PeekBits returns the same value as ReadBits without moving; reading k bits then m bits yields the same position and the same information as reading k+m bits at once (value = first*2^m + second).", "quantifier": "every buffer, position, k, m", "why_tests_cant": "all alignments and splits", "anchors": ["src/rtc_common.cc: BitBuffer::PeekBits, ReadBits"]}
{"id": "C05", "title": "Exp-Golomb decoding inverts the H.265 ue(v) code", "statement": "If the next bits are the ue(v) code word of v (0 <= v <= 2^32-2, clause 9.2) then ReadExponentialGolomb returns v and consumes exactly that code word; conversely whenever it succeeds the consumed bits are the ue(v) code word of the returned value; it fails on every other input.", "quantifier": "every v up to 2^32-2, every suffix, every alignment", "why_tests_cant": "2^32 values times all alignments", "anchors": ["src/rtc_common.cc: BitBuffer::ReadExponentialGolomb"]}
{"id": "C06", "title": "What signed Exp-Golomb decoding does on every code word", "statement": "If the next bits are the se(v) code word of an int32 value v (v != INT32_MIN), ReadSignedExponentialGolomb returns v and consumes exactly the code word for every v < 2^30, computes INT32_MAX + 1 (signed overflow) for v = 2^30, and returns v - 2^31 (wrong sign) above; if the next bits are no such code word it fails without moving. The standard's claim 'it returns v' is therefore true exactly below 2^30; the failing values are exhibited.", "quantifier": "every int32 value v, every suffix, every alignment", "why_tests_cant": "2^32 values; the failing ones need 63-bit code words", "anchors": ["src/rtc_common.cc: BitBuffer::ReadSignedExponentialGolomb"]}
{"id": "C07", "title": "WriteBits writes exactly the requested window", "statement": "WriteBits(val, n) with 1 <= n <= 64 succeeds exactly when n bits are left; it stores the n low bits of val at the current position, advances by n and leaves every other bit of the buffer unchanged; on failure buffer and position are unchanged. Reading back n bits from the old position returns val mod 2^n.", "quantifier": "every buffer content, position, value and n", "why_tests_cant": "all alignments and all surrounding buffer contents", "anchors": ["src/rtc_common.cc: BitBufferWriter::WriteBits, WritePartialByte, HighestByte"]}
{"id": "C08", "title": "Exp-Golomb writers and readers are inverse", "statement": "Every value accepted by WriteExponentialGolomb / WriteSignedExponentialGolomb is written as its ue(v)/se(v) code word and nothing else changes; the unsigned reader at the old position returns the value; the signed reader returns the value exactly when it is below 2^30 (overflow at 2^30, v - 2^31 above), always ending where the writer ended; UINT32_MAX and INT32_MIN are rejected with no effect.", "quantifier": "every 32-bit value, buffer and position", "why_tests_cant": "2^32 values times alignments", "anchors": ["src/rtc_common.cc: BitBufferWriter::WriteExponentialGolomb, WriteSignedExponentialGolomb, CountBits"]}
{"id": "C09", "title": "Non-symmetric codes round-trip and have the advertised size", "statement": "For 2 <= num_values < 2^31 and val < num_values, WriteNonSymmetric writes SizeNonSymmetricBits(val, num_values) bits and ReadNonSymmetric(num_values) at the old position returns val; the code is prefix-free. num_values = 1 and 2^31 (allowed by the documented precondition) hit an assertion / an out-of-range shift.", "quantifier": "every num_values, val, buffer, position", "why_tests_cant": "2^62 pairs", "anchors": ["src/rtc_common.cc: BitBuffer::ReadNonSymmetric, BitBufferWriter::WriteNonSymmetric, SizeNonSymmetricBits"]}
{"id": "C10", "title": "RBSP unescaping inverts emulation prevention", "statement": "For every RBSP byte string, applying the H.265 clause 7.3.1.1 emulation prevention (insert 03 after 00 00 when the next byte is <= 3, and after a final 00 00) and then UnescapeRbsp gives the original bytes back; the escaped form never contains 00 00 00, 00 00 01 or 00 00 02.", "quantifier": "every byte string of every length", "why_tests_cant": "unbounded strings, overlapping zero runs", "anchors": ["src/h265_common.cc: UnescapeRbsp"]}
{"id": "C11", "title": "UnescapeRbsp only ever deletes emulation bytes", "statement": "The output of UnescapeRbsp is a subsequence of its input, never longer, at most one third shorter, and equal to the input exactly when the input has no 00 00 03; every byte it drops is a 03 that follows 00 00.", "quantifier": "every byte string", "why_tests_cant": "unbounded strings", "anchors": ["src/h265_common.cc: UnescapeRbsp"]}
{"id": "C12", "title": "Start-code scanning reports only real, disjoint, in-range NAL units", "statement": "Every index returned by FindNaluIndices has 00 00 01 right before its payload, its start offset is the 3- or 4-byte start code, payloads lie inside the buffer, entries are strictly increasing and never overlap, each payload ends where the next start code begins (the last at the buffer end), and no payload contains a start code followed by at least one byte.", "quantifier": "every byte string", "why_tests_cant": "unbounded strings; the scanner skips bytes", "anchors": ["src/h265_bitstream_parser.cc: H265BitstreamParser::FindNaluIndices"]}
{"id": "C13", "title": "Start-code scanning finds every NAL unit", "statement": "Every occurrence of 00 00 01 followed by at least one byte is reported by FindNaluIndices, in order; therefore splitting a byte stream made of start-code-prefixed NAL units (each non-empty, free of 00 00 01 / 00 00 00 and not ending in 00) returns exactly these NAL units. A start code in the last 3 bytes (empty NAL unit) is not reported.", "quantifier": "every byte string / every list of NAL units and every choice of 3- or 4-byte prefixes", "why_tests_cant": "unbounded strings; skip-ahead could miss a code at some phase", "anchors": ["src/h265_bitstream_parser.cc: H265BitstreamParser::FindNaluIndices"]}
{"id": "C14", "title": "Explicit 4-byte framing is split exactly", "statement": "FindNaluIndicesExplicitFraming applied to the concatenation of length-prefixed NAL units (below 4 GiB in total) returns exactly one entry per unit with its offset and size; for arbitrary input below 4 GiB all entries are in range, contiguous from offset 0, and scanning stops exactly at the first truncated length or unit. (At 4 GiB and above the 32-bit offset arithmetic wraps and the scan can loop for ever: counterexample proved.)", "quantifier": "every list of NAL units and every byte string", "why_tests_cant": "unbounded", "anchors": ["src/h265_bitstream_parser.cc: H265BitstreamParser::FindNaluIndicesExplicitFraming"]}
{"id": "C15", "title": "Length-prefixed bitstream parsing visits each NAL unit once, in bounds", "statement": "ParseBitstreamNALULength with 1..7 length bytes parses, in order, exactly the NAL units of the length-prefixed stream, never reads past the buffer and stops at the first zero, truncated or oversized length. The stored offset is the unit's offset. (The stored length is the width of the length field, not the NAL unit length; with 8-byte lengths the bounds check wraps and reads out of bounds: counterexamples proved.)", "quantifier": "every list of NAL units, every length-field width, every byte string", "why_tests_cant": "unbounded; the wrap needs a 2^64-scale length", "anchors": ["src/h265_bitstream_parser.cc: ParseBitstreamNALULength, read_nalu_length"]}
{"id": "C16", "title": "The NAL unit checksum is the 32-bit one's-complement sum and has no side effect", "statement": "GetNaluChecksum of a byte-aligned reader returns the bitwise complement of the one's-complement sum of the remaining bytes taken as big-endian 32-bit words (zero padded), and leaves the reader position unchanged; appending zero bytes to a whole number of words does not change it.", "quantifier": "every byte string below 2^32 bytes and every byte-aligned position", "why_tests_cant": "unbounded strings, carries", "anchors": ["src/h265_common.cc: NaluChecksum::GetNaluChecksum"]}
{"id": "C17", "title": "more_rbsp_data agrees with the standard", "statement": "For every buffer and position, more_rbsp_data does not move the reader and is false exactly when nothing is left or what is left is a 1 bit followed by at most 7 zero bits. So, in a buffer whose last byte is non-zero, at every position not beyond its last 1 bit it is true exactly when the position is strictly before that bit, as the standard says. Where it departs from the standard is stated too: it is true at the stop bit when zero bytes follow (cabac_zero_words), and true when only zero bits are left.", "quantifier": "every buffer and position", "why_tests_cant": "all alignments and contents of the last bytes", "anchors": ["src/h265_common.cc: more_rbsp_data"]}
{"id": "C18", "title": "rbsp_trailing_bits accepts exactly 1 followed by zeros up to the byte boundary", "statement": "rbsp_trailing_bits returns true exactly when the next bits are a 1 followed by zeros up to the next byte boundary, and then consumes exactly these bits.", "quantifier": "every buffer and position", "why_tests_cant": "all alignments", "anchors": ["src/h265_common.cc: rbsp_trailing_bits, byte_aligned"]}
{"id": "C19", "title": "NAL unit header decoding is lossless", "statement": "ParseNalUnitHeader succeeds exactly when 16 bits are left and returns the four fields f(1) u(6) u(6) u(3) of the two-byte header; re-encoding the fields gives the same two bytes; GetNalUnitType agrees with it.", "quantifier": "every byte string and position", "why_tests_cant": "all 65536 headers at all positions with all suffixes", "anchors": ["src/h265_nal_unit_header_parser.cc: ParseNalUnitHeader, GetNalUnitType"]}
{"id": "C20", "title": "NAL unit type classification follows Table 7-1", "statement": "For every 6-bit type exactly one of VCL/non-VCL holds (VCL iff < 32), unspecified iff 48..63, slice segment iff 0..9 or 16..21; outside 0..63 all are false. Slice types are exactly the types for which a NAL unit payload can contain a slice header.", "quantifier": "every 32-bit type value", "why_tests_cant": "2^32 values", "anchors": ["src/h265_common.cc: IsSliceSegment, IsNalUnitTypeVcl, IsNalUnitTypeNonVcl, IsNalUnitTypeUnspecified", "src/h265_nal_unit_payload_parser.cc"]}
{"id": "C21", "title": "The parser state holds the latest successfully parsed parameter sets", "statement": "After parsing any sequence of NAL units with one parser state, looking up a VPS/SPS/PPS id returns the last parameter set with that id that was parsed successfully, or nothing if there was none; parameter sets with other ids are unaffected.", "quantifier": "every sequence of NAL units, every id", "why_tests_cant": "unbounded histories", "anchors": ["src/h265_nal_unit_payload_parser.cc: ParseNalUnitPayload", "src/h265_bitstream_parser_state.cc: GetVps/GetSps/GetPps"]}
{"id": "C22", "title": "Failed or non-parameter-set NAL units do not disturb the state", "statement": "Parsing a NAL unit that is not a VPS/SPS/PPS, or that yields no parameter set because its parse fails, leaves the parser state exactly as it was; a NAL unit is dropped altogether only if it has fewer than two unescaped bytes.", "quantifier": "every NAL unit, every state", "why_tests_cant": "every malformed input", "anchors": ["src/h265_nal_unit_payload_parser.cc: ParseNalUnitPayload"]}
{"id": "C23", "title": "Slice headers require their parameter sets", "statement": "A slice segment header is returned only if the parser state contains the PPS it names and the SPS that PPS names; otherwise nothing is returned and the state is unchanged. In a stream every reported slice header has the PPS it names and the SPS named by that PPS, the latest with these ids, among the NAL units reported before it or in the state the parse began with.", "quantifier": "every state and every NAL unit", "why_tests_cant": "every combination of present/absent ids", "anchors": ["src/h265_slice_parser.cc: ParseSliceSegmentHeader"]}
{"id": "C24", "title": "A slice header depends only on its own PPS and SPS", "statement": "The result of parsing a slice header depends on the parser state only through the PPS it names and the SPS named by that PPS: two states agreeing on these give identical results.", "quantifier": "every pair of states and every input", "why_tests_cant": "non-interference over all histories", "anchors": ["src/h265_slice_parser.cc: ParseSliceSegmentHeader"]}
{"id": "C25", "title": "Bitstream parsing is sequential NAL unit parsing", "statement": "ParseBitstream equals splitting the stream at start codes and parsing each unit in order with the threaded state, skipping unparsable units; the reported offset/length are those of the unit in the stream; parsing two halves cut at a start code with the same state gives the concatenated result.", "quantifier": "every byte stream, every cut at a NAL unit boundary, every initial state", "why_tests_cant": "unbounded streams", "anchors": ["src/h265_bitstream_parser.cc: ParseBitstream"]}
{"id": "C26", "title": "Accepted SPS values are within limits", "statement": "Every SPS returned by the parser has sps_id <= 15, chroma_format_idc <= 3, 1 <= width,height <= 16888 and divisible by 8, bit depths <= 16, log2_max_poc_lsb <= 16, DPB sizes < 16, coding block size exponents in range, <= 64 short-term RPS and <= 32 long-term pictures, and all per-item lists have exactly the announced length.", "quantifier": "every byte string", "why_tests_cant": "every malformed SPS", "anchors": ["src/h265_sps_parser.cc: ParseSps"]}
{"id": "C27", "title": "SPS parsing inverts the standard syntax", "statement": "Serialising any SPS with values the library accepts (all syntax elements, including VUI, HRD, scaling lists, RPS and extensions) in the syntax of clause 7.3.2.2 as the library reads it (differences from the standard: C31, C48) and parsing it returns exactly the same values; conversely the bits consumed by a successful parse are the serialisation of the result, so no two encodings collide (exception: signed code words of 2^30 or more, which C06 shows are misread). The only undefined behaviour possible is signed overflow.", "quantifier": "every SPS value / every byte string", "why_tests_cant": "unbounded syntax trees", "anchors": ["src/h265_sps_parser.cc: ParseSps"]}
{"id": "C28", "title": "VPS parsing inverts its syntax and respects limits", "statement": "Same as the SPS property for the VPS (with the deviations of the code from the standard stated explicitly: cprms_present_flag is read as ue(v)), and vps_max_layer_id <= 62, at most 1024 layer sets.", "quantifier": "every VPS value / every byte string", "why_tests_cant": "unbounded syntax trees", "anchors": ["src/h265_vps_parser.cc: ParseVps"]}
{"id": "C29", "title": "PPS parsing inverts its syntax", "statement": "Same for the PPS including tiles and the SCC and multilayer extensions (syntax as the library reads it, differences from the standard in C48; signed code words of 2^30 or more excepted as in C27); PPSs with range or 3D extension are rejected. A multilayer extension that cannot be parsed is dropped silently and the PPS is returned nevertheless.", "quantifier": "every PPS value / every byte string", "why_tests_cant": "unbounded syntax trees", "anchors": ["src/h265_pps_parser.cc: ParsePps"]}
{"id": "C30", "title": "VUI parsing inverts its syntax", "statement": "Serialise/parse round trip and losslessness for vui_parameters.", "quantifier": "every VUI value / every byte string", "why_tests_cant": "2^50+ combinations of optional parts", "anchors": ["src/h265_vui_parameters_parser.cc: ParseVuiParameters"]}
{"id": "C31", "title": "HRD parsing inverts its syntax", "statement": "Serialise/parse round trip and losslessness for hrd_parameters and sub_layer_hrd_parameters in the syntax the library implements; list lengths match the sub-layer and CPB counts. A sub-layer written as the standard has it (which infers fixed_pic_rate_within_cvs_flag = 1 when fixed_pic_rate_general_flag = 1) is parsed back exactly when fixed_pic_rate_general_flag is 0.", "quantifier": "every HRD value / every byte string", "why_tests_cant": "unbounded loops", "anchors": ["src/h265_hrd_parameters_parser.cc", "src/h265_sub_layer_hrd_parameters_parser.cc"]}
{"id": "C32", "title": "Profile/tier/level parsing consumes the fixed-size structure and types profiles correctly", "statement": "ParseProfileInfo always consumes exactly 88 bits whatever the profile, is lossless, and the profile type reported is the one of Annex A for the general_profile_idc and constraint flags; profile_space != 0 gives UNSPECIFIED.", "quantifier": "every 88-bit profile", "why_tests_cant": "2^88 inputs", "anchors": ["src/h265_profile_tier_level_parser.cc: ParseProfileInfo, GetProfileType, ParseProfileTierLevel"]}
{"id": "C33", "title": "Short-term reference picture sets never index out of range", "statement": "Parsing the sets of an SPS or slice never indexes outside the list of previous sets; every accepted set of an SPS or slice header has at most 16 entries and list lengths equal to the counts; an inter-predicted set has the entries that equations 7-61 and 7-62 derive from the earlier set it names.", "quantifier": "every byte string, every list of previous sets built by the parser", "why_tests_cant": "unbounded chains of inter-predicted sets", "anchors": ["src/h265_st_ref_pic_set_parser.cc: ParseStRefPicSet, DeriveValues"]}
{"id": "C34", "title": "Scaling lists are complete and in range", "statement": "Every accepted scaling_list_data has the announced number of coefficients, each in 0..255, for each size and matrix, and never indexes out of range.", "quantifier": "every byte string", "why_tests_cant": "delta coding over 64 coefficients", "anchors": ["src/h265_scaling_list_data_parser.cc"]}
{"id": "C35", "title": "Weighted prediction tables match the list-0 reference counts", "statement": "An accepted pred_weight_table has one luma/chroma flag and weight per list-0 reference picture announced and is lossless. (The code never reads the list-1 weights of a B slice.)", "quantifier": "every byte string and parameter combination", "why_tests_cant": "variable structure", "anchors": ["src/h265_pred_weight_table_parser.cc"]}
{"id": "C36", "title": "Slice headers: accepted values are consistent", "statement": "An accepted slice header has slice_segment_address within the number of bits given by the picture size, entry point list of exactly the announced length and bounded by the CTB rows and tiles, offset_len_minus1 <= 31, and reference list entries matching the counts; the parse consumes no more than the available bits; its bits are those of the header in the library's syntax (signed code words of 2^30 or more excepted), and every header with valid values is parsed back.", "quantifier": "every byte string and state", "why_tests_cant": "unbounded", "anchors": ["src/h265_slice_parser.cc"]}
{"id": "C37", "title": "RTP payloads are dispatched by NAL unit type", "statement": "ParseRtp yields a single NAL unit packet exactly for types 0..47, an aggregation packet for 48 and a fragmentation unit for 49; other types yield only a header; the header fields are those of the first two bytes.", "quantifier": "every packet", "why_tests_cant": "all types with all contents", "anchors": ["src/h265_rtp_parser.cc: ParseRtp"]}
{"id": "C38", "title": "RTP aggregation packets", "statement": "Every aggregated unit listed has a size that fitted in the rest of the packet when read; number of sizes, headers and payloads agree.", "quantifier": "every packet", "why_tests_cant": "unbounded packets", "anchors": ["src/h265_rtp_ap_parser.cc: ParseRtpAp"]}
{"id": "C39", "title": "RTP fragmentation units", "statement": "The FU header fields are the bits of the third byte; a payload is parsed only for start fragments, with the type of the FU header.", "quantifier": "every packet", "why_tests_cant": "every content", "anchors": ["src/h265_rtp_fu_parser.cc: ParseRtpFu"]}
{"id": "C40", "title": "SEI message framing", "statement": "payload_type and payload_size are the sums of the ff-coded bytes; raw payload kinds return exactly the next payload_size bytes; memory allocated is bounded by 255 times the input size.", "quantifier": "every byte string", "why_tests_cant": "unbounded ff runs", "anchors": ["src/h265_sei_parser.cc: ParseSei"]}
{"id": "C41", "title": "Slice QP is 26 + init_qp_minus26 + slice_qp_delta of the slice's own PPS", "statement": "GetSliceQpY returns, for every slice NAL unit with a parsed header, in order, 26 + init_qp_minus26 + slice_qp_delta, where the PPS is the one with the id named by that slice in the parser state at the end of the parse; this is the slice's own PPS whenever no later PPS of the stream re-uses the id. The RTP version returns the value of the last NAL unit the packet reports, and none for a later fragment. (If a later PPS re-uses the id the QP is computed with the wrong PPS, the sum can overflow int32, and the RTP version reads out of bounds on an aggregation packet without units: counterexamples proved.)", "quantifier": "every bitstream, every RTP packet", "why_tests_cant": "histories of PPS updates", "anchors": ["src/h265_utils.cc: GetSliceQpY"]}
{"id": "C42", "title": "Resolution accessors", "statement": "getResolution returns the coded size minus the conformance window scaled by the chroma subsampling; PicSizeInCtbsY equals ceil(width/ctb)*ceil(height/ctb) and is positive for each accepted SPS.", "quantifier": "every accepted SPS", "why_tests_cant": "all sizes", "anchors": ["src/h265_sps_parser.cc: getResolution, getPicSizeInCtbsY, getPicWidthInCtbsY"]}
{"id": "C43", "title": "hvcC configuration boxes", "statement": "ParseConfigurationBox accepts only version 1 boxes with correct reserved bits, returns the number of arrays and NAL units announced and never reads past the box.", "quantifier": "every byte string", "why_tests_cant": "unbounded arrays", "anchors": ["src/h265_configuration_box_parser.cc"]}
{"id": "C44", "title": "No NAL unit can make the parser read out of bounds or trip an assertion", "statement": "For every byte string and every parser state reachable by parsing, ParseNalUnit / ParseBitstream never accesses memory outside the buffer or outside an internal list, never dereferences null, never divides by zero and never trips an internal assertion; the only undefined behaviour reachable is signed 32-bit overflow in the listed expressions.", "quantifier": "every byte string and every history", "why_tests_cant": "all malformed inputs", "anchors": ["src/*.cc"]}
{"id": "C45", "title": "Parsing terminates with results linear in the input", "statement": "Every parse terminates; the total number of list elements stored in the returned object is at most linear in the number of input bits.", "quantifier": "every byte string", "why_tests_cant": "all huge announced counts", "anchors": ["src/*.cc"]}
{"id": "C46", "title": "Parsing is position independent", "statement": "The result of parsing a syntax structure depends only on the remaining bits, not on how many bytes precede them (for structures without byte alignment), and never on bytes before the current position.", "quantifier": "every two buffers with the same remaining bits", "why_tests_cant": "all positions", "anchors": ["src/*.cc"]}
{"id": "C47", "title": "A written sequence is read back value by value", "statement": "Any sequence of writer calls (WriteBits, WriteUInt8/16/32, WriteNonSymmetric, WriteExponentialGolomb, WriteSignedExponentialGolomb) with values in range succeeds exactly when the sum of the code lengths fits in the buffer; it then stores the codes back to back and changes no other bit, and the matching sequence of reader calls on the buffer returns exactly the values written, ending where the writer ended. Signed values must be below 2^30.", "quantifier": "every finite mixed sequence of writer calls, every buffer and start position", "why_tests_cant": "unbounded sequences of mixed codes at all bit alignments", "anchors": ["include/rtc_common.h: BitBuffer, BitBufferWriter", "src/rtc_common.cc: BitBufferWriter::WriteBits, BitBuffer::ReadBits"]}
{"id": "C48", "title": "Streams written after the standard are read back", "statement": "A sequence of NAL units (VPS, SPS, PPS, slice segments, AUD, SEI and others) whose contents are written after the syntax tables of the H.265 standard with values the standard allows, using parameter sets sent earlier in the sequence, and staying inside the supported subset (listed constructs excluded), is returned by the bitstream parsers NAL unit by NAL unit with exactly the headers and field values sent, for Annex B and for length-prefixed framing, and the parser state then holds the parameter sets received. Each exclusion of the supported subset is necessary: a conforming structure outside of it is misread or rejected.", "quantifier": "every conforming supported sequence of NAL units, any contents, any number, any start code form or length size 1..7", "why_tests_cant": "the set of conforming bitstreams is infinite; tests only hold a few recorded buffers, and the expected values are copied from the parser's output rather than from the standard", "anchors": ["src/h265_bitstream_parser.cc: ParseBitstream, ParseBitstreamNALULength", "src/h265_sps_parser.cc: ParseSps", "src/h265_pps_parser.cc: ParsePps", "src/h265_vps_parser.cc: ParseVps", "src/h265_slice_parser.cc: ParseSliceSegmentHeader"]}
{"id": "C49", "title": "When dumping is safe", "statement": "Dumping (fdump) any object a parser returned, in any state of the parameter sets reached by parsing, with any options and at any indentation, writes a text, except exactly in these cases, where a null pointer is dereferenced: an access unit delimiter NAL unit whose payload could not be parsed; a PPS whose multilayer extension could not be parsed; a checksum is to be written that was not computed (a bitstream object parsed with a caller's state forgets its options, so this happens for any non-empty stream parsed without checksums); a configuration box entry that holds no NAL unit.", "quantifier": "every byte string, every reachable parser state, every option set and indentation, for NAL units, Annex B and length-prefixed streams, configuration boxes and RTP payloads", "why_tests_cant": "the crash depends on which optional part failed to parse; the repository's tests dump only well-formed buffers", "anchors": ["src/h265_nal_unit_parser.cc: NalUnitState::fdump", "src/h265_nal_unit_payload_parser.cc: NalUnitPayloadState::fdump", "src/h265_pps_parser.cc: PpsState::fdump", "src/h265_bitstream_parser.cc: BitstreamState::fdump", "src/h265_configuration_box_parser.cc: fdump", "src/h265_rtp_parser.cc: RtpState::fdump"]}
{"id": "C50", "title": "Layout of the text form", "statement": "The text of any object has balanced braces; with indentation level -1 it is a single line; at a level n from 0 on every line after the first is empty or begins with 2*(n+d) blanks, d being the number of braces open there (one less for a line that begins with a closing brace); the words of the text (the pieces between blanks and line breaks) do not depend on the indentation level; the text of a bitstream is the texts of its NAL units, each followed by a line break.", "quantifier": "every object, every indentation level", "why_tests_cant": "all combinations of optional parts and list lengths at all indentation levels", "anchors": ["src/h265_common.cc: fdump_indent_level", "src/h265_bitstream_parser.cc: BitstreamState::fdump"]}
{"id": "C51", "title": "The text form shows the parsed values", "statement": "The words of the text of a parsed object are, in order, the name and the value of every element listed in a separate table (Spec/DumpTables, Spec/DumpNalText), with each optional element present exactly under the condition of the table.", "quantifier": "every object a parser returned, every options", "why_tests_cant": "infinitely many objects; the tests do not check dumped text", "anchors": ["src/*.cc: fdump"]}
{"id": "C52", "title": "The table of --dump-length", "statement": "h265nal --dump-length writes for a stream: the heading, one line per NAL unit in order with number, frame number, type, type name, length and, for slices, first_slice_segment_in_pic_flag, slice_segment_address and slice_pic_order_cnt_lsb; before the first NAL unit of a new frame and at the end a line for the frame that ends, with the bit rate 8*bytes*fps of its slices; every line has nine fields and every slice byte is counted in exactly one frame. If some NAL unit of a slice type could not be parsed as a slice, the program crashes. For streams with length fields the lengths (hence bit rates) are wrong: the width of the length field.", "quantifier": "every stream below 2^64 bit*frames, every parser state left by a configuration box", "why_tests_cant": "all interleavings of slices, pictures and other NAL units", "anchors": ["tools/h265nal.cc: main"]}
{"id": "C53", "title": "The text written by the command line tool", "statement": "In the default mode h265nal writes the text of the configuration box, if one is given, and for every NAL unit of the stream its text, one per line; with --add-contents it is followed by exactly the bytes of the NAL unit (Annex B). No input makes the program do anything undefined except the null pointers of C49/C52 and the signed overflow of C44; an unreadable file or a box that is not a configuration box makes it write nothing.", "quantifier": "every stream, box and option set (length fields up to 7 bytes, below 4 GiB for the safety claim)", "why_tests_cant": "all streams and all options together", "anchors": ["tools/h265nal.cc: main"]}
{"id": "C54", "title": "Options and names of the command line tool", "statement": "Of repeated or contradicting options the last one counts, others keep their defaults; a command line is rejected exactly if it has a number that is not between 0 and 2^31-1; --add-contents implies offsets and lengths, --dump-length implies lengths, and nothing else is changed. The names of the NAL unit types are those of Table 7-1 and different types (profiles) have different names.", "quantifier": "every list of options, every NAL unit type, every profile", "why_tests_cant": "unbounded option lists", "anchors": ["tools/h265nal.cc: parse_args, main", "src/h265_common.cc: NalUnitTypeToString, profileTypeToString"]}
{"id": "C55", "title": "Parsing a single structure from a buffer", "statement": "Every structure parser that can be called directly with a buffer (NAL unit header, profile/tier/level, HRD, sub-layer HRD, VUI, the SPS and PPS extensions, short-term reference picture set, prediction weight table, scaling list, AUD, VPS, SPS, PPS, SEI, slice, RTP single/aggregation/fragmentation) first removes the emulation prevention bytes of the buffer and then parses the result from its first bit: it returns an object exactly if the bits of the unescaped buffer begin with an encoding of some allowed values, and then the object holds these values; a buffer escaped by a muxer therefore reads like the unescaped one. No buffer below 4 GiB makes it read outside the buffer, hang or dereference a null pointer, also when the parser state was built by the caller; a buffer of 4 GiB or more is stopped by an assertion.", "quantifier": "every byte buffer, every caller-supplied argument and every usable parser state", "why_tests_cant": "all buffers, all arguments and all caller-built states together", "anchors": ["src/h265_*_parser.cc: Parse*(const uint8_t* data, size_t length, ...)", "src/h265_common.cc: UnescapeRbsp"]}
{"id": "C56", "title": "What the project's fuzz targets can find", "statement": "Of the 27 fuzz targets, eleven return for every input without undefined behaviour; thirteen can only overflow a signed integer, and each of them does so for some input; the three that build a mock parser state can also convert minus infinity to an integer, and the slice target does so exactly if bit 0 of the unescaped input is 0 and bit 2 is 1.", "quantifier": "every fuzz target and every input below 4 GiB", "why_tests_cant": "a fuzzer samples inputs; the claim is for all of them", "anchors": ["fuzz/*.cc: LLVMFuzzerTestOneInput"]}
{"id": "C57", "title": "The checksum as text", "statement": "For every NAL unit parsed with checksums, GetPrintableChecksum returns the checksum of the unescaped bytes as a number with eight lower-case hexadecimal digits, from which the checksum can be read back; fdump(output, n) into an array of at least n characters writes only below n and leaves a null-terminated string, all eight digits if n >= 9 and as many whole bytes as fit if n = 1 or n >= 3; for n = 2 the first character is left as it was, and for n <= 0 it writes outside of the array.", "quantifier": "all NAL units, all checksums of up to 32 bytes, all arrays and all lengths n", "why_tests_cant": "the one test prints one checksum into an array of 64 characters; termination and bounds must hold for every array size and every value", "anchors": ["src/h265_common.cc: NaluChecksum::fdump, NaluChecksum::GetPrintableChecksum", "include/h265_common.h: NaluChecksum", "src/h265_nal_unit_parser.cc: NalUnitState::fdump"]}
{"id": "C58", "title": "The frame rate of a VUI", "statement": "For every VUI the parser returns, getFramerate is within one part in 2^22 of vui_time_scale / vui_num_units_in_tick if vui_num_units_in_tick is not zero, and the single precision number nearest to the quotient if both are below 2^24; it is infinite if only vui_num_units_in_tick is zero (the parser accepts that), and NaN if both are zero, in particular if there is no timing information.", "quantifier": "all VUI structures the parser can return, all pairs of 32 bit numbers", "why_tests_cant": "no test calls getFramerate; the accuracy of three roundings must be bounded for 2^64 pairs of numbers", "anchors": ["src/h265_vui_parameters_parser.cc: VuiParametersState::getFramerate", "include/h265_vui_parameters_parser.h"]}
{"id": "C59", "title": "Removing NAL units from a stream", "statement": "If a byte stream (Annex B or with length fields) is parsed without undefined behaviour, then removing from it the NAL units chosen by any rule on their headers (type, layer id, temporal id) that keeps VPS, SPS and PPS removes exactly their entries from the result: every other NAL unit is parsed to the same header, payload, checksum and parsed length, and the parser state at the end is the same.", "quantifier": "all streams, all parser states, all rules on NAL unit headers that keep types 32 to 34", "why_tests_cant": "a test removes one unit from one stream; that no removed unit has influence on a later one must hold for every stream and every selection", "anchors": ["src/h265_bitstream_parser.cc: H265BitstreamParser::ParseBitstream", "src/h265_nal_unit_parser.cc: H265NalUnitParser::ParseNalUnit, H265NalUnitPayloadParser::ParseNalUnitPayload"]}
{"id": "C60", "title": "Results do not depend on earlier streams", "statement": "If a stream parsed with a new parser state gives a slice header for each of its slice NAL units (so it carries the parameter sets it uses), then with any other parser state, left by any other streams, it gives the same result in every field, and the state after it is the earlier state overwritten by the parameter sets of the stream. One NAL unit that is parsed in some state, with its slice header if it is a slice, is parsed to the same result in every state with more parameter sets. Without that condition the claim is false: a slice alone gives its header only in a state that has its parameter sets.", "quantifier": "all streams, all parser states, both framings", "why_tests_cant": "a leak of state between streams depends on the whole history of the parser state, of which a test can try a few", "anchors": ["src/h265_bitstream_parser.cc: H265BitstreamParser", "include/h265_bitstream_parser_state.h: H265BitstreamParserState", "src/h265_slice_parser.cc: ParseSliceSegmentHeader"]}
{"id": "C61", "title": "Repeated parameter sets", "statement": "A parameter set (or any NAL unit that is no slice) is parsed to the same result in every parser state; sent again in a stream, with no NAL unit of its type in between, it gives its result once more, changes no other result and leaves the parser state as it would be without it.", "quantifier": "all streams, all positions, all NAL units that are no slices, all parser states", "why_tests_cant": "encoders repeat parameter sets at every random access point; the effect of a repetition depends on the state and on everything in between", "anchors": ["src/h265_nal_unit_parser.cc: H265NalUnitPayloadParser::ParseNalUnitPayload", "src/h265_bitstream_parser.cc: H265BitstreamParser::ParseBitstream"]}
{"id": "C62", "title": "A NAL unit means the same in every container", "statement": "The same NAL units as an Annex B stream (start codes of either length), as a stream with length fields of 1 to 7 bytes, in an hvcC configuration box (in any division into arrays) and, for types up to 47, as one RTP payload each, give the same headers and payloads in the same order and the same parser state.", "quantifier": "all lists of NAL units, all framings and divisions into arrays, all parser states", "why_tests_cant": "equality of four entry points on all inputs cannot be enumerated", "anchors": ["src/h265_bitstream_parser.cc: ParseBitstream, ParseBitstreamNALULength", "src/h265_configuration_box_parser.cc: H265ConfigurationBoxParser", "src/h265_rtp_parser.cc: H265RtpParser::ParseRtp"]}
{"id": "C63", "title": "The checksum option changes only checksums", "statement": "For every input, parsing with and without checksums gives the same outcome, the same parser state and the same result in every field but the checksum, for NAL units, Annex B streams and streams with length fields.", "quantifier": "all inputs, all parser states", "why_tests_cant": "independence of an option must hold for every input, valid or not", "anchors": ["src/h265_nal_unit_parser.cc: H265NalUnitParser::ParseNalUnit", "src/h265_common.cc: NaluChecksum::GetNaluChecksum"]}
{"id": "C64", "title": "What the checksum detects", "statement": "Two NAL units whose unescaped bytes differ in exactly one byte (so in any one bit), or in one aligned 32-bit word other than by all zeros against all ones, have different checksums; the checksums are equal exactly if the sums of the big-endian 32-bit words (padded with zeros) agree modulo 2^32-1 and none or both are zero, so exchanging words is not detected.", "quantifier": "all byte strings of any length, all positions, all changes", "why_tests_cant": "a test can compare a few pairs; detection of single errors is a statement on all pairs at distance one", "anchors": ["src/h265_common.cc: NaluChecksum::GetNaluChecksum", "src/h265_nal_unit_parser.cc: H265NalUnitParser::ParseNalUnit"]}
{"id": "C65", "title": "The slice header does not depend on the slice data", "statement": "If parsing a slice NAL unit gives a slice header, then parsing any NAL unit that begins with the same parsed_length unescaped bytes, in the same state, gives the same NAL unit header, the same slice header and the same parsed length, whatever follows (slice data, nothing, anything); with fewer bytes there is no slice header, no undefined behaviour and no change of state. An RTP fragmentation unit with the first fragment of a slice gives the slice header of the whole NAL unit exactly if the fragment holds that header.", "quantifier": "all states, all slice NAL units, all cuts and all continuations", "why_tests_cant": "slice data is arbitrary and any cut of it must give the same answer; a test picks one stream", "anchors": ["src/h265_slice_parser.cc: H265SliceSegmentHeaderParser::ParseSliceSegmentHeader", "src/h265_nal_unit_parser.cc: H265NalUnitParser::ParseNalUnit", "src/h265_rtp_fu_parser.cc: H265RtpFuParser::ParseRtpFu"]}
{"id": "C66", "title": "Bytes behind the end of the syntax are ignored", "statement": "If the payload of a NAL unit was parsed up to its end (and announces no extension data of unknown meaning), then every NAL unit that begins with the same bytes gives the same header and payload and leaves the same parser state, whatever follows (cabac_zero_words, padding). In particular leading_zero_8bits and trailing_zero_8bits in an Annex B stream, any number of them at any place, do not change the parsed headers and payloads. With extension data the claim fails: the bytes behind are read as more extension data.", "quantifier": "all states, all NAL units, all continuations; all streams and all numbers of zero bytes", "why_tests_cant": "the padding is arbitrary and of any length, and the claim is on all NAL units", "anchors": ["src/h265_nal_unit_parser.cc: H265NalUnitParser::ParseNalUnit", "src/h265_bitstream_parser.cc: H265BitstreamParser::FindNaluIndices", "src/h265_common.cc: rbsp_trailing_bits, more_rbsp_data"]}
{"id": "C67", "title": "A truncated parameter set is not taken for a parameter set", "statement": "If a VPS, SPS or PPS NAL unit (without extension data of unknown meaning, and for a PPS without multilayer extension) was parsed successfully, then the same NAL unit cut off before the byte in which its syntax ends gives a NAL unit without payload and leaves the parameter sets of the state as they were: a loss at the end is never taken for a different, shorter parameter set. For a PPS with a multilayer extension the claim fails: cut off in that extension it is stored without it. An SEI NAL unit cut off before the byte in which the contents of its message end gives no message, or one with the same type and size and without contents.", "quantifier": "all states, all parameter-set and SEI NAL units, all cut points", "why_tests_cant": "the claim is on all parameter sets and all places where they can be cut", "anchors": ["src/h265_nal_unit_parser.cc: H265NalUnitParser::ParseNalUnit", "src/h265_vps_parser.cc: H265VpsParser::ParseVps", "src/h265_sps_parser.cc: H265SpsParser::ParseSps", "src/h265_pps_parser.cc:301-306 H265PpsParser::ParsePps"]}
{"id": "C68", "title": "The work of a parse is linear in the size of its input", "statement": "Counting the calls of the functions that read from the BitBuffer and the iterations of the loop in ReadExponentialGolomb: for every input and every parser state, parsing a NAL unit takes at most 14 + 96 per byte, a byte stream or length-framed buffer at most 14 + 96 per byte in total, a configuration box at most 1 + 128 per byte, an RTP packet other than an aggregation packet at most 18 + 128 per byte. No count read from the bitstream can make the parser work for longer than the bytes allow. For aggregation packets the claim fails: a packet of n zero bytes after the two header bytes takes at least n*n/2 steps (a UDP payload of 65 000 bytes: more than two billion), and quadratic is the most there is.", "quantifier": "all byte strings, all parser states, all framings", "why_tests_cant": "the worst case is over all inputs and all parameter sets received before", "anchors": ["src/rtc_common.cc:112-279 BitBuffer", "src/h265_nal_unit_parser.cc: H265NalUnitParser::ParseNalUnit", "src/h265_bitstream_parser.cc: H265BitstreamParser::ParseBitstream, ParseBitstreamNALULength", "src/h265_rtp_ap_parser.cc:48-78 H265RtpApParser::ParseRtpAp", "src/h265_configuration_box_parser.cc: H265ConfigurationBoxParser::ParseConfigurationBox"]}
{"id": "C69", "title": "The text form determines what was parsed", "statement": "Two NAL units parsed in the same state and dumped with the same options have the same text, up to white space, exactly if they are equal in everything but a short list of elements: the scaling list deltas (their sums are printed), the hrd_parameters() of a VPS other than the last, diff_cu_qp_delta_depth and (where present) chroma_bit_depth_entry_minus8 of a PPS, the last extension data flag of an SPS or PPS, and the place, lengths and checksum where the option is off. The same holds for configuration boxes, RTP payloads and whole streams, with any number of NAL units on each side and with slices that refer to parameter sets of their own stream. So no two different headers are ever shown alike, no number is ambiguous, and no value can be mistaken for a name or a brace; and the indentation carries no information.", "quantifier": "all pairs of inputs that can be parsed and dumped, all parser states, options, indentation levels", "why_tests_cant": "a relation between all pairs of inputs", "anchors": ["src/h265_nal_unit_parser.cc: NalUnitState::fdump", "src/h265_bitstream_parser.cc: BitstreamState::fdump", "src/h265_slice_segment_layer_parser.cc, src/h265_slice_segment_header_parser.cc: fdump", "src/h265_pps_parser.cc:374-560 PpsState::fdump"]}
{"id": "C70", "title": "What was parsed can be written and parsed again", "statement": "A program that reads a NAL unit with the library, writes header, reported syntax structure, extension data and trailing bits with emulation prevention, and parses the result with the same parameter sets, gets the same header, the same contents and the same parameter sets in its state; writing again gives the same bytes. The same holds for whole byte streams and for streams with length fields, where slices are written with the parameter sets reported before them. The only units that cannot be written are those whose contents were not reported (rejected payloads, unknown SEI payloads, a PPS whose multilayer extension was lost). Unless a signed code word is an alias, the original unit starts with exactly the bits that are written, so units that are reported alike carry the same bits, and a unit that ends with its trailing bits is written back byte for byte.", "quantifier": "all NAL units and byte streams that can be parsed, all reachable parser states, all header types, all lengths of start codes and length fields", "why_tests_cant": "the parse, write, parse cycle must close for every input, including inputs that are not what an encoder writes", "anchors": ["src/h265_nal_unit_parser.cc: ParseNalUnit", "src/h265_nal_unit_payload_parser.cc: ParseNalUnitPayload", "src/h265_bitstream_parser.cc: ParseBitstream, ParseBitstreamNALULength", "src/h265_bitstream_parser_state.cc"]}
{"id": "C71", "title": "Streams that are cut off", "statement": "When a byte stream arrives in part, what is reported of the part is what is reported of the whole: every NAL unit of an Annex B prefix except possibly the last is reported unchanged, in order and with the same contents, for the whole stream, and every unit of the whole stream that is followed inside the prefix by a start code and one more byte is already reported, unchanged, for the prefix. A stream with length fields that is cut at any byte inside a unit (length field or data) gives exactly the units before that unit and the state they leave, as if the stream had ended there.", "quantifier": "all byte strings, all continuations, all cut positions, all parser states and all length field sizes from 1 to 7", "why_tests_cant": "all cut positions of all streams; cuts can fall inside start codes, length fields and emulation prevention sequences", "anchors": ["src/h265_bitstream_parser.cc: FindNaluIndices, ParseBitstream, ParseBitstreamNALULength"]}
{"id": "C72", "title": "RTP packets that get lost or arrive in another order", "statement": "When RTP packets get lost that bring no parameter set that is not known already (repeated parameter sets, slices, SEI messages, later fragments, reserved types, rejected packets that are not aggregation packets), each packet that arrives has the result it has in the complete session, and the parameter sets known in the end are the same. Which packets carry no parameter set can be told from their first three bytes, whatever was received before: all that are not aggregation packets, parameter sets or first fragments of parameter sets. Such packets do not influence one another: each has the result it would have alone, and they may arrive in any order.", "quantifier": "all RTP payloads, all sessions, all subsets of packets lost, all permutations, all parser states", "why_tests_cant": "all loss patterns and orders of all sessions", "anchors": ["src/h265_rtp_parser.cc: ParseRtp", "src/h265_rtp_single_parser.cc", "src/h265_rtp_ap_parser.cc", "src/h265_rtp_fu_parser.cc", "src/h265_bitstream_parser_state.cc"]}
{"id": "C73", "title": "The order of NAL units", "statement": "Two NAL units that follow one another may be exchanged, without any change of what is reported for each and of the parameter sets known afterwards, unless they depend on one another: they carry different parameter sets of one kind for the same id, or one is a slice (or a slice that was rejected) and the other carries the PPS it names or the SPS named by that PPS. By repeated exchange the same holds for reorderings of whole streams. In particular slices with headers and other units without SPS and PPS may come in any order, and so may units without slices that have no two different parameter sets for one id.", "quantifier": "all NAL units, all streams, all parser states, all permutations made of exchanges of independent neighbours", "why_tests_cant": "all streams and all orders", "anchors": ["src/h265_nal_unit_parser.cc: ParseNalUnit", "src/h265_nal_unit_payload_parser.cc: ParseNalUnitPayload", "src/h265_slice_parser.cc: ParseSliceSegmentHeader", "src/h265_bitstream_parser_state.cc", "src/h265_bitstream_parser.cc: ParseBitstream"]}
{"id": "C74", "title": "The command line as typed", "statement": "The program sees exactly the options the user typed: long options by full name or by a beginning that only one name has, with the argument after = or as the next word; short options alone, in groups, with the argument attached or as the next word; words that are not options are ignored, and so is everything after --. A command line is accepted exactly if it is typed like this, has no --help or --version, its numbers are decimal texts below 2^31 (white space, a sign; the empty text is zero), and it names an input; the settings are then those of the options, the last one counting, --debug counting from the last --quiet on. Any other command line ends the program with status 255 before any file is read, except that --version, if it comes before anything wrong, writes the version and ends with 0.", "quantifier": "every list of arguments, every argument text, of any length", "why_tests_cant": "unbounded argument lists and texts, all abbreviations", "anchors": ["tools/h265nal.cc: parse_args, main"]}
{"id": "C75", "title": "Files read and written by the program", "statement": "ReadFile returns all the bytes of a file that is not empty or, for -, all the bytes on standard input, however many chunks it takes. The program ends with status 0 exactly if both inputs named can be read, the configuration box is one and the output can be opened; then the text of C52/C53 for these bytes is what is written to the output file or to standard output, and no other file is changed (input and output may be the same file). Otherwise the status is 255, no file is changed or emptied, and standard output gets at most the debug messages. The same bytes as a file or on standard input make the same output, except that an empty file is an error and an empty standard input is not. Undefined behaviour of the program is undefined behaviour of the parsing and dumping of its inputs, below 4 GiB and with length fields of up to 7 bytes only null pointers and signed overflow. With -d twice or more, standard output begins with the settings: the number of -d and the names given with -i and -o.", "quantifier": "every command line, all contents of files and of standard input", "why_tests_cant": "all contents, sizes and combinations of options", "anchors": ["tools/h265nal.cc: main", "src/h265_utils.cc: ReadFile, ReadStdinToBuffer"]}
{"id": "C76", "title": "A stream made after the standard, given to the program", "statement": "A file with an Annex B byte stream of NAL units written after the standard (C48), below 4 GiB, given with -i: the program ends with status 0 and does nothing undefined; h265nal -i FILE writes one line per NAL unit, in order, whose words are those of a NAL unit with the header and contents that were sent; h265nal --dump-length -i FILE writes exactly the table of the types, sizes and slice values that were sent and the bit rate of each frame; no file is changed. The same for any other options that show or hide parts, for NAL units behind length fields, and for parameter sets in a configuration box with slices behind length fields (--hvcc-file, --nalu-length-bytes).", "quantifier": "every sequence of NAL units the standard allows and the library supports, all command lines that name such a file", "why_tests_cant": "unbounded number of streams; end to end over all parsers, dumpers and options", "anchors": ["tools/h265nal.cc: main, dump_length_mode", "src/h265_bitstream_parser.cc: ParseBitstream, ParseBitstreamNALULength", "src/h265_configuration_box_parser.cc: ParseConfigurationBox"]}
{"id": "C77", "title": "A stream made after the standard, sent over RTP", "statement": "A sequence of NAL units written after the standard (C48), packed after RFC 7798 without DONL fields - each NAL unit in a packet of its own, in two or more fragments of which the first holds the syntax structure, or several parameter sets / access unit delimiters / header-only NAL units in an aggregation packet -, parsed packet by packet with ParseRtp and one parser state: no result is null, and the NAL units reported (single, start fragment with the type of the FU header, aggregated units) are those sent, in order, with their headers and contents; later fragments report no NAL unit and change nothing; afterwards the parser state holds the parameter sets sent. An aggregation packet is reported exactly when no NAL unit in it has more emulation prevention bytes than there are bytes behind it: otherwise (one emulation prevention byte in the last NAL unit is enough) the result is null.", "quantifier": "every sequence of NAL units the standard allows and the library supports, every way to split and aggregate it into packets, every reachable parser state", "why_tests_cant": "unbounded number of streams and packetizations", "anchors": ["src/h265_rtp_parser.cc: ParseRtp", "src/h265_rtp_single_parser.cc: ParseRtpSingle", "src/h265_rtp_ap_parser.cc: ParseRtpAp", "src/h265_rtp_fu_parser.cc: ParseRtpFu"]}
{"id": "C78", "title": "Unsupported NAL units do not disturb supported ones", "statement": "In a byte stream (Annex B or length-prefixed) where NAL units written after the standard and supported by the library (C48) stand among any others that are not parameter sets - slices or SEI messages with contents the library does not support, damaged ones, reserved types -, if the parse is free of undefined behaviour (only a signed overflow is possible, C44), one NAL unit is reported for each, in order and at its place; every supported one is reported with the header and contents that were sent, and the parser state holds the parameter sets sent. The same for RTP: packets of a conforming sequence are reported as sent when packets without parameter sets are mixed in, whatever these hold and whether or not they give null.", "quantifier": "every interleaving of a conforming supported sequence with arbitrary other NAL units or packets", "why_tests_cant": "unbounded number of streams and of unsupported contents", "anchors": ["src/h265_bitstream_parser.cc: ParseBitstream, ParseBitstreamNALULength", "src/h265_nal_unit_parser.cc: ParseNalUnit", "src/h265_rtp_parser.cc: ParseRtp"]}
{"id": "C79", "title": "Slice QPs of a conforming stream are those that were sent", "statement": "For every conforming, supported sequence of NAL units (C48) sent as an Annex B byte stream in which no PPS after a slice re-uses the id of its PPS with another init_qp_minus26, GetSliceQpY is free of undefined behaviour and returns exactly the slices' SliceQpY = 26 + init_qp_minus26 + slice_qp_delta in order, one per slice segment (a dependent slice segment counts with delta 0), all between -48 and 51, whatever the parser state held before. Over RTP (C77: single packets, fragments, aggregated parameter sets) a receiver that parses each packet and then asks for its slice QP gets these values in order, one per slice whatever its number of fragments and whatever PPSs follow, and none for the other packets.", "quantifier": "every conforming supported sequence of NAL units, every packetization, every parser state", "why_tests_cant": "unbounded number of streams and packetizations", "anchors": ["src/h265_utils.cc: GetSliceQpY", "src/h265_bitstream_parser.cc: ParseBitstream", "src/h265_rtp_parser.cc: ParseRtp"]}
{"id": "C80", "title": "A track read sample by sample, in any order", "statement": "The parameter sets of a track written after the standard (C48) are in its hvcC configuration box and its samples hold NAL units behind length fields of lengthSizeMinusOne + 1 bytes. ParseConfigurationBox, from whatever parser state, returns the values and NAL units that were written; ParseBitstreamNALULength, called per sample with the length size the box announces, then returns for each sample exactly its NAL units, in order, with the headers and contents that were sent, and the parser state follows the parameter sets sent in the samples. When the samples leave the parameter sets of the box in force, this holds for every choice and order of samples: they can be skipped, repeated and taken in any order (random access).", "quantifier": "every conforming supported track, every parser state before, every selection and order of its samples", "why_tests_cant": "unbounded number of tracks and of access orders", "anchors": ["src/h265_configuration_box_parser.cc: ParseConfigurationBox", "src/h265_bitstream_parser.cc: ParseBitstreamNALULength"]}
{"id": "C81", "title": "Finding the way back into a damaged byte stream", "statement": "Whatever bytes come before a start code in an Annex B byte stream (damaged units, the middle of a unit, half a start code, zero bytes), ParseBitstream reports units that lie within those bytes and then, for what begins with the start code, exactly what it reports for that part alone with the parser state reached so far. If that part brings the parameter sets its slices use, it is reported as with a new parser state, with offsets counted from the beginning of the stream, and its parameter sets are the ones in force afterwards. In particular a run of NAL units written after the standard (C48) is reported completely, each unit with the header and contents sent and at its place, whatever is before it and whatever comes behind the next start code: damage never spreads past a start code. The only way a stream of less than 4 GiB can prevent this is the signed 32-bit overflow of C44 in a damaged unit.", "quantifier": "all bytes before and behind, all conforming supported runs of NAL units, all parser states a user can get into", "why_tests_cant": "unbounded number of damaged streams; the bytes before can merge with the start code (00 | 00 00 01, 00 00 01 | 00 00 01)", "anchors": ["src/h265_bitstream_parser.cc: FindNaluIndices, ParseBitstream"]}
{"id": "C82", "title": "Several sources sharing one parser state, under every schedule", "statement": "NAL units of several sources (cameras, tracks, layers) given to ParseNalUnit with one common parser state, in any interleaving: if every source parsed alone brings the parameter sets its slices use, and no two sources have different parameter sets of the same kind with the same id, then every source gets, unit by unit, the results it gets alone with a new parser state (null results included), whatever the schedule and whatever the state held before, and the state in the end contains the parameter sets every source left. In particular sources written after the standard (C48) are all reported completely.", "quantifier": "all numbers of sources, all NAL units, all interleavings, all parser states before", "why_tests_cant": "the number of interleavings grows exponentially; the streams are unbounded", "anchors": ["src/h265_nal_unit_parser.cc: ParseNalUnit", "src/h265_bitstream_parser_state.cc", "include/h265_bitstream_parser_state.h"]}
{"id": "C83", "title": "The first values of every conforming slice are reported", "statement": "For a slice that conforms to the standard, read with the (supported) parameter sets it names, the library reports either no slice (null) or one with exactly the values sent for all syntax elements in front of ref_pic_lists_modification(): first_slice_segment_in_pic_flag, PPS id, address, slice type, output flag, picture order count, short-term and long-term reference pictures, temporal MVP flag, SAO flags, numbers of reference indices, whether or not the rest of the slice header uses constructs the library does not support (list modification, inherited reference counts, B weight tables, deblocking settings of the PPS, ...). In a stream of conforming NAL units with such slices every unit is reported in order and at its place, the supported ones completely, and the parser state holds the parameter sets sent; the only undefined behaviour possible is a signed overflow.", "quantifier": "all conforming slice headers, parameter sets, streams (Annex B and length-prefixed), parser states", "why_tests_cant": "the slice syntax has unboundedly many combinations; a test sees only the constructs it was written for", "anchors": ["src/h265_slice_parser.cc: ParseSliceSegmentHeader", "src/h265_nal_unit_parser.cc: ParseNalUnit", "src/h265_bitstream_parser.cc: ParseBitstream"]}
{"id": "C84", "title": "The first values of a parameter set are reported whatever follows them", "statement": "An SPS whose values in front of the VUI parameters conform to the standard (with a supported profile_tier_level()), a VPS likewise in front of the HRD parameters, and a PPS in front of its extensions, are reported either not at all (null) or with exactly these values: ids, profile, tier and level, picture size, cropping, bit depths, block sizes, reference picture sets, timing, and so on, whatever bits follow: unsupported or malformed VUI and HRD parameters, extensions, extension data, trailing bits. Every conforming parameter set begins this way. In a stream of such parameter sets, of slices that conform to the standard with them, and of any other NAL units, one NAL unit is reported for each, in order and at its place, and up to the first parameter set that is not reported all contents reported have the first values sent (for slices: those in front of ref_pic_lists_modification()), although the library may have misread the rest of the parameter sets they use; if all parameter sets are reported, the parser state holds their first values under their ids. The only undefined behaviour possible is a signed overflow.", "quantifier": "all conforming first parts, all bit strings behind them, all streams (Annex B and length-prefixed), all parser states", "why_tests_cant": "VUI, HRD and extension contents are unbounded, and the library misreads some of them; no test shows that a misread never reaches back", "anchors": ["src/h265_sps_parser.cc: ParseSps", "src/h265_vps_parser.cc: ParseVps", "src/h265_pps_parser.cc: ParsePps", "src/h265_slice_parser.cc: ParseSliceSegmentHeader", "src/h265_nal_unit_payload_parser.cc: ParseNalUnitPayload", "src/h265_bitstream_parser.cc: ParseBitstream"]}
{"id": "C85", "title": "The picture sizes reported for a sequence are those that were sent", "statement": "Take an SPS whose values in front of the VUI parameters conform to the standard (with a supported profile_tier_level()), whatever follows them. If an SPS is returned for it, its accessors give the sizes the standard derives from the values sent: getResolution the picture without its conformance cropping window, in luma samples, and positive; getCtbSizeY, getPicWidthInCtbsY, getPicHeightInCtbsY and getPicSizeInCtbsY the coding tree blocks of equations 7-13 to 7-19; getPicWidthInMinCbsY and getPicHeightInMinCbsY the minimum coding blocks, which fill the picture exactly; getPicSizeInMinCbsY and getPicSizeInSamplesY the products, without wrapping around. In an Annex B stream of any NAL units and any parser state that can be reached, there is a report for every such NAL unit, and every NAL unit reported at the place of one has no contents or an SPS with these sizes.", "quantifier": "all SPS with conforming first parts, all bit strings behind them, all Annex B streams around them, all reachable parser states", "why_tests_cant": "The sizes are computed from eight values, with a cropping window that depends on the chroma format, and the parts of the SPS behind them (partly misread by the library) are unbounded", "anchors": ["src/h265_sps_parser.cc: ParseSps, getResolution, getPicSizeInCtbsY, getPicWidthInMinCbsY", "src/h265_bitstream_parser.cc: ParseBitstream"]}
{"id": "C86", "title": "A byte stream that arrives in pieces", "statement": "A program receives an Annex B byte stream in pieces and after each piece calls FindNaluIndices on the bytes it has kept and the new piece, gives all NAL units found but the last one to ParseNalUnit with one parser state, and keeps the bytes from the start code of the last one on; at the end it parses what is left. Whatever the pieces (of any number and size, empty, cut within start codes or anywhere else) and whatever the bytes, it gets exactly what ParseBitstream gives for the whole stream: the same NAL units with the same contents, checksums and places, the same parser state, and undefined behaviour in the one exactly when in the other. After each piece, all NAL units of the bytes received so far have been reported but at most one, and the bytes kept hold at most one start code, which they begin with.", "quantifier": "all byte streams, all divisions into pieces, all parser states", "why_tests_cant": "The number of ways to cut a stream is exponential in its length, and start codes of three and four bytes, zero bytes before them and empty units interact with the cuts", "anchors": ["src/h265_bitstream_parser.cc: FindNaluIndices, ParseBitstream", "src/h265_nal_unit_parser.cc: ParseNalUnit"]}
{"id": "C87", "title": "Floating point arithmetic does not show in the results", "statement": "Where the library computes with floating point numbers and the result is a text or a count, the result is the exact one. (a) The texts of the mastering display SEI message, `%.5f` of `v * 0.00002` and `%.4f` of `v * 0.0001`, computed in double precision with the constants, the product and the text each rounded, are the decimal expansions of the exact numbers 2v/100000 and v/10000, for every 32 bit v. (b) The numbers of coding tree blocks per row and column, `ceil(1.0 * size / block)` in double precision, are the exact ceilings for every 32 bit size and block size. (c) The widths `ceil(log2((float)x))` are the exact ceilings of the logarithm for 1 <= x <= 2^20, for whatever a log2f returns that is exact at powers of two and has an error of less than one unit in the last place.", "quantifier": "all 32 bit values, sizes and block sizes; all x up to 2^20 and all results allowed by the accuracy of log2f", "why_tests_cant": "rounding errors depend on the value; 2^32 values times two constants and 2^64 quotients cannot be tried, and a log2f with the stated accuracy is not one function", "anchors": ["src/h265_sei_parser.cc: fdump of the mastering display message", "src/h265_sps_parser.cc: getPicWidthInCtbsY, getPicHeightInCtbsY", "src/h265_slice_parser.cc: slice_segment_address_len, short_term_ref_pic_set_idx_len, lt_idx_sps_len"]}
{"id": "C88", "title": "A stream with length fields that arrives in pieces", "statement": "A program receives a stream of NAL units with length fields of 1 to 7 bytes in pieces, calls ParseBitstreamNALULength with one parser state on the bytes it has kept and each new piece, and drops the complete units (going from length field to length field). Whatever the pieces (of any number and size, empty, cut within length fields or units) and whatever the bytes, it gets exactly what ParseBitstreamNALULength gives for the whole stream: the same NAL units with the same contents, checksums and places, the same parser state, and undefined behaviour in the one exactly when in the other. After each piece, everything that has arrived completely has been reported, and the bytes kept are the last ones received and hold no complete unit.", "quantifier": "all byte strings, all widths of the length field from 1 to 7, all divisions into pieces, all parser states", "why_tests_cant": "The number of ways to cut a stream is exponential in its length, and the contents include all malformed length fields", "anchors": ["src/h265_bitstream_parser.cc: ParseBitstreamNALULength, read_nalu_length"]}
{"id": "C89", "title": "No undefined behaviour without very long Exp-Golomb codes", "statement": "A user passes NAL units, RTP packets, byte streams and streams with length fields (below 4 GiB) to the parser, starting with a new parser state. As long as no Exp-Golomb code that is read has 27 or more leading zero bits (a code number of 2^27 - 1 or more), no call has undefined behaviour, whatever the other contents and the order: every call returns, with a result or with null. Bytes with no 27 zero bits in a row before their last one bit need no look at the codes. The limit cannot be raised: with codes of 27 leading zeros there is an overflow of a signed integer.", "quantifier": "all sequences of NAL units and RTP packets of any length, all byte streams and streams with length fields, all parser states reached", "why_tests_cant": "Undefined behaviour depends on sums of values over several NAL units and reference picture sets; a test can only try some values", "anchors": ["src/h265_st_ref_pic_set_parser.cc", "src/h265_sps_parser.cc", "src/h265_slice_parser.cc", "src/h265_nal_unit_parser.cc: ParseNalUnit", "src/h265_rtp_parser.cc: ParseRtp", "src/h265_bitstream_parser.cc"]}
{"id": "C90", "title": "How large a parser state can become", "statement": "A parser state starts empty and is handed to calls that parse NAL units or RTP packets of at most L bytes each (below 4 GiB), T bytes in total, in any order and with any results, also null. It then holds VPSs and SPSs under ids below 16 only and PPSs under at most T/2 ids, and each of these parameter sets stores at most 187 + 240 L values, so the whole state stores at most (32 + T/2)(188 + 240 L) values. If no PPS with an id above 63 came (the standard forbids them), it is at most 96 (188 + 240 L) however long the history is. But the library does not enforce that limit: NAL units of at most 24 bytes can put one PPS under each of 2^32 - 1 ids into the state.", "quantifier": "all histories of NAL units and RTP packets with any bytes, of any number", "why_tests_cant": "The bound concerns the whole history of a session, of any length", "anchors": ["src/h265_bitstream_parser_state.cc", "include/h265_bitstream_parser_state.h", "src/h265_nal_unit_payload_parser.cc", "src/h265_nal_unit_parser.cc: ParseNalUnit", "src/h265_rtp_parser.cc: ParseRtp", "src/h265_pps_parser.cc: ParsePps", "src/h265_sps_parser.cc", "src/h265_vps_parser.cc"]}
{"id": "C91", "title": "Converting a byte stream into another form", "statement": "A program takes any Annex B byte stream (damaged, with junk in front, with empty units, with zero bytes between units), reads its NAL units with FindNaluIndices and writes them (the empty ones left out) with length fields of 1 to 7 bytes, or with start codes of four bytes, or sends them as RTP payloads (types up to 47). The parsers return for the new form the same headers, payloads, checksums and parsed lengths in the same order, and leave the same parser state, as for the original stream; FindNaluIndices finds in the new byte stream exactly the NAL units of the old one that are not empty. Empty units have to be left out: a length field of 0 ends the stream. The way back, from length fields to start codes, does not work for a unit with a start code inside.", "quantifier": "all byte strings below the size limits, all sizes of the length field, all parser states", "why_tests_cant": "Streams of any length and with any damage; a test can only try some", "anchors": ["src/h265_bitstream_parser.cc: FindNaluIndices, ParseBitstream, ParseBitstreamNALULength", "src/h265_nal_unit_parser.cc", "src/h265_rtp_parser.cc"]}
{"id": "C92", "title": "Any NAL units sent over RTP in fragments", "statement": "A sender sends any NAL units of types 0 to 47 (damaged ones too) as RTP payloads, each in a packet of its own or, if its second byte is not 0, in two or more fragmentation units, cut wherever it likes. Parsing the packets in order reports exactly the headers and payloads, and leaves the parser state (or has the undefined behaviour), that parsing the NAL units one after the other does, each fragmented one cut off behind its first fragment; the type is the one in the FU header, and later fragments report nothing. If the payload reported for every first fragment was parsed up to its end (and announces no extension data of unknown meaning), the report and the state are those of the byte stream of these NAL units: the bytes in later fragments change nothing. A parameter set (a PPS without multilayer extension) or slice header that does not end in the first fragment is reported without a payload and leaves the state as it was; then what refers to it is not reported either.", "quantifier": "all lists of NAL units, all ways of cutting them, all parser states; sizes below 4 GiB", "why_tests_cant": "Any number of packets with any contents and cuts; a test can only try some", "anchors": ["src/h265_rtp_parser.cc", "src/h265_rtp_single_parser.cc", "src/h265_rtp_fu_parser.cc", "src/h265_nal_unit_parser.cc", "src/h265_bitstream_parser.cc: ParseBitstream"]}
{"id": "C93", "title": "Damage stays with those that use it", "statement": "A stream is received with damage: some of its NAL units have other bytes than were sent. Take a set of VPS, SPS and PPS ids that contains the ids of all parameter sets reported for the damaged units, as sent and as received, and the ids of the PPSs that name an SPS in it. Then every undamaged unit gives the same result as without damage, unless it is a slice segment for which each run reports no header or one that names a PPS in the set; and at the end both runs hold the same parameter sets under all other ids. If no parameter set is reported for a damaged unit, as sent or as received (only slices, SEI and the like are damaged), all undamaged units give the same results, and the states at the end are the same.", "quantifier": "all sequences of NAL units, all damage to any of them, all sets of ids as described, all initial parser states that agree outside of the set", "why_tests_cant": "Any stream and any damage, with any number of units in between; a test can only try some", "anchors": ["src/h265_nal_unit_parser.cc: ParseNalUnit", "include/h265_bitstream_parser_state.h", "src/h265_slice_parser.cc"]}
{"id": "C94", "title": "Going on after a crash", "statement": "A program feeds NAL units to the parser one by one and keeps on disk, besides its position and what was reported, for each kind and id the bytes of the last NAL unit reported with such a parameter set. It may be killed at any point, any number of times: between NAL units, while parsing, during an earlier restart, or after the parameter set was written to disk but not yet the report and the position. After each restart it parses the NAL units it kept, in any order, into an empty parser state, and goes on at its position. Then what it has reported at any time is exactly what is reported without crashes for the NAL units done, at the end also the parser state is the same; every restart works and reports every kept NAL unit; what is kept has one entry per kind and id, however long the stream is.", "quantifier": "all sequences of NAL units that are parsed without undefined behaviour, all crash points, any number of crashes, all orders of replaying what was kept", "why_tests_cant": "Every crash point of every stream, with any number of crashes; a test can only try some", "anchors": ["src/h265_nal_unit_parser.cc: ParseNalUnit", "src/h265_nal_unit_payload_parser.cc", "include/h265_bitstream_parser_state.h"]}
{"id": "C95", "title": "A recording that starts in the middle of a stream", "statement": "A program parses a byte stream NAL unit by NAL unit and keeps the bytes of the parameter sets as in C94 (it may crash and go on meanwhile). At any NAL unit of the stream it starts a recording. As a byte stream: what it kept, in any order, then the NAL units that follow, each behind a start code of four bytes (empty ones left out; two or more are left, or the last one does not end with 0, 0, 1). As a file: what it kept, in any order and in any arrays, in a configuration record of version 1, the following NAL units behind length fields of 1 to 7 bytes. Parsed into an empty parser state, the recording gives the kept parameter sets, all of them reported, then exactly the headers and payloads which the stream gives for the NAL units that follow, and at the end the same parser state; the configuration box alone gives the parser state at that point.", "quantifier": "all byte streams that are parsed without undefined behaviour (damaged ones too), all starting points, all orders of what was kept, all crashes before", "why_tests_cant": "Any stream and any starting point; a test can only try some", "anchors": ["src/h265_bitstream_parser.cc: FindNaluIndices, ParseBitstream, ParseBitstreamNALULength", "src/h265_configuration_box_parser.cc: ParseConfigurationBox", "src/h265_nal_unit_parser.cc: ParseNalUnit"]}
{"id": "C96", "title": "A stream parsed in parallel", "statement": "A sequence of NAL units is cut into segments anywhere. A first pass parses only the units with type VPS, SPS or PPS in their header and copies the parser state at the beginning of every segment. Then the segments are parsed by workers at the same time, each with its own copy of the state, interleaved NAL unit by NAL unit under any schedule. No worker gets stuck or has undefined behaviour if parsing in order has none; when all are done, the reports of the segments put one behind the other are exactly those of parsing the sequence in order, and the state at the end of the first pass and that of the last worker are the state then.", "quantifier": "all sequences of NAL units that are parsed without undefined behaviour from any parser state, all ways of cutting them, all schedules", "why_tests_cant": "The number of schedules and cuts is unbounded; a test runs one", "anchors": ["src/h265_nal_unit_parser.cc: ParseNalUnit", "src/h265_nal_unit_payload_parser.cc", "include/h265_bitstream_parser_state.h"]}
{"id": "C97", "title": "Extracting part of a stream", "statement": "A program extracts part of a stream with a rule on NAL unit headers (a layer, temporal sub-layers, some types) that may also remove VPS, SPS and PPS: it takes the NAL units found by FindNaluIndices in any bytes, keeps the chosen ones that are not empty and writes them with start codes of four bytes; or it keeps the chosen ones of a stream with length fields; or each NAL unit (of a type up to 47) is an RTP packet and a forwarding unit passes on the chosen ones. If in the parse of the whole stream every slice that is kept has its header, and the part kept can do without the rest (no NAL unit removed carries an SPS or PPS with an id used by a slice that is kept, through its PPS), then parsing the extracted stream gives exactly the NAL units kept, with the same headers, payloads, checksums and parsed lengths in the same order (for RTP: one packet with the same header and payload for each), and the parser state holds the same parameter sets under the ids used. The condition is needed: the parser does not look at the layer of a parameter set, so a PPS of another layer with the same id changes what is reported for the base layer.", "quantifier": "all byte streams and streams with length fields, all rules on headers, all initial parser states, all sets of ids in use that fit", "why_tests_cant": "Any subset of the NAL units of a stream of any length may be removed, and each removal may change the parameter sets that later units see", "anchors": ["src/h265_bitstream_parser.cc:ParseBitstream", "src/h265_bitstream_parser.cc:FindNaluIndices", "src/h265_bitstream_parser.cc:ParseBitstreamNALULength", "src/h265_nal_unit_parser.cc:ParseNalUnit", "src/h265_nal_unit_payload_parser.cc", "src/h265_rtp_parser.cc", "src/h265_rtp_single_parser.cc", "include/h265_bitstream_parser_state.h"]}
{"id": "C98", "title": "Streams joined one behind the other", "statement": "Streams that were each parsed alone with a new parser state, giving a slice header for every slice, are joined in any order and with any repetitions (as cat does with files, or a player with a playlist). Parsing the joined stream, with any parser state, gives the NAL units that were reported for the first, then those for the second, and so on: every field is the same but for the offsets, which count from the beginning of the joined stream; the state at the end is the first one with the parameter sets of the streams written over it in order. For byte streams, each has to begin with a start code of four bytes with something behind it and must not end with a start code; streams with length fields of one size may be any sequences of NAL units. Streams of NAL units of types up to 47 sent as RTP packets, one stream after the other in a session, are reported in the same way. Different parameter sets with the same ids in different streams do not disturb one another.", "quantifier": "all lists of streams of any length, all initial parser states, both framings, RTP packets", "why_tests_cant": "The sequences of streams are unlimited, and what a slice means depends on everything that came before it", "anchors": ["src/h265_bitstream_parser.cc: ParseBitstream", "src/h265_bitstream_parser.cc: FindNaluIndices", "src/h265_bitstream_parser.cc: ParseBitstreamNALULength", "src/h265_rtp_parser.cc: ParseRtp", "include/h265_bitstream_parser_state.h"]}
