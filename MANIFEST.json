{
 "claims": [
  {
   "property": "C01",
   "status": "proved",
   "theorems": [
    "H265.C01_readBits",
    "H265.C01_remaining",
    "H265.C01_readUInt",
    "H265.C01_readBytes",
    "H265.C01_readBytes_aligned",
    "H265.C01_moves",
    "H265.readBytes_eq_rep"
   ],
   "note": ""
  },
  {
   "property": "C02",
   "status": "proved",
   "theorems": [
    "H265.C02_failed_read_no_move",
    "H265.C02_readBytes_counterexample",
    "H265.C02_readNonSymmetric_counterexample"
   ],
   "note": "The two documented exceptions of the statement are proved as counterexamples."
  },
  {
   "property": "C03",
   "status": "proved",
   "theorems": [
    "H265.C03_reader_stays_in_bounds"
   ],
   "note": ""
  },
  {
   "property": "C04",
   "status": "proved",
   "theorems": [
    "H265.C04_peek_eq_read",
    "H265.C04_reads_compose"
   ],
   "note": ""
  },
  {
   "property": "C05",
   "status": "proved",
   "theorems": [
    "H265.C05_readUE_complete",
    "H265.C05_readUE_sound",
    "H265.C05_ue_prefix_free"
   ],
   "note": ""
  },
  {
   "property": "C06",
   "status": "proved",
   "theorems": [
    "H265.C06_readSE_exact",
    "H265.C06_readSE_sound",
    "H265.C06_se_prefix_free",
    "H265.C06_overflow_counterexample",
    "H265.C06_wrong_sign",
    "H265.C06_readSE_below"
   ],
   "note": "Exact total behaviour; 'returns v' is refuted for v >= 2^30 (signed overflow at 2^30, wrong sign above). C06_readSE_below is the half below 2^30 used by the parser proofs."
  },
  {
   "property": "C07",
   "status": "proved",
   "theorems": [
    "H265.C07_writeBits",
    "H265.C07_writeUInt",
    "H265.C07_read_back",
    "H265.C07_writeBits_zero_is_undefined"
   ],
   "note": ""
  },
  {
   "property": "C08",
   "status": "proved",
   "theorems": [
    "H265.C08_writeUE",
    "H265.C08_writeUE_max",
    "H265.C08_ue_roundtrip",
    "H265.C08_writeSE",
    "H265.C08_writeSE_min",
    "H265.C08_se_roundtrip_exact",
    "H265.C08_se_roundtrip_counterexample",
    "H265.C08_se_roundtrip_below"
   ],
   "note": "Exact for every int32 value; the signed round trip is the identity below 2^30 only, the counterexample is proved."
  },
  {
   "property": "C09",
   "status": "proved",
   "theorems": [
    "H265.C09_writeNonSymmetric",
    "H265.C09_roundtrip",
    "H265.C09_readNonSymmetric_sound",
    "H265.C09_prefix_free",
    "H265.C09_limits"
   ],
   "note": ""
  },
  {
   "property": "C10",
   "status": "proved",
   "theorems": [
    "H265.C10_unescape_escape",
    "H265.C10_escape_safe"
   ],
   "note": ""
  },
  {
   "property": "C11",
   "status": "proved",
   "theorems": [
    "H265.C11_unescape_decomposition",
    "H265.C11_unescape_bounds"
   ],
   "note": ""
  },
  {
   "property": "C12",
   "status": "proved",
   "theorems": [
    "H265.C12_find_sound"
   ],
   "note": ""
  },
  {
   "property": "C13",
   "status": "proved",
   "theorems": [
    "H265.C13_find_complete",
    "H265.C13_split_annexB",
    "H265.C13_final_start_code_ignored"
   ],
   "note": ""
  },
  {
   "property": "C14",
   "status": "proved",
   "theorems": [
    "H265.C14_explicit_framing",
    "H265.C14_split",
    "H265.C14_wrap_hangs"
   ],
   "note": "Below 4 GiB; at or above it the code's 32-bit offset wraps (C14_wrap_hangs)."
  },
  {
   "property": "C15",
   "status": "proved",
   "theorems": [
    "H265.C15_length_framing",
    "H265.C15_units",
    "H265.C15_no_length",
    "H265.C15_safe",
    "H265.C15_stored_length_is_field_width",
    "H265.C15_eight_bytes_unsafe"
   ],
   "note": "Length fields of 0 to 7 bytes; the 8-byte failure and the wrong stored length are proved as counterexamples."
  },
  {
   "property": "C16",
   "status": "proved",
   "theorems": [
    "H265.C16_checksum",
    "H265.C16_zero_padding",
    "H265.C16_unaligned_is_undefined"
   ],
   "note": ""
  },
  {
   "property": "C17",
   "status": "proved",
   "theorems": [
    "H265.C17_more_rbsp_data",
    "H265.C17_stop_bit_exists",
    "H265.C17_exact",
    "H265.C17_at_end",
    "H265.C17_trailing_zero_bytes",
    "H265.C17_only_zero_bits_left",
    "H265.C17_past_stop_bit"
   ],
   "note": ""
  },
  {
   "property": "C18",
   "status": "proved",
   "theorems": [
    "H265.C18_trailing_bits"
   ],
   "note": ""
  },
  {
   "property": "C19",
   "status": "proved",
   "theorems": [
    "H265.C19_header_inverts",
    "H265.C19_header_total",
    "H265.C19_header_bytes",
    "H265.C19_header_short",
    "H265.C19_aud"
   ],
   "note": ""
  },
  {
   "property": "C20",
   "status": "proved",
   "theorems": [
    "H265.C20_type_classes",
    "H265.C20_slice_header_types"
   ],
   "note": ""
  },
  {
   "property": "C21",
   "status": "proved",
   "theorems": [
    "H265.C21_fresh_state",
    "H265.C21_fresh_safe",
    "H265.C21_length_fresh_state",
    "H265.C21_length_fresh_safe",
    "H265.C21_latest",
    "H265.C21_latest_from_empty",
    "H265.C21_payload",
    "H265.C21_reachable_states",
    "H265.C21_nal_unit",
    "H265.C21_bitstream",
    "H265.C21_length_stream",
    "H265.C21_store_vps",
    "H265.C21_store_sps",
    "H265.C21_store_pps"
   ],
   "note": ""
  },
  {
   "property": "C22",
   "status": "proved",
   "theorems": [
    "H265.C22_state_unchanged",
    "H265.C22_only_own_entry",
    "H265.C22_nal_unit",
    "H265.C22_dropped_iff"
   ],
   "note": ""
  },
  {
   "property": "C23",
   "status": "proved",
   "theorems": [
    "H265.C23_slice_needs_parameter_sets",
    "H265.C23_slice_rejected",
    "H265.C23_nal_unit",
    "H265.C23_annexB",
    "H265.C23_length_stream"
   ],
   "note": ""
  },
  {
   "property": "C24",
   "status": "proved",
   "theorems": [
    "H265.C24_slice_depends_on_own_parameter_sets"
   ],
   "note": ""
  },
  {
   "property": "C25",
   "status": "proved",
   "theorems": [
    "H265.C25_sequential",
    "H265.C25_annexB",
    "H265.C25_cut",
    "H265.C25_cut_needs_nonzero"
   ],
   "note": ""
  },
  {
   "property": "C26",
   "status": "proved",
   "theorems": [
    "H265.C26_sps_limits"
   ],
   "note": ""
  },
  {
   "property": "C27",
   "status": "proved",
   "theorems": [
    "H265.C27_sps_inverts",
    "H265.C27_sps_roundtrip_bytes",
    "H265.C27_sps_prefix_free"
   ],
   "note": ""
  },
  {
   "property": "C28",
   "status": "proved",
   "theorems": [
    "H265.C28_vps_inverts",
    "H265.C28_vps_roundtrip_bytes",
    "H265.C28_vps_limits",
    "H265.C28_cprms_counterexample",
    "H265.C28_cprms_ue_counterexample",
    "H265.C28_only_last_hrd_kept"
   ],
   "note": ""
  },
  {
   "property": "C29",
   "status": "proved",
   "theorems": [
    "H265.C29_pps_sound",
    "H265.C29_pps_accepts",
    "H265.C29_pps_exact",
    "H265.C29_pps_roundtrip_bytes",
    "H265.C29_pps_safe",
    "H265.C29_pps_limits",
    "H265.C29_multilayer_lost",
    "H265.C29_scc_chroma_depth_counterexample"
   ],
   "note": ""
  },
  {
   "property": "C30",
   "status": "proved",
   "theorems": [
    "H265.C30_vui_inverts"
   ],
   "note": ""
  },
  {
   "property": "C31",
   "status": "proved",
   "theorems": [
    "H265.C31_hrd_inverts",
    "H265.C31_sub_layer_hrd_inverts",
    "H265.C31_hrd_lengths",
    "H265.C31_standard_sub_layer",
    "H265.C31_fixed_pic_rate_counterexample"
   ],
   "note": ""
  },
  {
   "property": "C32",
   "status": "proved",
   "theorems": [
    "H265.C32_profile_info_inverts",
    "H265.C32_profile_info_88_bits",
    "H265.C32_profile_info_total",
    "H265.C32_profile_type",
    "H265.C32_profile_tier_level_inverts"
   ],
   "note": ""
  },
  {
   "property": "C33",
   "status": "proved",
   "theorems": [
    "H265.C33_set_inverts",
    "H265.C33_sets_inverts",
    "H265.C33_set_sizes",
    "H265.C33_slice_set",
    "H265.C33_derived_sets",
    "H265.C33_derivation_fits",
    "H265.C33_overflow_counterexample"
   ],
   "note": ""
  },
  {
   "property": "C34",
   "status": "proved",
   "theorems": [
    "H265.C34_scaling_inverts",
    "H265.C34_scaling_tables",
    "H265.C34_scaling_table_contents",
    "H265.C34_coefficient_recurrence",
    "H265.C34_overflow_counterexample"
   ],
   "note": ""
  },
  {
   "property": "C35",
   "status": "proved",
   "theorems": [
    "H265.C35_pred_weight_table_inverts",
    "H265.C35_pred_weight_table_counts"
   ],
   "note": "List 0 only: the code does not read the weights of list 1."
  },
  {
   "property": "C36",
   "status": "proved",
   "theorems": [
    "H265.C36_slice_sound",
    "H265.C36_slice_accepts",
    "H265.C36_slice_safe",
    "H265.C36_slice_limits"
   ],
   "note": ""
  },
  {
   "property": "C37",
   "status": "proved",
   "theorems": [
    "H265.C37_short",
    "H265.C37_dispatch",
    "H265.C37_single",
    "H265.C37_reserved",
    "H265.C37_steps"
   ],
   "note": ""
  },
  {
   "property": "C38",
   "status": "proved",
   "theorems": [
    "H265.C38_sound",
    "H265.C38_complete",
    "H265.C38_packet_sound",
    "H265.C38_packet_complete",
    "H265.C38_whole_units",
    "H265.C38_vps_delimited",
    "H265.C38_sps_delimited",
    "H265.C38_pps_delimited",
    "H265.C38_aud_delimited",
    "H265.C38_escaped_last_unit_rejected",
    "H265.C38_sizes_not_enforced"
   ],
   "note": "The announced size is only compared with the rest of the packet; the two limits of the code are proved as counterexamples."
  },
  {
   "property": "C39",
   "status": "proved",
   "theorems": [
    "H265.C39_sound",
    "H265.C39_not_start",
    "H265.C39_short",
    "H265.C39_start"
   ],
   "note": ""
  },
  {
   "property": "C40",
   "status": "proved",
   "theorems": [
    "H265.C40_sei_rejects",
    "H265.C40_sei_sound",
    "H265.C40_sei_accepts",
    "H265.C40_sei_safe",
    "H265.C40_sei_alloc",
    "H265.C40_sei_raw_size",
    "H265.C40_sei_unknown_bytes"
   ],
   "note": "Model of all payload parsers of h265_sei_parser.cc; only one SEI message per NAL unit is parsed by the code."
  },
  {
   "property": "C41",
   "status": "proved",
   "theorems": [
    "H265.C41_internal",
    "H265.C41_internal_other",
    "H265.C41_stream",
    "H265.C41_count",
    "H265.C41_own_pps",
    "H265.C41_safe",
    "H265.C41_rtp",
    "H265.C41_rtp_units",
    "H265.C41_rtp_safe",
    "H265.C41_empty_ap_oob",
    "H265.C41_dependent_slice",
    "H265.C41_later_pps_counterexample",
    "H265.C41_overflow_counterexample"
   ],
   "note": "C41_own_pps: the slice's own PPS when no later PPS re-uses its id; the other cases are proved counterexamples."
  },
  {
   "property": "C42",
   "status": "proved",
   "theorems": [
    "H265.C42_resolution",
    "H265.C42_pic_size_in_ctbs",
    "H265.C42_pic_size_in_min_cbs",
    "H265.C42_nonpositive_resolution"
   ],
   "note": ""
  },
  {
   "property": "C43",
   "status": "proved",
   "theorems": [
    "H265.C43_sound",
    "H265.C43_complete",
    "H265.C43_null_iff",
    "H265.C43_counts",
    "H265.C43_steps",
    "H265.C43_safe",
    "H265.C43_null_entry"
   ],
   "note": ""
  },
  {
   "property": "C44",
   "status": "proved",
   "theorems": [
    "H265.C44_payload_safe",
    "H265.C44_nal_unit_safe",
    "H265.C44_bitstream_safe",
    "H265.C15_safe",
    "H265.C44_rtp_safe",
    "H265.C43_safe"
   ],
   "note": "Inputs below 4 GiB (the reader asserts above)."
  },
  {
   "property": "C45",
   "status": "proved",
   "theorems": [
    "H265.C45_nal_unit",
    "H265.C45_bitstream",
    "H265.C45_length_stream",
    "H265.C45_rtp",
    "H265.C45_config_box",
    "H265.C45_vps",
    "H265.C45_sps",
    "H265.C45_pps",
    "H265.C45_aud",
    "H265.C45_sei",
    "H265.C45_slice",
    "H265.C45_nal_unit_terminates",
    "H265.C45_bitstream_terminates",
    "H265.C45_length_stream_terminates",
    "H265.C45_rtp_terminates",
    "H265.C45_config_box_terminates"
   ],
   "note": "Counts every stored value, so also every list element. Termination for inputs below 4 GiB."
  },
  {
   "property": "C46",
   "status": "proved",
   "theorems": [
    "H265.C46_position_independent",
    "H265.C46_ok",
    "H265.C46_prefix_irrelevant"
   ],
   "note": ""
  },
  {
   "property": "C47",
   "status": "proved",
   "theorems": [
    "H265.C47_write_step",
    "H265.C47_read_step",
    "H265.C47_write_sequence",
    "H265.C47_read_sequence",
    "H265.C47_roundtrip",
    "H265.C47_signed_limit"
   ],
   "note": "Signed values below 2^30; the limit is shown necessary."
  },
  {
   "property": "C48",
   "status": "proved",
   "theorems": [
    "H265.Std.C48_vps",
    "H265.Std.C48_sps",
    "H265.Std.C48_pps",
    "H265.Std.C48_slice",
    "H265.Std.C48_nal_unit",
    "H265.Std.C48_all",
    "H265.Std.C48_annexB",
    "H265.Std.C48_length_prefixed",
    "H265.Std.C48_lists_modification_not_read",
    "H265.Std.C48_default_active_not_inferred",
    "H265.Std.C48_weights_need_sao",
    "H265.Std.C48_list1_weights_not_read",
    "H265.Std.C48_deblocking_not_inferred",
    "H265.Std.C48_entry_points_rejected",
    "H265.Std.C48_sub_layer_level_not_read",
    "H265.Std.C48_pps_extensions_rejected",
    "H265.Std.C48_phases_excluded",
    "H265.Std.C48_colour_mapping_lost",
    "H265.Std.C48_display_window_limited",
    "H265.Std.exNals_sent",
    "H265.C31_fixed_pic_rate_counterexample",
    "H265.C28_cprms_counterexample",
    "H265.C29_scc_chroma_depth_counterexample",
    "H265.C29_multilayer_lost"
   ],
   "note": "The supported subset is Spec/StdOk.lean; each exclusion has a counterexample. The syntax tables and value ranges of the standard were transcribed by hand (Spec/Std.lean, Spec/StdConf.lean)."
  },
  {
   "property": "C49",
   "status": "proved",
   "theorems": [
    "H265.C49_nal_unit",
    "H265.C49_nal_unit_same_options",
    "H265.C49_bitstream",
    "H265.C49_bitstream_fresh",
    "H265.C49_length_stream",
    "H265.C49_length_stream_fresh",
    "H265.C49_configuration_box",
    "H265.C49_rtp",
    "H265.C49_aud_null",
    "H265.C49_pps_null",
    "H265.C49_options_forgotten",
    "H265.C49_box_null"
   ],
   "note": "Length fields of at most 7 bytes; RTP payloads below 4 GiB."
  },
  {
   "property": "C50",
   "status": "proved",
   "theorems": [
    "H265.C50_nal_unit",
    "H265.C50_bitstream",
    "H265.C50_configuration_box",
    "H265.C50_rtp"
   ],
   "note": "GoodLayout: balanced braces, one line at level -1, two blanks per level and open brace at levels from 0 on, same words at every level"
  },
  {
   "property": "C51",
   "status": "proved",
   "theorems": [
    "H265.C51_nal_unit",
    "H265.C51_bitstream",
    "H265.C51_bitstream_fresh",
    "H265.C51_length_stream",
    "H265.C51_configuration_box",
    "H265.C51_rtp"
   ],
   "note": "The table records what the library prints; DESIGN.md lists elements it omits or prints twice."
  },
  {
   "property": "C52",
   "status": "proved",
   "theorems": [
    "H265.C52_stream",
    "H265.C52_length_stream",
    "H265.C52_lengths",
    "H265.C52_frames",
    "H265.C52_nine_fields",
    "H265.C52_null",
    "H265.C52_length_wrong"
   ],
   "note": ""
  },
  {
   "property": "C53",
   "status": "proved",
   "theorems": [
    "H265.C53_stream",
    "H265.C53_length_stream",
    "H265.C53_contents",
    "H265.C53_main_stream",
    "H265.C53_main_box",
    "H265.C53_main_no_box",
    "H265.C53_safe",
    "H265.C53_contents_cut"
   ],
   "note": ""
  },
  {
   "property": "C54",
   "status": "proved",
   "theorems": [
    "H265.C54_rejected",
    "H265.C54_last_wins",
    "H265.C54_numbers",
    "H265.C54_effective",
    "H265.C54_type_name",
    "H265.C54_type_names_distinct",
    "H265.C54_profile_names_distinct"
   ],
   "note": ""
  },
  {
   "property": "C55",
   "status": "proved",
   "theorems": [
    "H265.C55_entry",
    "H265.C55_escaped",
    "H265.C55_too_long",
    "H265.C55_nal_unit_header",
    "H265.C55_profile_info",
    "H265.C55_profile_tier_level",
    "H265.C55_hrd_parameters",
    "H265.C55_sub_layer_hrd_parameters",
    "H265.C55_vui_parameters",
    "H265.C55_sps_range_extension",
    "H265.C55_sps_multilayer_extension",
    "H265.C55_sps_3d_extension",
    "H265.C55_sps_scc_extension",
    "H265.C55_st_ref_pic_set",
    "H265.C55_pps_multilayer_extension",
    "H265.C55_pps_scc_extension",
    "H265.C55_pred_weight_table",
    "H265.C55_scaling_list_data",
    "H265.C55_aud",
    "H265.C55_vps",
    "H265.C55_sps",
    "H265.C55_pps",
    "H265.C55_sei",
    "H265.C55_slice_layer",
    "H265.C55_slice_accepts",
    "H265.C55_slice_safe",
    "H265.C55_payload_safe",
    "H265.C55_payload_total",
    "H265.C55_rtp_single_safe",
    "H265.C55_rtp_ap_safe",
    "H265.C55_rtp_fu_safe"
   ],
   "note": ""
  },
  {
   "property": "C56",
   "status": "proved",
   "theorems": [
    "H265.C56_clean",
    "H265.C56_overflow",
    "H265.C56_overflow_reached",
    "H265.C56_mock_state",
    "H265.C56_slice_float",
    "H265.C56_mock_reached"
   ],
   "note": ""
  },
  {
   "property": "C57",
   "status": "proved",
   "theorems": [
    "H265.C57_fdump",
    "H265.C57_fdump_all",
    "H265.C57_fdump_two",
    "H265.C57_fdump_nothing",
    "H265.C57_printable",
    "H265.C57_nal",
    "H265.C57_read_back",
    "H265.C57_in_dump"
   ],
   "note": "Character arrays are modelled with uninitialised characters and out-of-range writes; the text is specified by digit values (Spec/Printable.lean), not by a formatting function."
  },
  {
   "property": "C58",
   "status": "proved",
   "theorems": [
    "H265.C58_rounding",
    "H265.C58_ties_to_even",
    "H265.C58_close",
    "H265.C58_nearest",
    "H265.C58_no_ticks",
    "H265.C58_parsed"
   ],
   "note": "binary32 arithmetic (round to nearest even) is modelled exactly; overflow and subnormal numbers cannot occur for 32 bit operands."
  },
  {
   "property": "C59",
   "status": "proved",
   "theorems": [
    "H265.C59_drop_annexB",
    "H265.C59_drop_length"
   ],
   "note": "Equality is up to the offset and length of the NAL units, which are the places in the stream (C13, C15)."
  },
  {
   "property": "C60",
   "status": "proved",
   "theorems": [
    "H265.C60_nal_unit",
    "H265.C60_self_contained",
    "H265.C60_self_contained_length",
    "H265.C60_needs_parameter_sets"
   ],
   "note": ""
  },
  {
   "property": "C61",
   "status": "proved",
   "theorems": [
    "H265.C61_again",
    "H265.C61_resend_annexB",
    "H265.C61_repeat_annexB"
   ],
   "note": "For Annex B streams and single NAL units."
  },
  {
   "property": "C62",
   "status": "proved",
   "theorems": [
    "H265.C62_framing",
    "H265.C62_configuration_box",
    "H265.C62_rtp_single"
   ],
   "note": "Aggregation and fragmentation packets are C38 and C39."
  },
  {
   "property": "C63",
   "status": "proved",
   "theorems": [
    "H265.C63_nal_unit",
    "H265.C63_bitstream",
    "H265.C63_length_stream"
   ],
   "note": ""
  },
  {
   "property": "C64",
   "status": "proved",
   "theorems": [
    "H265.C64_equal_iff",
    "H265.C64_one_byte",
    "H265.C64_one_word",
    "H265.C64_order_not_detected",
    "H265.C64_nal_unit"
   ],
   "note": ""
  },
  {
   "property": "C65",
   "status": "proved",
   "theorems": [
    "H265.C65_same_start",
    "H265.C65_truncated",
    "H265.C65_slice_data",
    "H265.C65_first_fragment"
   ],
   "note": ""
  },
  {
   "property": "C66",
   "status": "proved",
   "theorems": [
    "H265.C66_more_bytes",
    "H265.C66_zero_bytes",
    "H265.C66_extension_data"
   ],
   "note": ""
  },
  {
   "property": "C67",
   "status": "proved",
   "theorems": [
    "H265.C67_truncated",
    "H265.C67_sei",
    "H265.C67_pps_multilayer"
   ],
   "note": ""
  },
  {
   "property": "C68",
   "status": "proved",
   "theorems": [
    "H265.C68_nal_unit",
    "H265.C68_bitstream",
    "H265.C68_nalu_length",
    "H265.C68_configuration_box",
    "H265.C68_rtp",
    "H265.C68_rtp_any",
    "H265.C68_aggregation_packet_is_quadratic",
    "H265.C68_ap_example"
   ],
   "note": ""
  },
  {
   "property": "C69",
   "status": "proved",
   "theorems": [
    "H265.C69_nal_unit",
    "H265.C69_bitstream",
    "H265.C69_bitstream_fresh",
    "H265.C69_length_stream",
    "H265.C69_configuration_box",
    "H265.C69_rtp",
    "H265.C69_pps_hidden"
   ],
   "note": ""
  },
  {
   "property": "C70",
   "status": "proved",
   "theorems": [
    "H265.C70_unit",
    "H265.C70_unit_bytes",
    "H265.C70_stable",
    "H265.C70_bits",
    "H265.C70_same_bits",
    "H265.C70_same_bytes",
    "H265.C70_annexB",
    "H265.C70_length_prefixed"
   ],
   "note": ""
  },
  {
   "property": "C71",
   "status": "proved",
   "theorems": [
    "H265.C71_annexB",
    "H265.C71_length_prefixed"
   ],
   "note": ""
  },
  {
   "property": "C72",
   "status": "proved",
   "theorems": [
    "H265.C72_state",
    "H265.C72_loss",
    "H265.C72_by_header",
    "H265.C72_loss_by_header",
    "H265.C72_independent",
    "H265.C72_reorder"
   ],
   "note": ""
  },
  {
   "property": "C73",
   "status": "proved",
   "theorems": [
    "H265.C73_exchange",
    "H265.C73_reorder",
    "H265.C73_any_order",
    "H265.C73_annexB",
    "H265.C73_reports"
   ],
   "note": ""
  },
  {
   "property": "C74",
   "status": "proved",
   "theorems": [
    "H265.C74_seen",
    "H265.C74_numbers",
    "H265.C74_settings",
    "H265.C74_accepted",
    "H265.C74_ends",
    "H265.C74_refused",
    "H265.C74_examples"
   ],
   "note": ""
  },
  {
   "property": "C75",
   "status": "proved",
   "theorems": [
    "H265.C75_read",
    "H265.C75_success",
    "H265.C75_failure",
    "H265.C75_undefined",
    "H265.C75_safe",
    "H265.C75_stdin",
    "H265.C75_empty",
    "H265.C75_quiet",
    "H265.C75_debug"
   ],
   "note": ""
  },
  {
   "property": "C76",
   "status": "proved",
   "theorems": [
    "H265.Std.C76_lines",
    "H265.Std.C76_table",
    "H265.Std.C76_length_lines",
    "H265.Std.C76_length_table",
    "H265.Std.C76_show_file",
    "H265.Std.C76_show_table",
    "H265.Std.C76_mp4"
   ],
   "note": ""
  },
  {
   "property": "C77",
   "status": "proved",
   "theorems": [
    "H265.Std.C77_session",
    "H265.Std.C77_single",
    "H265.Std.C77_first_fragment",
    "H265.Std.C77_later_fragments",
    "H265.Std.C77_aggregate",
    "H265.Std.C77_aggregate_null",
    "H265.Std.C77_last_escaped"
   ],
   "note": ""
  },
  {
   "property": "C78",
   "status": "proved",
   "theorems": [
    "H265.Std.C78_annexB",
    "H265.Std.C78_length_prefixed",
    "H265.Std.C78_rtp"
   ],
   "note": ""
  },
  {
   "property": "C79",
   "status": "proved",
   "theorems": [
    "H265.Std.C79_stream",
    "H265.Std.C79_range",
    "H265.Std.C79_rtp"
   ],
   "note": ""
  },
  {
   "property": "C80",
   "status": "proved",
   "theorems": [
    "H265.Std.C80_track",
    "H265.Std.C80_random_access"
   ],
   "note": ""
  },
  {
   "property": "C81",
   "status": "proved",
   "theorems": [
    "H265.C81_resync",
    "H265.C81_random_access",
    "H265.C81_always",
    "H265.C81_conforming",
    "H265.C81_island"
   ],
   "note": ""
  },
  {
   "property": "C82",
   "status": "proved",
   "theorems": [
    "H265.C82_shared_state",
    "H265.C82_schedules",
    "H265.C82_conforming"
   ],
   "note": ""
  },
  {
   "property": "C83",
   "status": "proved",
   "theorems": [
    "H265.Std.C83_slice",
    "H265.Std.C83_nal_unit",
    "H265.Std.C83_annexB",
    "H265.Std.C83_length_prefixed"
   ],
   "note": ""
  },
  {
   "property": "C84",
   "status": "proved",
   "theorems": [
    "H265.Std.C84_sps",
    "H265.Std.C84_vps",
    "H265.Std.C84_pps",
    "H265.Std.C84_conforming",
    "H265.Std.C84_annexB",
    "H265.Std.C84_length_prefixed"
   ],
   "note": ""
  },
  {
   "property": "C85",
   "status": "proved",
   "theorems": [
    "H265.Std.C85_sps",
    "H265.Std.C85_nal_unit",
    "H265.Std.C85_annexB"
   ],
   "note": ""
  },
  {
   "property": "C86",
   "status": "proved",
   "theorems": [
    "H265.C86_pieces",
    "H265.C86_prompt"
   ],
   "note": ""
  },
  {
   "property": "C87",
   "status": "proved",
   "theorems": [
    "H265.C87_rounding",
    "H265.C87_chroma",
    "H265.C87_candela",
    "H265.C87_ceil",
    "H265.C87_sps",
    "H265.C87_log2"
   ],
   "note": ""
  },
  {
   "property": "C88",
   "status": "proved",
   "theorems": [
    "H265.C88_pieces",
    "H265.C88_prompt"
   ],
   "note": ""
  },
  {
   "property": "C89",
   "status": "proved",
   "theorems": [
    "H265.C89_nal_unit",
    "H265.C89_rtp",
    "H265.C89_bitstream",
    "H265.C89_length_stream",
    "H265.C89_scan",
    "H265.C89_limit"
   ],
   "note": ""
  },
  {
   "property": "C90",
   "status": "proved",
   "theorems": [
    "H265.C90_bounded",
    "H265.C90_standard",
    "H265.C90_unbounded"
   ],
   "note": ""
  },
  {
   "property": "C91",
   "status": "proved",
   "theorems": [
    "H265.C91_length_fields",
    "H265.C91_same_units",
    "H265.C91_start_codes",
    "H265.C91_packets",
    "H265.C91_not_back",
    "H265.C91_empty_units"
   ],
   "note": ""
  },
  {
   "property": "C92",
   "status": "proved",
   "theorems": [
    "H265.C92_one",
    "H265.C92_session",
    "H265.C92_complete",
    "H265.C92_stream",
    "H265.C92_cut_parameter_set",
    "H265.C92_cut_slice"
   ],
   "note": ""
  },
  {
   "property": "C93",
   "status": "proved",
   "theorems": [
    "H265.C93_damage",
    "H265.C93_no_sets"
   ],
   "note": ""
  },
  {
   "property": "C94",
   "status": "proved",
   "theorems": [
    "H265.C94_restart",
    "H265.C94_goes_on",
    "H265.C94_journal",
    "H265.C94_finishes"
   ],
   "note": ""
  },
  {
   "property": "C95",
   "status": "proved",
   "theorems": [
    "H265.C95_byte_stream",
    "H265.C95_file"
   ],
   "note": ""
  },
  {
   "property": "C96",
   "status": "proved",
   "theorems": [
    "H265.C96_parallel",
    "H265.C96_goes_on"
   ],
   "note": ""
  },
  {
   "property": "C97",
   "status": "proved",
   "theorems": [
    "H265.C97_byte_stream",
    "H265.C97_length_fields",
    "H265.C97_packets",
    "H265.C97_shared_ids"
   ],
   "note": ""
  },
  {
   "property": "C98",
   "status": "proved",
   "theorems": [
    "H265.C98_byte_streams",
    "H265.C98_length_fields",
    "H265.C98_packets"
   ],
   "note": ""
  }
 ]
}