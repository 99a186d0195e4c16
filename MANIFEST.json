{
 "claims": [
  {
   "property": "C01",
   "status": "proved",
   "theorems": [
    "Verif.Props.C01_decode",
    "Verif.Props.spec_longest",
    "Verif.Props.spec_tokens_cover"
   ],
   "note": "one flushed call; table decoders, any number of codecs, any tame rest of the pipeline"
  },
  {
   "property": "C02",
   "status": "partial",
   "theorems": [
    "Verif.Props.C02_chunking_partial",
    "Verif.Props.C02_chunking_violated"
   ],
   "note": "true for inputs without undecodable bytes; the code loses data when an undecodable byte starts a later chunk (libbsdconv.c:665-674)"
  },
  {
   "property": "C03",
   "status": "proved",
   "theorems": [
    "Verif.Props.C03_encode"
   ],
   "note": "table encoders whose last table has one-symbol patterns (all shipped ones), or input without unencodable symbols"
  },
  {
   "property": "C04",
   "status": "proved",
   "theorems": [
    "Verif.Props.C04_rewrite"
   ],
   "note": ""
  },
  {
   "property": "C05",
   "status": "proved",
   "theorems": [
    "Verif.Props.C05_pipeline",
    "Verif.Props.C05_outcome_unique"
   ],
   "note": "single chunk, or no undecodable byte"
  },
  {
   "property": "C06",
   "status": "proved",
   "theorems": [
    "Verif.Props.C06_terminates",
    "Verif.Props.C06_next",
    "Verif.Props.C06_tables",
    "Verif.Props.C06_transcode",
    "Verif.Props.C06_chain",
    "Verif.Props.C06_utf8"
   ],
   "note": "all codecs that are Proper (Spec/Progress.lean), no FROM phase directly after a FROM phase"
  },
  {
   "property": "C07",
   "status": "partial",
   "theorems": [
    "Verif.Props.C07_reusable",
    "Verif.Props.C07_history",
    "Verif.Props.C07_compiled",
    "Verif.Props.C07_encoder",
    "Verif.Props.C07_utf8",
    "Verif.Props.C07_utf16",
    "Verif.Props.C07_utf32",
    "Verif.Props.C07_escape",
    "Verif.Props.C07_entity",
    "Verif.Props.C07_gb18030",
    "Verif.Props.C07_hangul",
    "Verif.Props.C07_inter",
    "Verif.Props.C07_nf_order_violated",
    "Verif.Props.C07_cp950_uda_violated"
   ],
   "note": "proved for every conversion of codecs whose cbinit resets what they look at, which is shown for table codecs and the stateful codecs modelled that have a cbinit; false for the codecs without one (witnesses for _NF-ORDER and CP950-UDA)"
  },
  {
   "property": "C08",
   "status": "proved",
   "theorems": [
    "Verif.Props.C08_modes",
    "Verif.Props.C08_exactly_once"
   ],
   "note": ""
  },
  {
   "property": "C09",
   "status": "proved",
   "theorems": [
    "Verif.Props.C09_premalloced",
    "Verif.Props.C09_query",
    "Verif.Props.C09_query_reports_pending"
   ],
   "note": ""
  },
  {
   "property": "C10",
   "status": "partial",
   "theorems": [
    "Verif.Props.C10_pass_transfers",
    "Verif.Props.C10_chain_violated"
   ],
   "note": "hand-over proved; chains handed to an instance whose first phase is not FROM are only partly consumed per call (data_tail), witness proved"
  },
  {
   "property": "C11",
   "status": "proved",
   "theorems": [
    "Verif.Props.C11_pass_ownership",
    "Verif.Props.C11_pass_nodes"
   ],
   "note": ""
  },
  {
   "property": "C12",
   "status": "proved",
   "theorems": [
    "Verif.Props.C12_flush_settles"
   ],
   "note": "all codecs, with or without callbacks"
  },
  {
   "property": "C13",
   "status": "proved",
   "theorems": [
    "Verif.Props.C13_accepts",
    "Verif.Props.C13_classification",
    "Verif.Props.C13_surrogate",
    "Verif.Props.C13_first_byte"
   ],
   "note": "callback level: the decoder's loop on any byte sequence from its initial state"
  },
  {
   "property": "C14",
   "status": "proved",
   "theorems": [
    "Verif.Props.C14_encode",
    "Verif.Props.C14_refuses",
    "Verif.Props.C14_round_trip",
    "Verif.Props.C14_round_trip_bytes"
   ],
   "note": ""
  },
  {
   "property": "C15",
   "status": "proved",
   "theorems": [
    "Verif.Props.C15_classification",
    "Verif.Props.C15_accepts_iff",
    "Verif.Props.C15_default_unchanged"
   ],
   "note": "all combinations of loose, nul, overlong and super; with cesu, sequences accepted by default are unchanged"
  },
  {
   "property": "C16",
   "status": "partial",
   "theorems": [
    "Verif.Props.C16_lead",
    "Verif.Props.C16_pair",
    "Verif.Props.C16_pair_partial",
    "Verif.Props.C16_violated",
    "Verif.Props.C16_flush",
    "Verif.Props.C16_flush_none"
   ],
   "note": "the code ors 0x10000 instead of adding it: right exactly when bit 16 of the offset is clear"
  },
  {
   "property": "C17",
   "status": "partial",
   "theorems": [
    "Verif.Props.C17_truncated_violated",
    "Verif.Props.C17_residue_violated"
   ],
   "note": "false: the engine's error path leaves the decoder's private state as it was (witnesses)"
  },
  {
   "property": "C18",
   "status": "proved",
   "theorems": [
    "Verif.Props.C18_encode",
    "Verif.Props.C18_decode",
    "Verif.Props.C18_decode_form",
    "Verif.Props.C18_round_trip"
   ],
   "note": "callback level; the decoder is described on every byte sequence"
  },
  {
   "property": "C19",
   "status": "partial",
   "theorems": [
    "Verif.Props.C19_injective_partial",
    "Verif.Props.C19_violated"
   ],
   "note": "injective up to U+10FFFF; above, the code wraps and truncates (witness)"
  },
  {
   "property": "C20",
   "status": "partial",
   "theorems": [
    "Verif.Props.C20_encode",
    "Verif.Props.C20_fits",
    "Verif.Props.C20_decode_partial",
    "Verif.Props.C20_round_trip_partial",
    "Verif.Props.C20_zero_violated",
    "Verif.Props.C20_overrun_violated"
   ],
   "note": "all numbers but zero; zero decodes to a datum without payload (witness)"
  },
  {
   "property": "C21",
   "status": "proved",
   "theorems": [
    "Verif.Props.C21_bmp",
    "Verif.Props.C21_refuses",
    "Verif.Props.C21_supplementary",
    "Verif.Props.C21_two_bytes"
   ],
   "note": ""
  },
  {
   "property": "C22",
   "status": "partial",
   "theorems": [
    "Verif.Props.C22_decode",
    "Verif.Props.C22_only_partial",
    "Verif.Props.C22_reject_partial",
    "Verif.Props.C22_octal_violated",
    "Verif.Props.C22_roundtrip",
    "Verif.Props.C22_takes",
    "Verif.Props.C22_total"
   ],
   "note": "the octal range check compares with decimal 377 (witness); percent escapes proved in full"
  },
  {
   "property": "C23",
   "status": "partial",
   "theorems": [
    "Verif.Props.C23_decode",
    "Verif.Props.C23_only",
    "Verif.Props.C23_roundtrip_partial",
    "Verif.Props.C23_roundtrip_violated",
    "Verif.Props.C22_takes",
    "Verif.Props.C22_total"
   ],
   "note": "code points of one or two bytes; longer ones are printed with more than four digits and not read back (witness)"
  },
  {
   "property": "C24",
   "status": "partial",
   "theorems": [
    "Verif.Props.C24_decode_partial",
    "Verif.Props.C24_reject",
    "Verif.Props.C24_violated"
   ],
   "note": "values below 2^32 and non-zero; larger ones wrap, an empty entity decodes (witness)"
  },
  {
   "property": "C25",
   "status": "partial",
   "theorems": [
    "Verif.Props.C25_read_partial",
    "Verif.Props.C25_dump",
    "Verif.Props.C25_roundtrip_partial",
    "Verif.Props.C25_one",
    "Verif.Props.C25_merged_violated",
    "Verif.Props.C25_separator_violated",
    "Verif.Props.C25_double_free_violated"
   ],
   "note": "engine-level, any chunking: every sequence of data comes back as one datum, the data joined: right for a single datum, proved wrong for every sequence of two or more; separators count as errors and re-initialising frees memory twice (witnesses)"
  },
  {
   "property": "C26",
   "status": "partial",
   "theorems": [
    "Verif.Props.C26_encode",
    "Verif.Props.C26_refuses",
    "Verif.Props.C26_total",
    "Verif.Props.C26_decode",
    "Verif.Props.C26_rejects",
    "Verif.Props.C26_round_trip",
    "Verif.Props.C26_reencode_partial",
    "Verif.Props.C26_violated"
   ],
   "note": "callback level; the decoder accepts bytes outside the legal ranges, so the converse round trip holds for legal bytes only (witness)"
  },
  {
   "property": "C27",
   "status": "partial",
   "theorems": [
    "Verif.Props.C27_decode",
    "Verif.Props.C27_injective_partial",
    "Verif.Props.C27_violated"
   ],
   "note": "legal trail bytes; the decoder also accepts illegal ones, which collide (witness)"
  },
  {
   "property": "C28",
   "status": "proved",
   "theorems": [
    "Verif.Props.C28_decompose",
    "Verif.Props.C28_compose",
    "Verif.Props.C28_inverse",
    "Verif.Props.C28_equivalent",
    "Verif.Props.C28_round_trip"
   ],
   "note": "in any conversion; the inverse holds for every text without conjoining jamo, and composition never changes what a text decomposes to"
  },
  {
   "property": "C29",
   "status": "proved",
   "theorems": [
    "Verif.Props.C29_order",
    "Verif.Props.C29_permutation"
   ],
   "note": "in any conversion that starts with an empty queue, which is what every flushed conversion leaves (the missing cbinit is C07)"
  },
  {
   "property": "C30",
   "status": "partial",
   "theorems": [
    "Verif.Props.C30_compose_partial",
    "Verif.Props.C30_ordered",
    "Verif.Props.C30_inOrder",
    "Verif.Props.C30_table_starters",
    "Verif.Props.C30_table_closed",
    "Verif.Props.C30_order_compose",
    "Verif.Props.C30_blocked_violated",
    "Verif.Props.C30_double_free_violated"
   ],
   "note": "For every input _NFC only replaces a starter and a later character (no starter in between) by their composite; on data in canonical order it equals the composition algorithm of the Unicode standard (D117), given a closed table, and the table of 941 rules it comes with is closed. On data in another order it combines blocked characters (violated witness), and re-using an abandoned instance frees a datum twice (violated witness). The sub-conversion _NFC-MAP,COUNT#ERR is modelled as a partial function."
  },
  {
   "property": "C31",
   "status": "proved",
   "theorems": [
    "Verif.Props.C31_rerail",
    "Verif.Props.C31_lossless",
    "Verif.Props.isSpace_iff"
   ],
   "note": "dedicated model of the two phases sharing a record, every schedule of the phases in between, every one-to-one processing in between"
  },
  {
   "property": "C32",
   "status": "partial",
   "theorems": [
    "Verif.Props.C32_pad",
    "Verif.Props.C32_unpad_partial",
    "Verif.Props.C32_round_trip_partial",
    "Verif.Props.C32_violated"
   ],
   "note": "streams of unicode data, in any conversion; other data are dropped by UNPAD (witness)"
  },
  {
   "property": "C33",
   "status": "proved",
   "theorems": [
    "Verif.Props.C33_trim",
    "Verif.Props.C33_longest",
    "Verif.Props.trim_sub"
   ],
   "note": "in any conversion, any chunking; trim_sub discharges the sub-instance WIDTH"
  },
  {
   "property": "C34",
   "status": "proved",
   "theorems": [
    "Verif.Props.C34_count",
    "Verif.Props.C34_width",
    "Verif.Props.C34_score"
   ],
   "note": "in any conversion, any chunking; counters as unbounded numbers"
  },
  {
   "property": "C35",
   "status": "partial",
   "theorems": [
    "Verif.Props.C35_pass",
    "Verif.Props.C35_null",
    "Verif.Props.C35_insert",
    "Verif.Props.C35_raw",
    "Verif.Props.C35_to_pass",
    "Verif.Props.C35_pass_null",
    "Verif.Props.C35_filter_violated"
   ],
   "note": "all plumbing codecs in any conversion; inter PASS with a filter and no codec after it does not filter (witness)"
  },
  {
   "property": "C36",
   "status": "partial",
   "theorems": [
    "Verif.Props.C36_strings_partial",
    "Verif.Props.C36_safe",
    "Verif.Props.C36_violated"
   ],
   "note": "output proved; runs that are too short make the codec free the same data twice (witness)"
  },
  {
   "property": "C37",
   "status": "partial",
   "theorems": [
    "Verif.Props.C37_replace_partial",
    "Verif.Props.C37_single",
    "Verif.Props.C37_replaced",
    "Verif.Props.C37_unchanged",
    "Verif.Props.C37_violated"
   ],
   "note": "in any conversion, any chunking; proved when the input does not end in an unfinished occurrence or the last datum of the pattern occurs only once in it; false otherwise (witness)"
  },
  {
   "property": "C38",
   "status": "proved",
   "theorems": [
    "Verif.Props.C38_newlines",
    "Verif.Props.C38_text",
    "Verif.Props.C38_reads",
    "Verif.Props.C38_last"
   ],
   "note": "in any conversion, any chunking"
  },
  {
   "property": "C39",
   "status": "proved",
   "theorems": [
    "Verif.Props.C39_filter",
    "Verif.Props.C39_filter_other",
    "Verif.Props.C39_type",
    "Verif.Props.C39_width",
    "Verif.Props.C39_ambiguous",
    "Verif.Props.C39_ccc",
    "Verif.Props.C39_scorer"
   ],
   "note": "all tables shipped, generated from the sources"
  },
  {
   "property": "C40",
   "status": "partial",
   "theorems": [
    "Verif.Props.C40_encode_partial",
    "Verif.Props.C40_decode_partial",
    "Verif.Props.C40_balanced",
    "Verif.Props.C40_roundtrip_partial",
    "Verif.Props.C40_keeps_partial",
    "Verif.Props.C40_uncounted_violated",
    "Verif.Props.C40_mistaken_violated",
    "Verif.Props.C40_control_violated",
    "Verif.Props.C40_swallow_violated"
   ],
   "note": "engine-level, any chunking, compiled tables: proved for texts all of whose data have a code (encoding) and all of whose codes are in the table (decoding); false for data without a code after double-byte data, for U+000E/U+000F, and for malformed input (witnesses)"
  },
  {
   "property": "C41",
   "status": "proved",
   "theorems": [
    "Verif.Props.C41_map",
    "Verif.Props.C41_pointers"
   ],
   "note": ""
  },
  {
   "property": "C42",
   "status": "partial",
   "theorems": [
    "Verif.Props.C42_hash_partial",
    "Verif.Props.C42_set_has_partial",
    "Verif.Props.C42_get_violated",
    "Verif.Props.C42_del_violated",
    "Verif.Props.C42_get_returns_last"
   ],
   "note": "get of a key behind the head and del of a later key violate the claim (witnesses); the parts that hold are proved"
  },
  {
   "property": "C43",
   "status": "partial",
   "theorems": [
    "Verif.Props.C43_str2datum_partial",
    "Verif.Props.C43_str2data_partial",
    "Verif.Props.C43_odd_violated"
   ],
   "note": "odd digit counts write past the buffer (witness)"
  },
  {
   "property": "C44",
   "status": "partial",
   "theorems": [
    "Verif.Props.C44_roundtrip_partial",
    "Verif.Props.C44_violated"
   ],
   "note": "one-phase segments next to others are printed with the wrong separator (witness)"
  },
  {
   "property": "C45",
   "status": "proved",
   "theorems": [
    "Verif.Props.C45_pack_fits"
   ],
   "note": ""
  },
  {
   "property": "C46",
   "status": "partial",
   "theorems": [
    "Verif.Props.C46_insert_phase_partial",
    "Verif.Props.C46_replace_phase_partial",
    "Verif.Props.C46_insert_codec_partial",
    "Verif.Props.C46_replace_codec_partial",
    "Verif.Props.C46_replace_past_end_violated",
    "Verif.Props.C46_types_violated"
   ],
   "note": "indices in range; witnesses for positions past the end and for types that are not printed"
  },
  {
   "property": "C47",
   "status": "partial",
   "theorems": [
    "Verif.Props.C47_phase_index_partial",
    "Verif.Props.C47_codec_index_partial",
    "Verif.Props.C47_range_violated",
    "Verif.Props.C47_codec_phase_violated"
   ],
   "note": "indices below -n leave the range (witness)"
  },
  {
   "property": "C48",
   "status": "proved",
   "theorems": [
    "Verif.Props.C48_whitespace"
   ],
   "note": ""
  },
  {
   "property": "C49",
   "status": "partial",
   "theorems": [
    "Verif.Props.C49_terminates_partial",
    "Verif.Props.C49_cycle_violated"
   ],
   "note": "proved for all well-founded alias tables, the shipped tables are shown to be well-founded; cyclic tables never return (witness)"
  },
  {
   "property": "C50",
   "status": "partial",
   "theorems": [
    "Verif.Props.C50_lookup",
    "Verif.Props.C50_first",
    "Verif.Props.C50_no_clash",
    "Verif.Props.C50_represents",
    "Verif.Props.C50_size",
    "Verif.Props.C50_conversion",
    "Verif.Props.C50_shared_callback_violated",
    "Verif.Props.C50_override_violated"
   ],
   "note": "all files in which a callback rule does not meet another rule for the same string (except plain rules for strings that end there), down to the bytes of the image and up to whole conversions; clashing callback rules break it (witnesses)"
  },
  {
   "property": "C51",
   "status": "proved",
   "theorems": [
    "Verif.Props.C51_disjoint",
    "Verif.Props.C51_bytes",
    "Verif.Props.C51_states"
   ],
   "note": "disjointness for every automaton; state reading for every rule file whose image is smaller than 4 GiB"
  },
  {
   "property": "C52",
   "status": "partial",
   "theorems": [
    "Verif.Props.C52_represents",
    "Verif.Props.C52_lower_partial",
    "Verif.Props.C52_upper_violated",
    "Verif.Props.C52_all_upper_violated",
    "Verif.Props.C52_bracket_violated",
    "Verif.Props.C52_override_violated"
   ],
   "note": "holds for patterns without upper-case letters and brackets; false for the others (witnesses)"
  },
  {
   "property": "C53",
   "status": "partial",
   "theorems": [
    "Verif.Props.C53_disjoint_partial",
    "Verif.Props.C53_free_partial",
    "Verif.Props.C53_large_violated",
    "Verif.Props.C53_overlap_violated",
    "Verif.Props.C53_empty_violated"
   ],
   "note": "requests up to the pool size and non-empty blocks, all histories; larger requests overlap and empty blocks are handed to free (witnesses)"
  },
  {
   "property": "C54",
   "status": "proved",
   "theorems": [
    "Verif.Props.C54_parse_show",
    "Verif.Props.C54_show_parse"
   ],
   "note": ""
  },
  {
   "property": "C55",
   "status": "proved",
   "theorems": [
    "Verif.Props.C55_pool"
   ],
   "note": ""
  },
  {
   "property": "C56",
   "status": "partial",
   "theorems": [
    "Verif.Props.C56_encode_multi_violated"
   ],
   "note": "the property is false of the code; witness proved"
  },
  {
   "property": "C57",
   "status": "partial",
   "theorems": [
    "Verif.Props.C57_drain_partial",
    "Verif.Props.C57_drain_violated"
   ],
   "note": "false when the buffer is smaller than one output datum; proved otherwise"
  },
  {
   "property": "C58",
   "status": "partial",
   "theorems": [
    "Verif.Props.C58_unpack_bounds_violated"
   ],
   "note": "false for every string: the NULL ending the last strsep loop is written one past phase_off"
  },
  {
   "property": "C59",
   "status": "partial",
   "theorems": [
    "Verif.Props.C59_alias_args_violated"
   ],
   "note": "false: argv points into the freed description"
  },
  {
   "property": "C60",
   "status": "partial",
   "theorems": [
    "Verif.Props.C60_violated"
   ],
   "note": "false: when the four bytes arrive in one call the callback takes them and rejects (witness)"
  },
  {
   "property": "C61",
   "status": "proved",
   "theorems": [
    "Verif.Props.C61_any"
   ],
   "note": ""
  },
  {
   "property": "C62",
   "status": "partial",
   "theorems": [
    "Verif.Props.C62_violated",
    "Verif.Props.C62_compose"
   ],
   "note": "false for Hangul decomposition (witness); composition keeps other data"
  },
  {
   "property": "C63",
   "status": "proved",
   "theorems": [
    "Verif.Props.C63_through",
    "Verif.Props.C63_ascii",
    "Verif.Props.C63_transcode",
    "Verif.Props.C63_round_trip"
   ],
   "note": "through the whole engine, any chunking; U+0000 and surrogates are excluded (see C19, C20)"
  },
  {
   "property": "C64",
   "status": "proved",
   "theorems": [
    "Verif.Props.C64_roundtrip",
    "Verif.Props.decDigits_numeral",
    "Verif.Props.decDigits_head"
   ],
   "note": ""
  },
  {
   "property": "C65",
   "status": "partial",
   "theorems": [
    "Verif.Props.C65_file",
    "Verif.Props.C65_compiled",
    "Verif.Props.C65_empty_line_violated",
    "Verif.Props.C65_no_data_violated",
    "Verif.Props.C65_odd_violated",
    "Verif.Props.C65_shipped_violated",
    "Verif.Props.C65_bad_digit_violated"
   ],
   "note": "well-formed files proved in full; malformed lines are not reported but read out of bounds (witnesses)"
  },
  {
   "property": "C66",
   "status": "partial",
   "theorems": [
    "Verif.Props.C66_kept_partial",
    "Verif.Props.C66_violated"
   ],
   "note": "proved when no phase in between drops a datum; false otherwise (witness)"
  },
  {
   "property": "C67",
   "status": "proved",
   "theorems": [
    "Verif.Props.C67_tables",
    "Verif.Props.C67_nfd",
    "Verif.Props.C67_nfc",
    "Verif.Props.C67_nfd_idempotent",
    "Verif.Props.C67_nfd_nfc",
    "Verif.Props.C67_nfc_idempotent",
    "Verif.Props.C67_same",
    "Verif.Props.C67_single"
   ],
   "note": "engine-level, any chunking, with the shipped tables (2061 and 941 rules); data that are not characters and characters written with leading zero bytes are excluded; _NF-ORDER must start with an empty queue (C07)"
  },
  {
   "property": "C68",
   "status": "partial",
   "theorems": [
    "Verif.Props.C68_decode_partial",
    "Verif.Props.C68_gap_violated",
    "Verif.Props.C68_typo_violated",
    "Verif.Props.gb_noClash",
    "Verif.Props.gb_size",
    "Verif.Props.gbSmall_file"
   ],
   "note": "for every file of the form of from/_GB18030.txt (its 128 callback rules verbatim, the 30733 listed rules by form, checked by tools/gbrules.py), compiled by the modelled compiler and read from the bytes of the image: every computed code is read back except those of U+9FAD..U+A402 and U+A8EF..U+B7B2, which have no rule, and those with lead byte D9, which the rule `D9* ?D0` makes the code point 113400 lower (both proved)"
  },
  {
   "property": "C69",
   "status": "partial",
   "theorems": [
    "Verif.Props.C06_terminates",
    "Verif.Props.C69_violated"
   ],
   "note": "the property is false of the code: with ASCII,_UTF-8#CESU&LOOSE:UTF-8 the chunks ED A0 80 / ED A0 80 FF / ED A0 80 make the third call loop forever (witness proved); true of the codecs of C06; not covered: _NFC and REPLACE, which edit the list of the previous phase"
  },
  {
   "property": "C70",
   "status": "proved",
   "theorems": [
    "Verif.Props.C70_errors",
    "Verif.Props.C70_total",
    "Verif.Props.C70_unique",
    "Verif.Props.C70_counted"
   ],
   "note": "one piece: over several pieces the engine loses data after an error (C02_violated); a piece that ends inside a character is C17; code points above U+10FFFF, which the decoder takes, are excluded for the target's sake"
  },
  {
   "property": "C71",
   "status": "partial",
   "theorems": [
    "Verif.Props.C71_shift",
    "Verif.Props.C71_violated",
    "Verif.Props.C18_decode"
   ],
   "note": "the property is false of the code: after an unpaired high surrogate decoding goes on at the next byte, not the next unit (proved for every such input, with a witness)"
  },
  {
   "property": "C72",
   "status": "partial",
   "theorems": [
    "Verif.Props.C72_maps",
    "Verif.Props.C72_same",
    "Verif.Props.C72_compiled",
    "Verif.Props.C72_idempotent",
    "Verif.Props.C72_upper_partial",
    "Verif.Props.C72_upper_violated"
   ],
   "note": "the first part proved for every chain of such files (also from the bytes of the compiled image); idempotence proved for nine files, false of UPPER: the 27 letters with iota subscript have two rules, the first of which gives a letter that has a rule itself (proved, with all exceptions)"
  },
  {
   "property": "C73",
   "status": "partial",
   "theorems": [
    "Verif.Props.C73_lower_partial",
    "Verif.Props.C73_upper_partial",
    "Verif.Props.C73_same",
    "Verif.Props.C73_violated"
   ],
   "note": "true except of texts with U+0130 (for LOWER) or U+0131 (for UPPER), proved false of these"
  },
  {
   "property": "C74",
   "status": "proved",
   "theorems": [
    "Verif.Props.C74_absorb",
    "Verif.Props.C74_round_trip",
    "Verif.Props.C74_ascii",
    "Verif.Props.C72_maps"
   ],
   "note": "for all texts, with the shipped tables"
  },
  {
   "property": "C75",
   "status": "partial",
   "theorems": [
    "Verif.Props.C75_idempotent",
    "Verif.Props.C75_simplified_partial",
    "Verif.Props.C75_traditional_partial",
    "Verif.Props.C75_violated"
   ],
   "note": "idempotence proved; the others except of texts with one of 2 (ZHCN after ZHTW) or 18 (ZHTW after ZHCN) characters, false of these (a witness each)"
  },
  {
   "property": "C76",
   "status": "proved",
   "theorems": [
    "Verif.Props.C76_reads",
    "Verif.Props.C76_writes",
    "Verif.Props.C76_again",
    "Verif.Props.C76_identity",
    "Verif.Props.C76_round_trip",
    "Verif.Props.C76_keeps",
    "Verif.Props.C76_compiled",
    "Verif.Props.C76_files",
    "Verif.Props.C76_iso88591",
    "Verif.Props.C76_cp1251",
    "Verif.Props.C76_cp1252",
    "Verif.Props.C76_cp1253_partial",
    "Verif.Props.C76_cp874_partial",
    "Verif.Props.C76_shiftJis_partial",
    "Verif.Props.C76_shiftJis_keeps",
    "Verif.Props.C76_cp949",
    "Verif.Props.C76_cp936_partial",
    "Verif.Props.C76_gbk"
   ],
   "note": "for every text; ISO-8859-1, CP1251, CP1252, CP949, GBK without exception, CP1253, CP874, SHIFT-JIS, CP936 but for the named codes (C77)"
  },
  {
   "property": "C77",
   "status": "partial",
   "theorems": [
    "Verif.Props.C77_drops",
    "Verif.Props.C77_cp1253_violated",
    "Verif.Props.C77_cp874_violated",
    "Verif.Props.C77_shiftJis_violated",
    "Verif.Props.C77_cp936_violated",
    "Verif.Props.C77_gb2312_violated",
    "Verif.Props.C77_big5_lost",
    "Verif.Props.C77_big5_violated"
   ],
   "note": "false: what becomes of every text is proved instead (CP1253 drops 21 codes, CP874 one, CP936 the euro sign, SHIFT-JIS replaces 5C by 81 5F, GB2312 comes back as ASCII garbage, BIG5 is read as UAO250 and written as CP950; for BIG5 only some of the lost codes are listed)"
  },
  {
   "property": "C78",
   "status": "proved",
   "theorems": [
    "Verif.Props.C78_tables",
    "Verif.Props.C78_nfkd",
    "Verif.Props.C78_nfkc",
    "Verif.Props.C78_nfkd_idempotent",
    "Verif.Props.C78_nfkc_idempotent",
    "Verif.Props.C78_nfkd_nfkc",
    "Verif.Props.C78_same",
    "Verif.Props.C78_nfkd_nfd",
    "Verif.Props.C78_nfd_nfkd",
    "Verif.Props.C78_nfkd_nfc",
    "Verif.Props.C78_nfc_nfkc"
   ],
   "note": "engine-level, with the shipped tables; the same conditions as C67 (characters in their standard form, an empty queue of _NF-ORDER at the start)"
  },
  {
   "property": "C79",
   "status": "proved",
   "theorems": [
    "Verif.Props.C79_convert",
    "Verif.Props.C79_compose",
    "Verif.Props.C79_none",
    "Verif.Props.C79_map",
    "Verif.Props.C79_formD",
    "Verif.Props.C79_formC",
    "Verif.Props.C79_nfd",
    "Verif.Props.C79_nfc",
    "Verif.Props.C79_nfkd",
    "Verif.Props.C79_nfkc",
    "Verif.Props.C79_forms",
    "Verif.Props.C79_twice"
   ],
   "note": "engine-level, for the phases named (rule files of C72, the four normalisation forms, and compositions of them); _NF-ORDER with an empty queue at the start"
  },
  {
   "property": "C80",
   "status": "partial",
   "theorems": [
    "Verif.Props.C80_convert",
    "Verif.Props.C80_settled",
    "Verif.Props.C80_idempotent",
    "Verif.Props.C80_canonical",
    "Verif.Props.C80_forms",
    "Verif.Props.C80_lower_partial",
    "Verif.Props.C80_lower_violated",
    "Verif.Props.C80_upper_violated"
   ],
   "note": "idempotence, completeness and independence of the spelling of accents proved; independence of case proved for LOWER but of texts with U+0130, false of U+0130 and, for UPPER, of texts with U+0345 before another mark (witnesses)"
  },
  {
   "property": "C81",
   "status": "partial",
   "theorems": [
    "Verif.Props.C81_readsAs",
    "Verif.Props.C81_reads",
    "Verif.Props.C81_katakana_table",
    "Verif.Props.C81_katakana_violated",
    "Verif.Props.C81_0212_violated",
    "Verif.Props.C81_stale_violated",
    "Verif.Props.C81_writes_violated",
    "Verif.Props.C81_back_violated"
   ],
   "note": "reading proved for every text in the sets and with the escape sequences the code knows, with the shipped tables; false: the standard escape sequence of JIS X 0212 is unknown, 7-bit katakana are read as ASCII, an escape state is left over from a truncated text, and JIS is written without escape sequences (witnesses; what becomes of every written text is proved)"
  },
  {
   "property": "C82",
   "status": "proved",
   "theorems": [
    "Verif.Props.C82_decode",
    "Verif.Props.C82_drop",
    "Verif.Props.C82_session",
    "Verif.Props.C82_utf8",
    "Verif.Props.C82_total"
   ],
   "note": "for every choice of codecs before ANY and every following phase; for UTF-8 texts that do not end inside a character (C17); the counter is taken to be distinct from IERR"
  },
  {
   "property": "C83",
   "status": "partial",
   "theorems": [
    "Verif.Props.C83_session",
    "Verif.Props.C83_identity",
    "Verif.Props.C83_map",
    "Verif.Props.C83_buffer",
    "Verif.Props.C83_tilde_violated",
    "Verif.Props.C83_designate_violated",
    "Verif.Props.C83_end_violated"
   ],
   "note": "proved for sequences ESC [ .. that end in a letter other than O and have at most 30 bytes, and for ESC and one byte; the buffer never overflows; false of the other sequences of the standard (they take text along or are cut short) and of texts that end inside a sequence (bytes are repeated): witnesses"
  },
  {
   "property": "C84",
   "status": "partial",
   "theorems": [
    "Verif.Props.C84_options",
    "Verif.Props.C84_again",
    "Verif.Props.C84_print",
    "Verif.Props.C84_prints",
    "Verif.Props.C84_text",
    "Verif.Props.C84_report_violated"
   ],
   "note": "output and exit status proved for every conversion of codecs that C07 shows resettable; false: the counts reported with a file include those of the files before it (what they are is proved in C84_print)"
  },
  {
   "property": "C85",
   "status": "partial",
   "theorems": [
    "Verif.Props.C85_done",
    "Verif.Props.C85_crash",
    "Verif.Props.C85_atomic_violated",
    "Verif.Props.C85_fault_violated"
   ],
   "note": "result proved, and at every crash point the contents of each file are in it or in its temporary file; false: that the file itself always exists (it does not between unlink and rename, in every run) and that a full disk or a read error leaves it alone"
  },
  {
   "property": "C86",
   "status": "partial",
   "theorems": [
    "Verif.Props.C86_lookup",
    "Verif.Props.C86_alias",
    "Verif.Props.C86_unknown",
    "Verif.Props.C86_found",
    "Verif.Props.C86_inner",
    "Verif.Props.C86_from",
    "Verif.Props.C86_to",
    "Verif.Props.C86_inter",
    "Verif.Props.C86_filter",
    "Verif.Props.C86_locale",
    "Verif.Props.C86_locale_violated",
    "Verif.Props.C86_empty_violated",
    "Verif.Props.C86_junk_violated",
    "Verif.Props.C86_sequence_violated"
   ],
   "note": "proved: which names are found, exactly, and that all shipped aliases are; false: that nothing else is an alias: the empty name is one in every table, bytes that are no ASCII characters are ignored, and names written one after the other are found"
  },
  {
   "property": "C87",
   "status": "partial",
   "theorems": [
    "Verif.Props.C87_img",
    "Verif.Props.C87_info",
    "Verif.Props.C87_info_overrun",
    "Verif.Props.C87_character",
    "Verif.Props.C87_distinct",
    "Verif.Props.C87_page",
    "Verif.Props.C87_links",
    "Verif.Props.C87_img_violated",
    "Verif.Props.C87_info_violated"
   ],
   "note": "pages proved for every text; false: that no buffer is overrun: data of type 01 with more than 25 bytes behind the type overrun the stack buffer of UNICODE-IMG, data of type 02 with a plane of 128 or more the heap buffer of INFO (exactly these: C87_img, C87_info_overrun)"
  },
  {
   "property": "C88",
   "status": "partial",
   "theorems": [
    "Verif.Props.C88_train",
    "Verif.Props.C88_score_partial",
    "Verif.Props.C88_trained",
    "Verif.Props.C88_score_violated"
   ],
   "note": "training proved, scoring for characters inside the score file; false: characters beyond its end add a value that was never set"
  },
  {
   "property": "C89",
   "status": "proved",
   "theorems": [
    "Verif.Props.C89_output",
    "Verif.Props.C89_input",
    "Verif.Props.C89_faithful"
   ],
   "note": "engine-level, behind any phases; the log files are taken to be there and writable (without the environment variables they are NULL)"
  },
  {
   "property": "C90",
   "status": "partial",
   "theorems": [
    "Verif.Props.C90_exact",
    "Verif.Props.C90_stage",
    "Verif.Props.C90_text_partial",
    "Verif.Props.C90_score",
    "Verif.Props.C90_hangul_violated",
    "Verif.Props.C90_phrase_violated"
   ],
   "note": "what ZH-BONUS does is proved exactly for every text and datum (a row takes every datum that begins with its pattern); so the text is unchanged but for the blocks U+23xx, U+C5xx and U+FCxx, and the counter right for what comes out; false in these blocks (Hangul becomes Latin), and for phrases of ZH-BONUS-PHRASE by the same cause (witness; phrases are not proved in general)"
  },
  {
   "property": "C91",
   "status": "partial",
   "theorems": [
    "Verif.Props.C91_mends",
    "Verif.Props.C91_kinds",
    "Verif.Props.C91_order",
    "Verif.Props.C91_end_violated"
   ],
   "note": "proved for every stream that does not end inside a character; otherwise the first byte and the sequences behind it are lost without an error (C91_end_violated, exactly those by C91_kinds); the copied link of a datum is taken to be NULL"
  },
  {
   "property": "C92",
   "status": "partial",
   "theorems": [
    "Verif.Props.C92_safe",
    "Verif.Props.C92_codecs",
    "Verif.Props.C92_filters",
    "Verif.Props.C92_order",
    "Verif.Props.C92_check",
    "Verif.Props.C92_check_case",
    "Verif.Props.C92_shipped",
    "Verif.Props.C92_locale_violated",
    "Verif.Props.C92_unicode_violated",
    "Verif.Props.C92_long_violated"
   ],
   "note": "safe for every directory and file; the contents proved for alias files of well-formed lines of at most 255 bytes; false: LOCALE and UNICODE are aliases but not listed, and the rest of a longer line is listed as a name"
  },
  {
   "property": "C93",
   "status": "partial",
   "theorems": [
    "Verif.Props.C93_complete",
    "Verif.Props.C93_goes_on",
    "Verif.Props.C93_empty_violated"
   ],
   "note": "proved for every text but the empty one, for which a byte in front of the buffer is read; that codecs of INTER are offered for the first phase is taken as meant"
  },
  {
   "property": "C94",
   "status": "partial",
   "theorems": [
    "Verif.Props.C94_filter",
    "Verif.Props.C94_names",
    "Verif.Props.C94_types",
    "Verif.Props.C94_scorer",
    "Verif.Props.C94_junk_violated"
   ],
   "note": "result proved exactly for every name and set of modules, with the lookups as conversions run by the engine (C86); false in that names with bytes that are no ASCII characters can load a filter; names with a slash are not modelled"
  },
  {
   "property": "C95",
   "status": "partial",
   "theorems": [
    "Verif.Props.C95_page",
    "Verif.Props.C95_redirect",
    "Verif.Props.C95_redirect_any",
    "Verif.Props.C95_without",
    "Verif.Props.C95_shipped",
    "Verif.Props.C95_type_violated",
    "Verif.Props.C95_empty_violated",
    "Verif.Props.C95_long_violated",
    "Verif.Props.C95_cycle_violated"
   ],
   "note": "proved for the pages of the distribution (always returns, and every page is shown) and for every other set of pages by case; false: an unknown phase type frees a pointer into the middle of a block, an empty page reads an unset buffer, a long redirection overruns one, and cyclic redirections never return"
  },
  {
   "property": "C96",
   "status": "partial",
   "theorems": [
    "Verif.Props.C96_image",
    "Verif.Props.C96_letters",
    "Verif.Props.C96_reads",
    "Verif.Props.C96_writes",
    "Verif.Props.C96_round_trip",
    "Verif.Props.C96_html_violated"
   ],
   "note": "proved for the shipped files (from the rule file through bsdconv-mktable to sessions) for every ASCII text, & that begins no reference included; false: that the characters are those of HTML: U+2203 is written &exists;, eight names of HTML 4 are missing, and the double arrows &rArr; \u2026 are read as the single ones"
  },
  {
   "property": "C97",
   "status": "proved",
   "theorems": [
    "Verif.Props.C97_reads",
    "Verif.Props.C97_writes",
    "Verif.Props.C97_round_trip",
    "Verif.Props.C97_big5"
   ],
   "note": "for every character set of C76/C77 whose codes above 7F begin with a high byte, BIG5 as shipped in particular; C97_big5 shows that the 87 rows are codes of BIG5 with a second backslash"
  },
  {
   "property": "C98",
   "status": "partial",
   "theorems": [
    "Verif.Props.C98_utf8",
    "Verif.Props.C98_charset",
    "Verif.Props.C98_hex",
    "Verif.Props.C98_unhex",
    "Verif.Props.C98_unfinished_violated"
   ],
   "note": "proved for every input for character sets whose codes are written as they were read, for BYTE and HEX themselves, and for UTF-8 input that does not end inside a character; false for UTF-8 input that does: the bytes E4 B8 come out as E4 E4 B8 B8, without errors"
  },
  {
   "property": "C99",
   "status": "proved",
   "theorems": [
    "Verif.Props.C99_writes",
    "Verif.Props.C99_reads_back",
    "Verif.Props.C99_again",
    "Verif.Props.C99_tables"
   ],
   "note": "BIG5 is read with the table of UAO250 and written with that of CP950, as its aliases say; C99_writes and C99_tables also cover GB2312-TRANS, whose output, like that of GB2312, is not read back (C77)"
  },
  {
   "property": "C100",
   "status": "proved",
   "theorems": [
    "Verif.Props.C100_unique",
    "Verif.Props.C100_stage",
    "Verif.Props.C100_converts",
    "Verif.Props.C100_compiled",
    "Verif.Props.C100_tables"
   ],
   "note": "for every rule file whose rows are different sequences of characters, from the compiled file to sessions; C100_tables evaluates the seven shipped ones"
  },
  {
   "property": "C101",
   "status": "partial",
   "theorems": [
    "Verif.Props.C101_final",
    "Verif.Props.C101_gone",
    "Verif.Props.C101_mirror",
    "Verif.Props.C101_upsidedown",
    "Verif.Props.C101_converts",
    "Verif.Props.C101_once",
    "Verif.Props.C101_nl2br",
    "Verif.Props.C101_words",
    "Verif.Props.C101_words_violated"
   ],
   "note": "false for ZHTW-WORDS: it makes \u5e7e\u591a\u4e48 of \u51e0\u591a\u4e48, and \u5e7e\u591a\u9ebc of that"
  },
  {
   "property": "C102",
   "status": "partial",
   "theorems": [
    "Verif.Props.C102_fuzzy_partial",
    "Verif.Props.C102_same",
    "Verif.Props.C102_same_tw",
    "Verif.Props.C102_length",
    "Verif.Props.C102_bmp",
    "Verif.Props.C102_bmp_forms",
    "Verif.Props.C102_phase",
    "Verif.Props.C102_violated"
   ],
   "note": "false for five characters: U+FAB7 and U+7F3A (ZH-FUZZY-CN after ZHTW, ZH-FUZZY-TW or KANJI), U+937E, U+7E34, U+7F3A (ZH-FUZZY-TW after ZH-FUZZY-CN or KANJI), and for three with BMP-TRANS-CN before ZHTW; proved for every text without them"
  },
  {
   "property": "C103",
   "status": "partial",
   "theorems": [
    "Verif.Props.C103_data",
    "Verif.Props.C103_reads_partial",
    "Verif.Props.C103_unicode",
    "Verif.Props.C103_compiled",
    "Verif.Props.C103_windows",
    "Verif.Props.C103_lost_violated"
   ],
   "note": "false for eight codes of CP932 (814C, 814E, 817D, 817E, 8180, 818B, 8198, 81F7): their lines give 0100xx instead of 01xx, which the Unicode encodings take, but no table does: CP932:SHIFT-JIS and every other character set loses them; proved for every text without them, and for the Unicode encodings with them"
  },
  {
   "property": "C104",
   "status": "partial",
   "theorems": [
    "Verif.Props.Verif.Props.C104_page_partial",
    "Verif.Props.Verif.Props.C104_written",
    "Verif.Props.Verif.Props.C104_reads",
    "Verif.Props.Verif.Props.C104_source",
    "Verif.Props.Verif.Props.C104_target",
    "Verif.Props.Verif.Props.C104_decode",
    "Verif.Props.Verif.Props.C104_encode",
    "Verif.Props.Verif.Props.C104_bytes",
    "Verif.Props.Verif.Props.C104_back",
    "Verif.Props.Verif.Props.C104_round_trip_partial",
    "Verif.Props.Verif.Props.C104_page_violated",
    "Verif.Props.Verif.Props.C104_round_trip_violated",
    "Verif.Props.Verif.Props.C104_compiled"
   ],
   "note": "The code page 037 is given as published in Spec/Cp037, not from /repo. False for the bytes AC and BC, which are read as U+0110 and U+203E instead of U+00D0 and U+00AF (the lines for them stand later in the file), and for the byte 0, which has no line. IBM-37:IBM-37 keeps every byte other than 0."
  },
  {
   "property": "C105",
   "status": "partial",
   "theorems": [
    "Verif.Props.Verif.Props.C105_reads",
    "Verif.Props.Verif.Props.C105_transcode",
    "Verif.Props.Verif.Props.C105_family",
    "Verif.Props.Verif.Props.C105_cp950",
    "Verif.Props.Verif.Props.C105_cp950_violated",
    "Verif.Props.Verif.Props.C105_hkscs",
    "Verif.Props.Verif.Props.C105_grows",
    "Verif.Props.Verif.Props.C105_compiled"
   ],
   "note": "Reading proved in full for every list of files of two-byte codes and the eight shipped ones. That plain Big5 is read alike is proved for every code but those listed in C105_cp950: A2CC, A2CD, A2CE, C255 (ETEN, Big5E, 2003), A3E1 (Big5E lacks it), ten more in Big5-2003; for HKSCS, UAO 2.41 and 2.50 without exception. UAO as a target is not modelled (one of its lines writes the bytes 00 FF)."
  },
  {
   "property": "C106",
   "status": "proved",
   "theorems": [
    "Verif.Props.C106_tables",
    "Verif.Props.C106_reads",
    "Verif.Props.C106_source",
    "Verif.Props.C106_target",
    "Verif.Props.C106_round_trip",
    "Verif.Props.C106_keeps",
    "Verif.Props.C106_compiled"
   ],
   "note": "Of several lines of to/CCCII.txt for one character only the first, the one that counts (C50), is in the model's table."
  },
  {
   "property": "C107",
   "status": "proved",
   "theorems": [
    "Verif.Props.C107_tables",
    "Verif.Props.C107_encode",
    "Verif.Props.C107_decode",
    "Verif.Props.C107_text",
    "Verif.Props.C107_round_trip",
    "Verif.Props.C107_keeps"
   ],
   "note": "What happens outside these texts (characters without a code after double-byte codes, U+000E and U+000F, malformed input) is C40."
  },
  {
   "property": "C108",
   "status": "proved",
   "theorems": [
    "Verif.Props.C108_gbk",
    "Verif.Props.C108_gb2312",
    "Verif.Props.C108_sjis",
    "Verif.Props.C108_other_violated",
    "Verif.Props.C108_alike",
    "Verif.Props.C108_cp936"
   ],
   "note": "The characters of CP932 are those of its lines; eight of them are read as data with a needless zero byte (C103)."
  }
 ]
}