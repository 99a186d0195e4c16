add("C08","proved",["C08_modes","C08_exactly_once"],"")
add("C09","proved",["C09_premalloced","C09_query","C09_query_reports_pending"],"")
add("C10","partial",["C10_pass_transfers","C10_chain_violated"],"hand-over proved; chains handed to an instance whose first phase is not FROM are only partly consumed per call (data_tail), witness proved")
add("C11","proved",["C11_pass_ownership","C11_pass_nodes"],"")
add("C55","proved",["C55_pool"],"")
add("C57","partial",["C57_drain_partial","C57_drain_violated"],"false when the buffer is smaller than one output datum; proved otherwise")

add("C41","proved",["C41_map","C41_pointers"],"")
add("C42","partial",["C42_hash_partial","C42_set_has_partial","C42_get_violated","C42_del_violated","C42_get_returns_last"],"get of a key behind the head and del of a later key violate the claim (witnesses); the parts that hold are proved")
add("C43","partial",["C43_str2datum_partial","C43_str2data_partial","C43_odd_violated"],"odd digit counts write past the buffer (witness)")
add("C44","partial",["C44_roundtrip_partial","C44_violated"],"one-phase segments next to others are printed with the wrong separator (witness)")
add("C45","proved",["C45_pack_fits"],"")
add("C46","partial",["C46_insert_phase_partial","C46_replace_phase_partial","C46_insert_codec_partial","C46_replace_codec_partial","C46_replace_past_end_violated","C46_types_violated"],"indices in range; witnesses for positions past the end and for types that are not printed")
add("C47","partial",["C47_phase_index_partial","C47_codec_index_partial","C47_range_violated","C47_codec_phase_violated"],"indices below -n leave the range (witness)")
add("C48","proved",["C48_whitespace"],"")
add("C49","partial",["C49_terminates_partial","C49_cycle_violated"],"proved for all well-founded alias tables, the shipped tables are shown to be well-founded; cyclic tables never return (witness)")
add("C54","proved",["C54_parse_show","C54_show_parse"],"")
add("C58","partial",["C58_unpack_bounds_violated"],"false for every string: the NULL ending the last strsep loop is written one past phase_off")
add("C59","partial",["C59_alias_args_violated"],"false: argv points into the freed description")
add("C13","proved",["C13_accepts","C13_classification","C13_surrogate","C13_first_byte"],"callback level: the decoder's loop on any byte sequence from its initial state")
add("C14","proved",["C14_encode","C14_refuses","C14_round_trip","C14_round_trip_bytes"],"")
add("C15","proved",["C15_classification","C15_accepts_iff","C15_default_unchanged"],"all combinations of loose, nul, overlong and super; with cesu, sequences accepted by default are unchanged")
add("C16","partial",["C16_lead","C16_pair","C16_pair_partial","C16_violated","C16_flush","C16_flush_none"],"the code ors 0x10000 instead of adding it: right exactly when bit 16 of the offset is clear")
add("C17","partial",["C17_truncated_violated","C17_residue_violated"],"false: the engine's error path leaves the decoder's private state as it was (witnesses)")
add("C18","proved",["C18_encode","C18_decode","C18_decode_form","C18_round_trip"],"callback level; the decoder is described on every byte sequence")
add("C19","partial",["C19_injective_partial","C19_violated"],"injective up to U+10FFFF; above, the code wraps and truncates (witness)")
add("C20","partial",["C20_encode","C20_fits","C20_decode_partial","C20_round_trip_partial","C20_zero_violated","C20_overrun_violated"],"all numbers but zero; zero decodes to a datum without payload (witness)")
add("C21","proved",["C21_bmp","C21_refuses","C21_supplementary","C21_two_bytes"],"")
add("C22","partial",["C22_decode","C22_only_partial","C22_reject_partial","C22_octal_violated","C22_roundtrip","C22_takes","C22_total"],"the octal range check compares with decimal 377 (witness); percent escapes proved in full")
add("C23","partial",["C23_decode","C23_only","C23_roundtrip_partial","C23_roundtrip_violated","C22_takes","C22_total"],"code points of one or two bytes; longer ones are printed with more than four digits and not read back (witness)")
add("C24","partial",["C24_decode_partial","C24_reject","C24_violated"],"values below 2^32 and non-zero; larger ones wrap, an empty entity decodes (witness)")
add("C39","proved",["C39_filter","C39_filter_other","C39_type","C39_width","C39_ambiguous","C39_ccc","C39_scorer"],"all tables shipped, generated from the sources")
add("C26","partial",["C26_encode","C26_refuses","C26_total","C26_decode","C26_rejects","C26_round_trip","C26_reencode_partial","C26_violated"],"callback level; the decoder accepts bytes outside the legal ranges, so the converse round trip holds for legal bytes only (witness)")
add("C27","partial",["C27_decode","C27_injective_partial","C27_violated"],"legal trail bytes; the decoder also accepts illegal ones, which collide (witness)")
add("C60","partial",["C60_violated"],"false: when the four bytes arrive in one call the callback takes them and rejects (witness)")

add("C32","partial",["C32_pad","C32_unpad_partial","C32_round_trip_partial","C32_violated"],"streams of unicode data, in any conversion; other data are dropped by UNPAD (witness)")
add("C33","proved",["C33_trim","C33_longest","trim_sub"],"in any conversion, any chunking; trim_sub discharges the sub-instance WIDTH")
add("C34","proved",["C34_count","C34_width","C34_score"],"in any conversion, any chunking; counters as unbounded numbers")
add("C35","partial",["C35_pass","C35_null","C35_insert","C35_raw","C35_to_pass","C35_pass_null","C35_filter_violated"],"all plumbing codecs in any conversion; inter PASS with a filter and no codec after it does not filter (witness)")
add("C36","partial",["C36_strings_partial","C36_safe","C36_violated"],"output proved; runs that are too short make the codec free the same data twice (witness)")
add("C61","proved",["C61_any"],"")

add("C28","proved",["C28_decompose","C28_compose","C28_inverse","C28_equivalent","C28_round_trip"],"in any conversion; the inverse holds for every text without conjoining jamo, and composition never changes what a text decomposes to")
add("C29","proved",["C29_order","C29_permutation"],"in any conversion that starts with an empty queue, which is what every flushed conversion leaves (the missing cbinit is C07)")
add("C62","partial",["C62_violated","C62_compose"],"false for Hangul decomposition (witness); composition keeps other data")

add("C63","proved",["C63_through","C63_ascii","C63_transcode","C63_round_trip"],"through the whole engine, any chunking; U+0000 and surrogates are excluded (see C19, C20)")

add("C64","proved",["C64_roundtrip","decDigits_numeral","decDigits_head"],"")
add("C53","partial",["C53_disjoint_partial","C53_free_partial","C53_large_violated","C53_overlap_violated","C53_empty_violated"],"requests up to the pool size and non-empty blocks, all histories; larger requests overlap and empty blocks are handed to free (witnesses)")
add("C38","proved",["C38_newlines","C38_text","C38_reads","C38_last"],"in any conversion, any chunking")

add("C50","partial",["C50_lookup","C50_first","C50_no_clash","C50_represents","C50_size","C50_conversion","C50_shared_callback_violated","C50_override_violated"],"all files in which a callback rule does not meet another rule for the same string (except plain rules for strings that end there), down to the bytes of the image and up to whole conversions; clashing callback rules break it (witnesses)")
add("C51","proved",["C51_disjoint","C51_bytes","C51_states"],"disjointness for every automaton; state reading for every rule file whose image is smaller than 4 GiB")
add("C52","partial",["C52_represents","C52_lower_partial","C52_upper_violated","C52_all_upper_violated","C52_bracket_violated","C52_override_violated"],"holds for patterns without upper-case letters and brackets; false for the others (witnesses)")
add("C65","partial",["C65_file","C65_compiled","C65_empty_line_violated","C65_no_data_violated","C65_odd_violated","C65_shipped_violated","C65_bad_digit_violated"],"well-formed files proved in full; malformed lines are not reported but read out of bounds (witnesses)")

add("C07","partial",["C07_reusable","C07_history","C07_compiled","C07_encoder","C07_utf8","C07_utf16","C07_utf32","C07_escape","C07_entity","C07_gb18030","C07_hangul","C07_inter","C07_nf_order_violated","C07_cp950_uda_violated"],"proved for every conversion of codecs whose cbinit resets what they look at, which is shown for table codecs and the stateful codecs modelled that have a cbinit; false for the codecs without one (witnesses for _NF-ORDER and CP950-UDA)")

add("C37","partial",["C37_replace_partial","C37_single","C37_replaced","C37_unchanged","C37_violated"],"in any conversion, any chunking; proved when the input does not end in an unfinished occurrence or the last datum of the pattern occurs only once in it; false otherwise (witness)")
add("C31","proved",["C31_rerail","C31_lossless","isSpace_iff"],"dedicated model of the two phases sharing a record, every schedule of the phases in between, every one-to-one processing in between")
add("C66","partial",["C66_kept_partial","C66_violated"],"proved when no phase in between drops a datum; false otherwise (witness)")
add("C40","partial",["C40_encode_partial","C40_decode_partial","C40_balanced","C40_roundtrip_partial","C40_keeps_partial","C40_uncounted_violated","C40_mistaken_violated","C40_control_violated","C40_swallow_violated"],"engine-level, any chunking, compiled tables: proved for texts all of whose data have a code (encoding) and all of whose codes are in the table (decoding); false for data without a code after double-byte data, for U+000E/U+000F, and for malformed input (witnesses)")
add("C25","partial",["C25_read_partial","C25_dump","C25_roundtrip_partial","C25_one","C25_merged_violated","C25_separator_violated","C25_double_free_violated"],"engine-level, any chunking: every sequence of data comes back as one datum, the data joined: right for a single datum, proved wrong for every sequence of two or more; separators count as errors and re-initialising frees memory twice (witnesses)")
add("C30","partial",["C30_compose_partial","C30_ordered","C30_inOrder","C30_table_starters","C30_table_closed","C30_order_compose","C30_blocked_violated","C30_double_free_violated"],"For every input _NFC only replaces a starter and a later character (no starter in between) by their composite; on data in canonical order it equals the composition algorithm of the Unicode standard (D117), given a closed table, and the table of 941 rules it comes with is closed. On data in another order it combines blocked characters (violated witness), and re-using an abandoned instance frees a datum twice (violated witness). The sub-conversion _NFC-MAP,COUNT#ERR is modelled as a partial function.")

add("C67","proved",["C67_tables","C67_nfd","C67_nfc","C67_nfd_idempotent","C67_nfd_nfc","C67_nfc_idempotent","C67_same","C67_single"],
  "engine-level, any chunking, with the shipped tables (2061 and 941 rules); data that are not characters and characters written with leading zero bytes are excluded; _NF-ORDER must start with an empty queue (C07)")
add("C68","partial",["C68_decode_partial","C68_gap_violated","C68_typo_violated","gb_noClash","gb_size","gbSmall_file"],
  "for every file of the form of from/_GB18030.txt (its 128 callback rules verbatim, the 30733 listed rules by form, checked by tools/gbrules.py), compiled by the modelled compiler and read from the bytes of the image: every computed code is read back except those of U+9FAD..U+A402 and U+A8EF..U+B7B2, which have no rule, and those with lead byte D9, which the rule `D9* ?D0` makes the code point 113400 lower (both proved)")

add("C69","partial",["C06_terminates","C69_violated"],"the property is false of the code: with ASCII,_UTF-8#CESU&LOOSE:UTF-8 the chunks ED A0 80 / ED A0 80 FF / ED A0 80 make the third call loop forever (witness proved); true of the codecs of C06; not covered: _NFC and REPLACE, which edit the list of the previous phase")

add("C70","proved",["C70_errors","C70_total","C70_unique","C70_counted"],"one piece: over several pieces the engine loses data after an error (C02_violated); a piece that ends inside a character is C17; code points above U+10FFFF, which the decoder takes, are excluded for the target's sake")
add("C71","partial",["C71_shift","C71_violated","C18_decode"],"the property is false of the code: after an unpaired high surrogate decoding goes on at the next byte, not the next unit (proved for every such input, with a witness)")

add("C72","partial",["C72_maps","C72_same","C72_compiled","C72_idempotent","C72_upper_partial","C72_upper_violated"],"the first part proved for every chain of such files (also from the bytes of the compiled image); idempotence proved for nine files, false of UPPER: the 27 letters with iota subscript have two rules, the first of which gives a letter that has a rule itself (proved, with all exceptions)")
add("C73","partial",["C73_lower_partial","C73_upper_partial","C73_same","C73_violated"],"true except of texts with U+0130 (for LOWER) or U+0131 (for UPPER), proved false of these")
add("C74","proved",["C74_absorb","C74_round_trip","C74_ascii","C72_maps"],"for all texts, with the shipped tables")
add("C75","partial",["C75_idempotent","C75_simplified_partial","C75_traditional_partial","C75_violated"],"idempotence proved; the others except of texts with one of 2 (ZHCN after ZHTW) or 18 (ZHTW after ZHCN) characters, false of these (a witness each)")
add("C76","proved",["C76_reads","C76_writes","C76_again","C76_identity","C76_round_trip","C76_keeps","C76_compiled","C76_files","C76_iso88591","C76_cp1251","C76_cp1252","C76_cp1253_partial","C76_cp874_partial","C76_shiftJis_partial","C76_shiftJis_keeps","C76_cp949","C76_cp936_partial","C76_gbk"],"for every text; ISO-8859-1, CP1251, CP1252, CP949, GBK without exception, CP1253, CP874, SHIFT-JIS, CP936 but for the named codes (C77)")
add("C77","partial",["C77_drops","C77_cp1253_violated","C77_cp874_violated","C77_shiftJis_violated","C77_cp936_violated","C77_gb2312_violated","C77_big5_lost","C77_big5_violated"],"false: what becomes of every text is proved instead (CP1253 drops 21 codes, CP874 one, CP936 the euro sign, SHIFT-JIS replaces 5C by 81 5F, GB2312 comes back as ASCII garbage, BIG5 is read as UAO250 and written as CP950; for BIG5 only some of the lost codes are listed)")
add("C78","proved",["C78_tables","C78_nfkd","C78_nfkc","C78_nfkd_idempotent","C78_nfkc_idempotent","C78_nfkd_nfkc","C78_same","C78_nfkd_nfd","C78_nfd_nfkd","C78_nfkd_nfc","C78_nfc_nfkc"],"engine-level, with the shipped tables; the same conditions as C67 (characters in their standard form, an empty queue of _NF-ORDER at the start)")
add("C79","proved",["C79_convert","C79_compose","C79_none","C79_map","C79_formD","C79_formC","C79_nfd","C79_nfc","C79_nfkd","C79_nfkc","C79_forms","C79_twice"],"engine-level, for the phases named (rule files of C72, the four normalisation forms, and compositions of them); _NF-ORDER with an empty queue at the start")
add("C80","partial",["C80_convert","C80_settled","C80_idempotent","C80_canonical","C80_forms","C80_lower_partial","C80_lower_violated","C80_upper_violated"],"idempotence, completeness and independence of the spelling of accents proved; independence of case proved for LOWER but of texts with U+0130, false of U+0130 and, for UPPER, of texts with U+0345 before another mark (witnesses)")
add("C81","partial",["C81_readsAs","C81_reads","C81_katakana_table","C81_katakana_violated","C81_0212_violated","C81_stale_violated","C81_writes_violated","C81_back_violated"],"reading proved for every text in the sets and with the escape sequences the code knows, with the shipped tables; false: the standard escape sequence of JIS X 0212 is unknown, 7-bit katakana are read as ASCII, an escape state is left over from a truncated text, and JIS is written without escape sequences (witnesses; what becomes of every written text is proved)")
add("C82","proved",["C82_decode","C82_drop","C82_session","C82_utf8","C82_total"],"for every choice of codecs before ANY and every following phase; for UTF-8 texts that do not end inside a character (C17); the counter is taken to be distinct from IERR")
add("C83","partial",["C83_session","C83_identity","C83_map","C83_buffer","C83_tilde_violated","C83_designate_violated","C83_end_violated"],"proved for sequences ESC [ .. that end in a letter other than O and have at most 30 bytes, and for ESC and one byte; the buffer never overflows; false of the other sequences of the standard (they take text along or are cut short) and of texts that end inside a sequence (bytes are repeated): witnesses")
add("C84","partial",["C84_options","C84_again","C84_print","C84_prints","C84_text","C84_report_violated"],"output and exit status proved for every conversion of codecs that C07 shows resettable; false: the counts reported with a file include those of the files before it (what they are is proved in C84_print)")
add("C85","partial",["C85_done","C85_crash","C85_atomic_violated","C85_fault_violated"],"result proved, and at every crash point the contents of each file are in it or in its temporary file; false: that the file itself always exists (it does not between unlink and rename, in every run) and that a full disk or a read error leaves it alone")
add("C86","partial",["C86_lookup","C86_alias","C86_unknown","C86_found","C86_inner","C86_from","C86_to","C86_inter","C86_filter","C86_locale","C86_locale_violated","C86_empty_violated","C86_junk_violated","C86_sequence_violated"],"proved: which names are found, exactly, and that all shipped aliases are; false: that nothing else is an alias: the empty name is one in every table, bytes that are no ASCII characters are ignored, and names written one after the other are found")
add("C87","partial",["C87_img","C87_info","C87_info_overrun","C87_character","C87_distinct","C87_page","C87_links","C87_img_violated","C87_info_violated"],"pages proved for every text; false: that no buffer is overrun: data of type 01 with more than 25 bytes behind the type overrun the stack buffer of UNICODE-IMG, data of type 02 with a plane of 128 or more the heap buffer of INFO (exactly these: C87_img, C87_info_overrun)")
add("C88","partial",["C88_train","C88_score_partial","C88_trained","C88_score_violated"],"training proved, scoring for characters inside the score file; false: characters beyond its end add a value that was never set")
add("C89","proved",["C89_output","C89_input","C89_faithful"],"engine-level, behind any phases; the log files are taken to be there and writable (without the environment variables they are NULL)")
add("C90","partial",["C90_exact","C90_stage","C90_text_partial","C90_score","C90_hangul_violated","C90_phrase_violated"],"what ZH-BONUS does is proved exactly for every text and datum (a row takes every datum that begins with its pattern); so the text is unchanged but for the blocks U+23xx, U+C5xx and U+FCxx, and the counter right for what comes out; false in these blocks (Hangul becomes Latin), and for phrases of ZH-BONUS-PHRASE by the same cause (witness; phrases are not proved in general)")
add("C91","partial",["C91_mends","C91_kinds","C91_order","C91_end_violated"],"proved for every stream that does not end inside a character; otherwise the first byte and the sequences behind it are lost without an error (C91_end_violated, exactly those by C91_kinds); the copied link of a datum is taken to be NULL")
add("C92","partial",["C92_safe","C92_codecs","C92_filters","C92_order","C92_check","C92_check_case","C92_shipped","C92_locale_violated","C92_unicode_violated","C92_long_violated"],"safe for every directory and file; the contents proved for alias files of well-formed lines of at most 255 bytes; false: LOCALE and UNICODE are aliases but not listed, and the rest of a longer line is listed as a name")
add("C93","partial",["C93_complete","C93_goes_on","C93_empty_violated"],"proved for every text but the empty one, for which a byte in front of the buffer is read; that codecs of INTER are offered for the first phase is taken as meant")
add("C94","partial",["C94_filter","C94_names","C94_types","C94_scorer","C94_junk_violated"],"result proved exactly for every name and set of modules, with the lookups as conversions run by the engine (C86); false in that names with bytes that are no ASCII characters can load a filter; names with a slash are not modelled")
add("C95","partial",["C95_page","C95_redirect","C95_redirect_any","C95_without","C95_shipped","C95_type_violated","C95_empty_violated","C95_long_violated","C95_cycle_violated"],"proved for the pages of the distribution (always returns, and every page is shown) and for every other set of pages by case; false: an unknown phase type frees a pointer into the middle of a block, an empty page reads an unset buffer, a long redirection overruns one, and cyclic redirections never return")
add("C96","partial",["C96_image","C96_letters","C96_reads","C96_writes","C96_round_trip","C96_html_violated"],"proved for the shipped files (from the rule file through bsdconv-mktable to sessions) for every ASCII text, & that begins no reference included; false: that the characters are those of HTML: U+2203 is written &exists;, eight names of HTML 4 are missing, and the double arrows &rArr; … are read as the single ones")
add("C97","proved",["C97_reads","C97_writes","C97_round_trip","C97_big5"],"for every character set of C76/C77 whose codes above 7F begin with a high byte, BIG5 as shipped in particular; C97_big5 shows that the 87 rows are codes of BIG5 with a second backslash")
add("C98","partial",["C98_utf8","C98_charset","C98_hex","C98_unhex","C98_unfinished_violated"],"proved for every input for character sets whose codes are written as they were read, for BYTE and HEX themselves, and for UTF-8 input that does not end inside a character; false for UTF-8 input that does: the bytes E4 B8 come out as E4 E4 B8 B8, without errors")
add("C99","proved",["C99_writes","C99_reads_back","C99_again","C99_tables"],"BIG5 is read with the table of UAO250 and written with that of CP950, as its aliases say; C99_writes and C99_tables also cover GB2312-TRANS, whose output, like that of GB2312, is not read back (C77)")
add("C100","proved",["C100_unique","C100_stage","C100_converts","C100_compiled","C100_tables"],"for every rule file whose rows are different sequences of characters, from the compiled file to sessions; C100_tables evaluates the seven shipped ones")
add("C101","partial",["C101_final","C101_gone","C101_mirror","C101_upsidedown","C101_converts","C101_once","C101_nl2br","C101_words","C101_words_violated"],"false for ZHTW-WORDS: it makes 幾多么 of 几多么, and 幾多麼 of that")
add("C102","partial",["C102_fuzzy_partial", "C102_same", "C102_same_tw", "C102_length", "C102_bmp", "C102_bmp_forms", "C102_phase", "C102_violated"],"false for five characters: U+FAB7 and U+7F3A (ZH-FUZZY-CN after ZHTW, ZH-FUZZY-TW or KANJI), U+937E, U+7E34, U+7F3A (ZH-FUZZY-TW after ZH-FUZZY-CN or KANJI), and for three with BMP-TRANS-CN before ZHTW; proved for every text without them")
add("C103","partial",["C103_data", "C103_reads_partial", "C103_unicode", "C103_compiled", "C103_windows", "C103_lost_violated"],"false for eight codes of CP932 (814C, 814E, 817D, 817E, 8180, 818B, 8198, 81F7): their lines give 0100xx instead of 01xx, which the Unicode encodings take, but no table does: CP932:SHIFT-JIS and every other character set loses them; proved for every text without them, and for the Unicode encodings with them")
add("C104","partial",["Verif.Props.C104_page_partial", "Verif.Props.C104_written", "Verif.Props.C104_reads", "Verif.Props.C104_source", "Verif.Props.C104_target", "Verif.Props.C104_decode", "Verif.Props.C104_encode", "Verif.Props.C104_bytes", "Verif.Props.C104_back", "Verif.Props.C104_round_trip_partial", "Verif.Props.C104_page_violated", "Verif.Props.C104_round_trip_violated", "Verif.Props.C104_compiled"],"The code page 037 is given as published in Spec/Cp037, not from /repo. False for the bytes AC and BC, which are read as U+0110 and U+203E instead of U+00D0 and U+00AF (the lines for them stand later in the file), and for the byte 0, which has no line. IBM-37:IBM-37 keeps every byte other than 0.")
add("C105","partial",["Verif.Props.C105_reads", "Verif.Props.C105_transcode", "Verif.Props.C105_family", "Verif.Props.C105_cp950","Verif.Props.C105_cp950_violated", "Verif.Props.C105_hkscs", "Verif.Props.C105_grows", "Verif.Props.C105_compiled"],"Reading proved in full for every list of files of two-byte codes and the eight shipped ones. That plain Big5 is read alike is proved for every code but those listed in C105_cp950: A2CC, A2CD, A2CE, C255 (ETEN, Big5E, 2003), A3E1 (Big5E lacks it), ten more in Big5-2003; for HKSCS, UAO 2.41 and 2.50 without exception. UAO as a target is not modelled (one of its lines writes the bytes 00 FF).")
add("C106","proved",["C106_tables", "C106_reads", "C106_source", "C106_target", "C106_round_trip", "C106_keeps", "C106_compiled"],"Of several lines of to/CCCII.txt for one character only the first, the one that counts (C50), is in the model's table.")
add("C107","proved",["C107_tables", "C107_encode", "C107_decode", "C107_text", "C107_round_trip", "C107_keeps"],"What happens outside these texts (characters without a code after double-byte codes, U+000E and U+000F, malformed input) is C40.")
add("C108","proved",["C108_gbk", "C108_gb2312", "C108_sjis", "C108_other_violated", "C108_alike", "C108_cp936"],"The characters of CP932 are those of its lines; eight of them are read as data with a needless zero byte (C103).")
