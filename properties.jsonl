{"id": "C01", "title": "Decoding is leftmost-longest tokenisation with ordered fallback", "statement": "Feeding a byte string in one bsdconv() call with flush set to a decoding (from) phase made of table codecs c0,c1,...: at every position the result is the data of the longest rule of the first codec in the list that has any rule matching there; if no codec matches, exactly one byte is skipped and the IERR counter goes up by exactly one. Nothing else is emitted, nothing is emitted out of order, and every byte is accounted for.", "quantifier": "every list of table codecs, every input byte string of any length", "why_tests_cant": "Tests run fixed strings against fixed shipped tables; the property ranges over every table and every string, including overlapping rules, rules that are prefixes of each other and back-tracking over pending partial matches.", "anchors": ["src/libbsdconv.c:bsdconv (case FROM)", "src/bsdconv.h:get_offset", "src/bsdconv.h:read_state", "src/bsdconv.h:LISTFREE"]}
{"id": "C02", "title": "Chunking of the input does not change the conversion", "statement": "Splitting one input into several consecutive bsdconv() calls (any split points) gives the same concatenated output and the same counters as a single call.", "quantifier": "every table codec list, every input and every way of cutting it into chunks", "why_tests_cant": "The number of split points is exponential and failures need a partial match that crosses a boundary and then dies.", "anchors": ["src/libbsdconv.c:bsdconv (case FROM)"]}
{"id": "C03", "title": "Unencodable characters are dropped one at a time and counted in OERR", "statement": "In an encoding (to) phase made of table codecs, the last of which has only one-symbol patterns (as every shipped encoder table), the incoming symbols are rewritten by longest match of the first codec that matches; a symbol no codec can match is removed, nothing is emitted for it, OERR goes up by exactly one, and the following symbols are unaffected.", "quantifier": "every table codec list and every symbol sequence", "why_tests_cant": "Requires all tables and all sequences; interaction between fallback, pending matches and errors is only sampled by tests.", "anchors": ["src/libbsdconv.c:bsdconv (case TO)"]}
{"id": "C04", "title": "Intermediate phases pass unmatched symbols through unchanged and in order", "statement": "In an inter phase made of table codecs, symbols are rewritten by longest match of the first codec that matches; a symbol that no codec matches is delivered to the next phase unchanged and in its original position, and no error counter changes.", "quantifier": "every table codec list and every symbol sequence", "why_tests_cant": "Same as above; a lost or duplicated symbol needs a particular overlap of rules.", "anchors": ["src/libbsdconv.c:bsdconv (case INTER)"]}
{"id": "C05", "title": "A pipeline computes the composition of its phases", "statement": "For a conversion FROM:INTER:...:TO of table codecs (the encoders' last tables having one-symbol patterns) fed in one piece, the bytes delivered after a flushed bsdconv() call equal the encoding of the inter rewrites of the decoding of the input, independently of the order in which the engine interleaves the phases.", "quantifier": "every number of phases, every table codecs, every input", "why_tests_cant": "The engine interleaves phases data-dependently (depth first with check-back and flush restarts); tests cannot enumerate schedules.", "anchors": ["src/libbsdconv.c:bsdconv (phase_begin, check back, flush)"]}
{"id": "C06", "title": "Every conversion call terminates", "statement": "Whatever is fed, decodable or not, in whatever chunks, with whatever flushes and output modes, every call of bsdconv() returns, if the codecs are well behaved: tables whose rules have data, the Unicode decoders (UTF-8 with any options but CESU and LOOSE together) and encoders, and callbacks that look at one datum, append to their output, change their private data and answer CONTINUE, DEADEND, MATCH or NEXTPHASE (SUBMATCH if they are the only codec of an INTER or TO phase).", "quantifier": "every instance of such codecs with any number of phases, every input, every chunking, every output mode, every history of calls", "why_tests_cant": "Termination of a goto-based loop that moves its cursor backwards cannot be tested.", "anchors": ["src/libbsdconv.c:bsdconv"]}
{"id": "C07", "title": "bsdconv_init makes an instance reusable: no residue of the previous conversion", "statement": "After bsdconv_init, whatever was fed before (including unflushed partial input), the next conversion behaves exactly as on a freshly created and initialised instance.", "quantifier": "every history of calls before bsdconv_init, every codec", "why_tests_cant": "Residue shows only for particular pairs of (unfinished history, next input).", "anchors": ["src/libbsdconv.c:bsdconv_init", "modules/from/CP950-UDA.c", "modules/from/_JIS.c", "modules/inter/_NF-ORDER.c"]}
{"id": "C08", "title": "Output modes deliver every pending byte exactly once and in order", "statement": "AUTOMALLOC, FILE and FD deliver exactly the concatenation of all pending output data and leave nothing pending; NULL discards exactly it; HOLD delivers nothing and leaves it pending, so that a later call delivers it in front of newer data.", "quantifier": "every pending output queue and every sequence of calls with any modes", "why_tests_cant": "Requires all queues and all mode sequences.", "anchors": ["src/libbsdconv.c:bsdconv (output switch)"]}
{"id": "C09", "title": "PREMALLOCED mode never overruns the caller's buffer and loses nothing", "statement": "With output mode PREMALLOCED and a caller buffer of n bytes, at most n bytes are written, the reported length is the number of bytes written, written bytes followed by what stays pending are exactly what was pending before, and a NULL/zero-length query reports the total pending size without consuming anything.", "quantifier": "every queue of data and every buffer size", "why_tests_cant": "Off-by-one in the remaining-space test only shows for particular data lengths.", "anchors": ["src/libbsdconv.c:bsdconv (BSDCONV_PREMALLOCED)"]}
{"id": "C10", "title": "PASS mode hands all output to the next instance in order and input chains are consumed whole", "statement": "With output mode PASS the data pending on the first instance become the input of the second in the same order and nothing stays behind; the second instance then consumes all of it, also when later input follows.", "quantifier": "every pending queue, every subsequent feeding of the second instance", "why_tests_cant": "Needs chains of at least two data followed by another call.", "anchors": ["src/libbsdconv.c:bsdconv (BSDCONV_PASS, input append)"]}
{"id": "C11", "title": "Buffers change hands without double free, leak or use after free in PASS mode", "statement": "In PASS mode, every heap buffer owned by a pending datum of the first instance is owned by exactly one datum afterwards (of the second instance), and no datum freed into the pool still owns a buffer.", "quantifier": "every pending queue with any mixture of owned and borrowed data", "why_tests_cant": "Ownership errors are silent in functional tests.", "anchors": ["src/libbsdconv.c:bsdconv (BSDCONV_PASS)", "src/bsdconv.h:dup_data_rt", "src/bsdconv.h:DATUM_FREE"]}
{"id": "C12", "title": "A flushed call leaves nothing undecided", "statement": "When bsdconv() returns from a call with flush set, no phase is waiting for more input: every fed byte has been converted, passed, or counted as an error.", "quantifier": "every table instance and every input", "why_tests_cant": "The flush loop restarts the engine; a phase left pending needs specific partial matches in several phases at once.", "anchors": ["src/libbsdconv.c:bsdconv (flush)"]}
{"id": "C13", "title": "UTF-8 decoder accepts exactly the well-formed multi-byte sequences", "statement": "With default options the UTF-8 decoder turns a byte sequence into one code point iff it is the shortest UTF-8 form of a code point in U+0080..U+1FFFFF that is not a surrogate, and the code point is the encoded one; every other sequence is rejected with no output at the first byte with which it can no longer be completed (a surrogate: at its last byte), or, if it is a proper beginning of a form, waits for more. Overlong forms, surrogates, stray continuation bytes, 0xF8..0xFF and ASCII are rejected.", "quantifier": "every byte sequence", "why_tests_cant": "2^32 sequences and more with options; tests use a handful.", "anchors": ["modules/from/_UTF-8.c:cbconv"]}
{"id": "C14", "title": "UTF-8 encode then decode is the identity", "statement": "For every non-surrogate code point from U+0080 to U+1FFFFF, encoding with UTF-8 yields the standard shortest form, and decoding that form yields the same code point.", "quantifier": "every code point in range", "why_tests_cant": "Two million code points and bit-level masks.", "anchors": ["modules/to/_UTF-8.c:cbconv", "modules/from/_UTF-8.c:cbconv"]}
{"id": "C15", "title": "UTF-8 decoder options widen acceptance exactly as documented", "statement": "overlong, loose, super and nul each admit exactly the extra class they name (overlong forms; lone surrogates; 5- and 6-byte forms; U+0000) and change nothing for sequences accepted by default.", "quantifier": "every option combination and every byte sequence", "why_tests_cant": "Option combinations times sequences.", "anchors": ["modules/from/_UTF-8.c:cbcreate", "modules/from/_UTF-8.c:cbconv"]}
{"id": "C16", "title": "CESU-8 surrogate pairs decode to the supplementary character", "statement": "With the cesu option, a 3-byte encoded lead surrogate followed by a 3-byte encoded trail surrogate decodes to the code point 0x10000 + (lead-0xD800)*0x400 + (trail-0xDC00).", "quantifier": "every pair of lead and trail surrogates (2^20 pairs)", "why_tests_cant": "The error only shows for pairs above U+1FFFF.", "anchors": ["modules/from/_UTF-8.c:COMMIT"]}
{"id": "C17", "title": "Truncated UTF-8 at end of input is reported and produces no character", "statement": "If the input ends in the middle of a multi-byte UTF-8 sequence, a flushed conversion counts the incomplete bytes in IERR and outputs no character for them.", "quantifier": "every truncated sequence", "why_tests_cant": "Depends on decoder-private state that survives the engine's error path.", "anchors": ["modules/from/_UTF-8.c:cbconv", "src/libbsdconv.c:bsdconv (flush, from_deadend)"]}
{"id": "C18", "title": "UTF-16 encode then decode is the identity, both byte orders", "statement": "For every code point U+0001..U+10FFFF that is not a surrogate, UTF-16BE/LE encoding emits 2 or 4 bytes with correct surrogates and decoding them returns the code point.", "quantifier": "every code point, both byte orders", "why_tests_cant": "1.1 million values; tests sample a few.", "anchors": ["modules/from/UTF-16BE.c", "modules/from/UTF-16LE.c", "modules/to/UTF-16BE.c", "modules/to/UTF-16LE.c"]}
{"id": "C19", "title": "UTF-16 encoder never emits the same bytes for two different characters", "statement": "Distinct unicode data accepted by the UTF-16 encoder give distinct output.", "quantifier": "every pair of unicode data", "why_tests_cant": "Collisions lie above U+10FFFF.", "anchors": ["modules/to/UTF-16BE.c"]}
{"id": "C20", "title": "UTF-32 encode then decode is the identity, both byte orders", "statement": "Every unicode datum with up to four significant bytes is encoded in exactly four bytes and decoded back to the same datum.", "quantifier": "every value below 2^32", "why_tests_cant": "2^32 values.", "anchors": ["modules/from/UTF-32BE.c", "modules/from/UTF-32LE.c", "modules/to/UTF-32BE.c", "modules/to/UTF-32LE.c"]}
{"id": "C21", "title": "UCS-2 encodes exactly the BMP", "statement": "UCS-2BE/LE emit exactly two bytes, equal to the code point, for data of the BMP and reject everything longer.", "quantifier": "every unicode datum", "why_tests_cant": "All data lengths and values.", "anchors": ["modules/to/UCS-2BE.c", "modules/to/UCS-2LE.c"]}
{"id": "C22", "title": "Percent and octal byte escapes round-trip and octal is range checked", "statement": "Every byte written as %XX or as a three-digit octal escape decodes to that byte; an octal escape above \\377 is not a byte and is rejected.", "quantifier": "every byte, every three octal digits", "why_tests_cant": "Needs all digit combinations.", "anchors": ["modules/from/ESCAPE.c", "modules/to/ESCAPE.c"]}
{"id": "C23", "title": "Unicode escapes round-trip", "statement": "Escaping a code point with the ESCAPE encoder in %u/\\u style and decoding it with the ESCAPE decoder returns the code point.", "quantifier": "every code point", "why_tests_cant": "Length-dependent formatting.", "anchors": ["modules/from/ESCAPE.c", "modules/to/ESCAPE.c"]}
{"id": "C24", "title": "Numeric HTML entities decode to their value", "statement": "A decimal or hexadecimal entity &#...; decodes to the unicode datum of its value (big-endian, no leading zeros), and an entity with a non-digit is rejected.", "quantifier": "every digit string of every length", "why_tests_cant": "Unbounded digit strings, 32-bit accumulation.", "anchors": ["modules/from/ASCII-NUMERIC-HTML-ENTITY.c"]}
{"id": "C25", "title": "The bsdconv text representation round-trips", "statement": "Dumping any sequence of data with the BSDCONV encoder and reading the text back with the BSDCONV decoder gives the same sequence of data, whatever the chunking of the text.", "quantifier": "every sequence of data of any bytes and lengths, every chunking", "why_tests_cant": "Unbounded sequences.", "anchors": ["modules/from/BSDCONV.c", "modules/to/BSDCONV.c"]}
{"id": "C26", "title": "GB18030 four-byte codes and code points correspond one to one", "statement": "For every code point of the algorithmic four-byte ranges, encoding gives four bytes in the legal ranges and decoding gives the code point back; conversely every accepted four-byte code re-encodes to itself.", "quantifier": "every code point and every four-byte code", "why_tests_cant": "Tables of ranges with linear arithmetic; errors at range boundaries.", "anchors": ["modules/from/_GB18030.c", "modules/to/_GB18030.c"]}
{"id": "C27", "title": "CP950 user-defined area maps distinct codes to distinct code points", "statement": "Two different accepted two-byte codes of the user-defined area never decode to the same code point.", "quantifier": "every pair of two-byte codes", "why_tests_cant": "Collisions involve trail bytes outside the documented range.", "anchors": ["modules/from/CP950-UDA.c"]}
{"id": "C28", "title": "Hangul composition and decomposition are inverse", "statement": "Decomposing any precomposed Hangul syllable and composing the result gives the syllable back, and the decomposition is the one of the Unicode standard.", "quantifier": "all 11172 syllables, any surrounding data", "why_tests_cant": "Arithmetic over all L/V/T.", "anchors": ["modules/inter/_NF-HANGUL-COMPOSITION.c", "modules/inter/_NF-HANGUL-DECOMPOSITION.c"]}
{"id": "C29", "title": "Canonical ordering is a stable sort of combining marks", "statement": "_NF-ORDER emits a permutation of its input in which every maximal run of characters with non-zero combining class is stably sorted by class and starters keep their positions.", "quantifier": "every sequence of data", "why_tests_cant": "All permutations of runs of any length.", "anchors": ["modules/inter/_NF-ORDER.c"]}
{"id": "C30", "title": "Canonical composition behaves as specified", "statement": "_NFC never loses or invents characters except by replacing a starter and a following non-blocked character by their table composite.", "quantifier": "every sequence of data and every composition table", "why_tests_cant": "Unbounded sequences.", "anchors": ["modules/inter/_NFC.c"]}
{"id": "C31", "title": "Whitespace derail/rerail is lossless", "statement": "WHITESPACE-RERAIL applied to the output of WHITESPACE-DERAIL restores the original data.", "quantifier": "every sequence of data", "why_tests_cant": "Unbounded sequences and counters.", "anchors": ["modules/inter/WHITESPACE-DERAIL.c", "modules/inter/WHITESPACE-RERAIL.c"]}
{"id": "C32", "title": "Ambiguous-width padding is removable", "statement": "AMBIGUOUS-UNPAD applied to the output of AMBIGUOUS-PAD restores the text.", "quantifier": "every sequence of data", "why_tests_cant": "Interaction of the one-bit state with following characters.", "anchors": ["modules/inter/AMBIGUOUS-PAD.c", "modules/inter/AMBIGUOUS-UNPAD.c"]}
{"id": "C33", "title": "TRIM-WIDTH output is the longest prefix that fits", "statement": "The output of TRIM-WIDTH#n is a prefix of the input with total display width at most n, and it is the longest such prefix.", "quantifier": "every sequence of data and every limit", "why_tests_cant": "All widths and limits.", "anchors": ["modules/inter/TRIM-WIDTH.c"]}
{"id": "C34", "title": "COUNT and WIDTH counters equal what they claim to count", "statement": "After any conversion, COUNT equals the number of data passed that satisfy the filters and the FULL/HALF/AMBI counters of WIDTH the number of full/half/ambiguous width characters, and the data pass through unchanged.", "quantifier": "every sequence of data, every filter set", "why_tests_cant": "Unbounded sequences.", "anchors": ["modules/inter/COUNT.c", "modules/inter/WIDTH.c"]}
{"id": "C35", "title": "PASS, NULL, RAW, BYTE and INSERT data plumbing", "statement": "inter PASS delivers all data unchanged and in order (with a limit/filter: exactly the data the filter admits), NULL delivers nothing, INSERT adds exactly its before/after data around each datum, RAW strips exactly the type byte.", "quantifier": "every sequence of data", "why_tests_cant": "Unbounded sequences.", "anchors": ["modules/inter/PASS.c", "modules/inter/NULL.c", "modules/inter/INSERT.c", "modules/to/RAW.c", "modules/to/PASS.c"]}
{"id": "C36", "title": "STRINGS keeps exactly the long enough printable runs", "statement": "STRINGS#n outputs exactly the maximal runs of data passing the filter of length at least n, in order.", "quantifier": "every sequence of data and every n", "why_tests_cant": "Unbounded runs.", "anchors": ["modules/inter/STRINGS.c"]}
{"id": "C37", "title": "REPLACE replaces exactly the non-overlapping occurrences of its pattern", "statement": "Occurrences found left to right are replaced, everything else is passed unchanged.", "quantifier": "every pattern, replacement and sequence of data", "why_tests_cant": "Self-overlapping patterns and end of input.", "anchors": ["modules/inter/REPLACE.c"]}
{"id": "C38", "title": "Newline normalisation", "statement": "UNIX (WIN, MAC) turns every CR LF, lone LF and lone CR into LF (CR LF, CR), leaves all else unchanged, is idempotent, and the last of several normalisations decides.", "quantifier": "every text", "why_tests_cant": "Unbounded texts with all interleavings of CR and LF.", "anchors": ["modules/inter/UNIX.txt", "modules/inter/WIN.txt", "modules/inter/MAC.txt"]}
{"id": "C39", "title": "Code-point range tests are exact", "statement": "The filters and width/ambiguity/combining-class lookups answer membership in their interval table correctly for every code point.", "quantifier": "every table (sorted and disjoint) and every code point; every shipped table is sorted and disjoint", "why_tests_cant": "Binary search boundaries over all code points.", "anchors": ["modules/filter/unicode_range.c", "modules/scorer/unicode_range.c", "modules/inter/WIDTH.c"]}
{"id": "C40", "title": "Shift states in EBCDIC output are balanced", "statement": "EBCDIC mixed encoders emit shift-out before double-byte data and shift-in before single-byte data, never twice in a row, and end in single-byte state after a flush; decoding restores the data.", "quantifier": "every sequence of single and double byte data", "why_tests_cant": "Unbounded sequences.", "anchors": ["modules/to/EBCDIC.c", "modules/from/EBCDIC.c"]}
{"id": "C41", "title": "Counters are a case-insensitive map", "statement": "bsdconv_counter returns the cell of its name regardless of case, creating it with value 0; distinct names have distinct cells that stay valid; reset(NULL) zeroes all and reset(name) exactly one.", "quantifier": "every sequence of counter operations and names", "why_tests_cant": "Unbounded histories.", "anchors": ["src/libbsdconv_counter.c"]}
{"id": "C42", "title": "The instance hash is a map", "statement": "hash_get returns the pointer last set for the key, hash_has tells whether a key is present, hash_del removes exactly one key.", "quantifier": "every sequence of set/get/has/del operations", "why_tests_cant": "Failures need at least two keys in a particular order.", "anchors": ["src/libbsdconv_hash.c"]}
{"id": "C43", "title": "Hex arguments parse to the bytes they denote, within the allocated buffer", "statement": "str2datum/str2data accept exactly strings of hex digits (separated by dots), return the denoted bytes, and never write outside the buffer they allocate.", "quantifier": "every string", "why_tests_cant": "Odd digit counts and separators.", "anchors": ["src/libbsdconv_util.c:str2datum", "src/libbsdconv_util.c:str2data"]}
{"id": "C44", "title": "Conversion strings survive parse and print", "statement": "Parsing a conversion string, printing it and parsing the result gives the same phases, codecs, arguments and phase types.", "quantifier": "every well-formed conversion string", "why_tests_cant": "All nestings of separators.", "anchors": ["src/libbsdconv.c:bsdconv_unpack", "src/libbsdconv.c:bsdconv_pack"]}
{"id": "C45", "title": "bsdconv_pack never writes outside its buffer", "statement": "The length computed before printing is at least the number of bytes printed including the terminator.", "quantifier": "every instance", "why_tests_cant": "Arguments appended to several alias parts.", "anchors": ["src/libbsdconv.c:bsdconv_pack"]}
{"id": "C46", "title": "Editing a conversion string edits exactly the addressed phase or codec", "statement": "insert_phase/replace_phase/insert_codec/replace_codec change exactly the addressed position and keep all other phases and codecs in order.", "quantifier": "every conversion string, every index (including negative ones)", "why_tests_cant": "All index values.", "anchors": ["src/libbsdconv_util.c"]}
{"id": "C47", "title": "Phase and codec indices resolve like Python indices and stay in range", "statement": "get_phase_index and get_codec_index map indices -n..-1 to the last n positions and 0..n-1 to themselves and never return a position outside the array.", "quantifier": "every index value and every size", "why_tests_cant": "All integers.", "anchors": ["src/libbsdconv_util.c:bsdconv_get_phase_index", "src/libbsdconv_util.c:bsdconv_get_codec_index"]}
{"id": "C48", "title": "Creating a converter is insensitive to white space", "statement": "bsdconv_create ignores blanks, tabs, form feeds and line ends anywhere in the conversion string.", "quantifier": "every string", "why_tests_cant": "All positions.", "anchors": ["src/libbsdconv.c:bsdconv_create"]}
{"id": "C49", "title": "Alias expansion terminates and ends in existing codecs", "statement": "bsdconv_create replaces aliases by their definitions until all names are loadable codecs, or fails.", "quantifier": "every alias table and every conversion", "why_tests_cant": "Cyclic alias definitions.", "anchors": ["src/libbsdconv.c:bsdconv_create", "src/libbsdconv_module.c:bsdconv_solve_alias"]}
{"id": "C50", "title": "Compiled tables read back as the rules they were built from", "statement": "For every rule file without wildcards or case flags, looking a byte sequence up through the compiled image finds the data of the first rule for exactly that sequence, and sequences that are only proper prefixes are marked as continuing.", "quantifier": "every list of rules", "why_tests_cant": "Unbounded rule files, sharing of data suffixes, offsets.", "anchors": ["src/bsdconv-mktable.c", "src/bsdconv.h:get_offset", "src/bsdconv.h:read_state"]}
{"id": "C51", "title": "The compiled image layout is sound", "statement": "In the image written by bsdconv-mktable the state records, transition arrays and data cells occupy disjoint byte ranges inside the file, and reading a state at the offset of a state returns its status, bounds and transitions.", "quantifier": "every automaton", "why_tests_cant": "Offset arithmetic over unbounded automata.", "anchors": ["src/bsdconv-mktable.c (Allocating/Write)", "src/bsdconv.h:read_state", "src/bsdconv.h:get_offset"]}
{"id": "C52", "title": "Case-insensitive rules match both cases", "statement": "A rule marked ! matches its pattern in either letter case, for every letter.", "quantifier": "every letter", "why_tests_cant": "The table has 256 entries; only some are wrong.", "anchors": ["src/bsdconv-mktable.c:ci_table"]}
{"id": "C53", "title": "The file-backed allocator never returns overlapping blocks", "statement": "Blocks returned by fmalloc are disjoint, inside their pool, and fmfree never releases memory that belongs to a pool.", "quantifier": "every sequence of allocation requests", "why_tests_cant": "Unbounded histories.", "anchors": ["src/libfmalloc.c"]}
{"id": "C54", "title": "Codec arguments are parsed as a list of key=value pairs", "statement": "An argument string k1=v1&k2&... is presented to the codec as that list in order, a key without = having no value, only the first = separating.", "quantifier": "every argument string", "why_tests_cant": "All placements of separators.", "anchors": ["src/libbsdconv.c:_cbcreate"]}
{"id": "C55", "title": "Data list pool: nodes are reused but never shared", "statement": "A list node taken from the pool is in no queue and a node released to the pool leaves its queue; a node is never in two lists.", "quantifier": "every history of allocate/free", "why_tests_cant": "Aliasing errors are silent.", "anchors": ["src/bsdconv.h:DATA_MALLOC", "src/bsdconv.h:DATUM_FREE"]}
{"id": "C56", "title": "Encoder tables with several-symbol patterns drop only what they cannot encode", "statement": "The claim of C03 without the restriction to one-symbol patterns in the last table: an unencodable symbol is dropped alone and counted once, also when it is the beginning of a longer pattern.", "quantifier": "every encoder table and symbol sequence", "why_tests_cant": "Needs a table and an input that dead-ends inside a pattern.", "anchors": ["src/libbsdconv.c:bsdconv (to_deadend)"]}
{"id": "C57", "title": "Repeated calls with a fixed buffer drain all output", "statement": "Calling the conversion repeatedly in PREMALLOCED mode with the same buffer size eventually delivers every output byte.", "quantifier": "every output and every buffer size", "why_tests_cant": "Depends on the sizes of the pieces produced.", "anchors": ["src/libbsdconv.c:bsdconv (BSDCONV_PREMALLOCED)"]}
{"id": "C58", "title": "Parsing a conversion string stays within its arrays", "statement": "Parsing writes only inside the arrays it allocated, for every conversion string.", "quantifier": "every string", "why_tests_cant": "The stray write is harmless on most stacks, so no test fails.", "anchors": ["src/libbsdconv.c:bsdconv_unpack (phase_off)"]}
{"id": "C59", "title": "Arguments given to an aliased codec are kept by alias expansion", "statement": "When a codec written with arguments is an alias, the codecs of its definition receive these arguments in addition to their own.", "quantifier": "every alias and argument string", "why_tests_cant": "The arguments are read from freed memory; allocators often leave it intact.", "anchors": ["src/libbsdconv.c:bsdconv_create", "src/libbsdconv.c:bsdconv_pack"]}
{"id": "C60", "title": "GB18030 four-byte codes listed in the table decode, whatever the chunking", "statement": "Every four-byte code with a rule of its own in the GB18030 table (U+0080 ... U+0451 and others) decodes to the data of that rule, independently of how the input is divided into calls.", "quantifier": "all listed four-byte codes, all divisions of the input into calls", "why_tests_cant": "depends on where chunk boundaries fall relative to a table rule and a callback rule sharing a prefix", "anchors": ["modules/from/_GB18030.c", "modules/from/_GB18030.txt", "src/bsdconv-mktable.c (SUBMATCH_SUBROUTINE)", "src/libbsdconv.c:bsdconv (FROM, SUBMATCH_SUBROUTINE)"]}
{"id": "C61", "title": "ANY as last output codec leaves no output errors", "statement": "In an output phase X,ANY#data&ERROR=counter every datum X cannot encode comes out as the given data in its place, the counter grows by exactly the number of such data and no other output error is counted.", "quantifier": "every stream of data, every codec X that decides datum by datum, every chunking", "why_tests_cant": "must hold for every mixture of encodable and unencodable data", "anchors": ["modules/to/ANY.c:cbconv", "src/libbsdconv.c:bsdconv (to_deadend)"]}
{"id": "C62", "title": "Normalisation keeps data that are not characters", "statement": "The normalisation codecs (NFD, NFC and their parts) pass data that are not unicode data through, in place.", "quantifier": "every stream mixing unicode and other data", "why_tests_cant": "Tests feed text only.", "anchors": ["modules/inter/_NF-HANGUL-DECOMPOSITION.c:cbconv", "modules/inter/_NF-HANGUL-COMPOSITION.c:cbconv", "modules/inter/_NF-ORDER.c:cbconv"]}
{"id": "C63", "title": "Converting text between encodings converts every character, however the input is cut", "statement": "A conversion from one of UTF-8, UTF-16, UTF-32 or a table character set to one of UTF-8, UTF-16, UTF-32, UCS-2 or a table character set gives, for every text of characters U+0001..U+10FFFF in the source encoding and every division of its bytes into calls, exactly the target encoding of the characters the target can express, counts each other character once as an output error and no input error; converting there and back gives the original bytes.", "quantifier": "all texts, all pairs of encodings listed, all divisions of the bytes into calls (also inside characters), all output modes, any rewriting phases in between", "why_tests_cant": "combines unbounded texts, every chunking and the joint behaviour of the engine, tables and codec state machines", "anchors": ["src/libbsdconv.c:bsdconv", "modules/from/_UTF-8.c", "modules/to/_UTF-8.c", "modules/from/UTF-16BE.c", "modules/from/UTF-16LE.c", "modules/from/UTF-32BE.c", "modules/to/UTF-16BE.c", "modules/to/UTF-32BE.c", "modules/to/UCS-2BE.c", "modules/from/ASCII.txt", "modules/to/ASCII.txt"]}
{"id": "C64", "title": "Numeric HTML entities round-trip", "statement": "Writing a code point with the decimal or hexadecimal numeric-entity encoder and reading it with the numeric-entity decoder gives the code point; the written entity is &#, a numeral of the code point, ;.", "quantifier": "every code point from 1 to 2^32-1, any following input", "why_tests_cant": "All numbers, both radices, any digit count.", "anchors": ["modules/from/ASCII-NUMERIC-HTML-ENTITY.c", "modules/to/ESCAPE.c", "modules/to/alias"]}
{"id": "C65", "title": "A rule file is read as the rules its text denotes", "statement": "Every text of lines - an optional !, a pattern of two-digit hexadecimal bytes, commas and stars, blanks, an optional ?, data, an optional comment - and comment lines is read by bsdconv-mktable as exactly the rules written, and the compiled file finds exactly these; other lines are reported.", "quantifier": "every text of lines shorter than 1023 characters", "why_tests_cant": "Unbounded files and lines, any layout of blanks and comments.", "anchors": ["src/bsdconv-mktable.c:main (reading)"]}
{"id": "C66", "title": "White space set aside is never lost", "statement": "Every white space datum taken out by WHITESPACE-DERAIL is put out again by WHITESPACE-RERAIL before the end of the flushed conversion, whatever the phases in between do to the other data.", "quantifier": "every input, every behaviour and delay of the phases in between", "why_tests_cant": "The counters of the two codecs are compared; what matters is how many data the phases in between drop or add, over unbounded histories.", "anchors": ["modules/inter/WHITESPACE-DERAIL.c", "modules/inter/WHITESPACE-RERAIL.c", "src/libbsdconv.c:bsdconv"]}
{"id": "C67", "title": "Normalisation to NFD and NFC is the Unicode normalisation, idempotent and canonical", "statement": "For every text, however it is cut into pieces, the conversion NFD gives Unicode normalisation form D (full decomposition, then canonical ordering) and the conversion NFC gives form C (form D, then canonical composition including Hangul). Applying NFD or NFC again changes nothing, a text and its NFC have the same NFD, and two texts have the same NFC exactly if they have the same NFD.", "quantifier": "all sequences of characters, all chunkings and output modes, all other phases around it", "why_tests_cant": "texts are unbounded, marks can stand in any order, and five phases with hidden state work on them at once", "anchors": ["modules/inter/_NFD.txt", "modules/inter/_NFC-MAP.txt", "modules/inter/_NFC.c", "modules/inter/_NF-ORDER.c", "modules/inter/_NF-HANGUL-COMPOSITION.c", "modules/inter/_NF-HANGUL-DECOMPOSITION.c", "modules/inter/alias"]}
{"id": "C68", "title": "GB18030 text written by the encoder is read back by the shipped decoder table", "statement": "For every code point for which the GB18030 encoder computes a four-byte code, the decoder with the shipped rule file, given this code followed by any input, takes exactly the four bytes and puts out the code point.", "quantifier": "every code point with a computed code (about 1.08 million), every input behind it, every file of listed two- and four-byte codes beside the callback rules", "why_tests_cant": "A million codes, and the result depends on how the compiler combines overlapping callback and plain rules.", "anchors": ["modules/from/_GB18030.txt", "modules/from/_GB18030.c", "modules/to/_GB18030.c", "src/bsdconv-mktable.c"]}
{"id": "C69", "title": "Every conversion call terminates, whatever codecs are used", "statement": "bsdconv() returns for every input on every instance, whatever modules of the distribution and options the conversion string names.", "quantifier": "every conversion string, every history of calls", "why_tests_cant": "A hang needs a certain cut of the input into chunks behind a certain option; it shows up only as a process that never returns.", "anchors": ["src/libbsdconv.c:bsdconv (pass_to_next_phase, from_deadend)", "modules/from/_UTF-8.c cbconv"]}
{"id": "C70", "title": "UTF-8 input with errors: what is text comes through, what is not is counted", "statement": "Of any bytes given in one flushed piece that do not end in the middle of a character, the conversion from UTF-8 puts out exactly the characters found reading from left to right, in their order; every byte that belongs to none of them is skipped and counted in ierr, so length of input = bytes of the characters + errors.", "quantifier": "every byte sequence, every target encoding of C63, every output mode", "why_tests_cant": "malformed input is unbounded in kind: wrong lead bytes, missing or extra continuation bytes, overlong and surrogate forms in any combination", "anchors": ["modules/from/_UTF-8.c", "modules/from/ASCII.txt", "src/libbsdconv.c:bsdconv (from_deadend)"]}
{"id": "C71", "title": "UTF-16 input with errors: decoding resynchronises", "statement": "After an unpaired surrogate, the conversion from UTF-16 puts out the characters of the rest of the text.", "quantifier": "every text behind an unpaired surrogate", "why_tests_cant": "the loss of alignment depends on the history of the input", "anchors": ["modules/from/UTF-16BE.c", "modules/from/UTF-16LE.c", "src/libbsdconv.c:bsdconv (from_deadend)"]}
{"id": "C72", "title": "Character-for-character conversions do what their rule files say, and doing them twice is doing them once", "statement": "A conversion a:T1:..:Tn:b through rule files that replace characters (LOWER, UPPER, CASEFOLD, FULL, HALF, ASCIIFOLD, KANJI, HANJA, SUB, SUPER) gives, for every text and chunking, the text as the rules of T1, then T2.. make it, the first of several rules for a character being in charge; and T:T gives the same as T.", "quantifier": "every text, every chunking, every chain of such conversions, every encoding of C63", "why_tests_cant": "The tables have thousands of rules, some characters have two, and the values of one rule may be keys of others.", "anchors": ["modules/inter/LOWER.txt", "modules/inter/UPPER.txt", "modules/inter/CASEFOLD.txt", "modules/inter/FULL.txt", "modules/inter/HALF.txt", "modules/inter/ASCIIFOLD.txt", "modules/inter/KANJI.txt", "modules/inter/HANJA.txt", "modules/inter/SUB.txt", "modules/inter/SUPER.txt", "src/libbsdconv.c:bsdconv", "src/bsdconv-mktable.c"]}
{"id": "C73", "title": "Case folding does not depend on case", "statement": "A text, its lower case and its upper case are case-folded to the same: LOWER:CASEFOLD and UPPER:CASEFOLD give the same as CASEFOLD.", "quantifier": "every text", "why_tests_cant": "three tables of about 1500 rules each, with duplicates and multi-character values, on unbounded texts", "anchors": ["modules/inter/LOWER.txt", "modules/inter/UPPER.txt", "modules/inter/CASEFOLD.txt"]}
{"id": "C74", "title": "Half and full width undo each other", "statement": "FULL:HALF gives the same as HALF and HALF:FULL the same as FULL, so a text in half width comes back from full width unchanged and the other way round; printable ASCII is taken to U+3000, U+FF01..U+FF5E.", "quantifier": "every text", "why_tests_cant": "unbounded texts, two tables that must be inverse to each other on all their keys", "anchors": ["modules/inter/FULL.txt", "modules/inter/HALF.txt"]}
{"id": "C75", "title": "Chinese conversions agree with each other", "statement": "ZHCN and ZHTW are idempotent; a text and its traditional form have the same simplified form, a text and its simplified form the same traditional form (as far as the character-for-character tables go).", "quantifier": "every text", "why_tests_cant": "two tables of about 7500 rules each, on unbounded texts", "anchors": ["modules/inter/ZHCN.txt", "modules/inter/ZHTW.txt"]}
{"id": "C76", "title": "Character sets given by tables: reading, writing, and back", "statement": "X:b reads a text in a legacy character set X (codes of one or two bytes) as the characters its table says, a:X writes every character that has a code as that code and leaves out and counts the others, for every text and chunking; and X:X gives every text in X back unchanged.", "quantifier": "every text in the character set, every chunking, every encoding on the other side", "why_tests_cant": "The tables have up to 24000 lines in two separately maintained files that must be inverse to each other; the texts are unbounded and cut anywhere.", "anchors": ["modules/from/_ISO-8859-1.txt", "modules/to/_ISO-8859-1.txt", "modules/from/_CP1251.txt", "modules/from/_CP1252.txt", "modules/from/_SHIFT-JIS.txt", "modules/from/_CP949.txt", "modules/from/_CP936.txt", "modules/from/_GBK.txt", "modules/from/alias", "modules/to/alias", "modules/from/FALLBACK-UNICODE.txt", "src/libbsdconv.c:bsdconv", "src/bsdconv-mktable.c"]}
{"id": "C77", "title": "No character that can be read from a character set is lost or changed when written to it", "statement": "For every character set X that can be both read and written: X:X loses no character and changes no code that is valid in X.", "quantifier": "every valid text in CP1253, CP874, SHIFT-JIS, CP936, GB2312, BIG5", "why_tests_cant": "needs every code of every table, and the order of the tables in the aliases", "anchors": ["modules/to/_CP1253.txt", "modules/to/_CP874.txt", "modules/to/_SHIFT-JIS.txt", "modules/to/_CP936.txt", "modules/to/_GB2312.txt", "modules/from/_UAO250.txt", "modules/to/_CP950.txt", "modules/from/alias", "modules/to/alias"]}
{"id": "C78", "title": "Compatibility normalisation and how the four normalisation forms fit together", "statement": "NFKD and NFKC give the compatibility normalisation forms KD and KC of the characters that go through, for every text, and doing either twice is doing it once; NFKD after NFD, NFC or NFKC gives the same as NFKD, a text in form KD is in form D, a text in form KC in form C, and two texts have the same form KC exactly if they have the same form KD.", "quantifier": "every text, anywhere in a conversion", "why_tests_cant": "The laws tie four tables of up to 5700 rules and three algorithms together on unbounded texts with marks in any order.", "anchors": ["modules/inter/_NFKD.txt", "modules/inter/_NFD.txt", "modules/inter/_NFC-MAP.txt", "modules/inter/_NF-ORDER.c", "modules/inter/_NF-HANGUL-DECOMPOSITION.c", "modules/inter/_NF-HANGUL-COMPOSITION.c", "modules/inter/_NFC.c", "modules/inter/alias", "src/libbsdconv.c:bsdconv"]}
{"id": "C79", "title": "A conversion through several phases is the composition of what they do, from encoding to encoding", "statement": "a:F1:..:Fn:b, where the Fi turn texts into texts (NFD, NFC, NFKD, NFKC, rule files), reads the bytes of a text in a, cut anywhere, and writes the text Fn(..F1(text)) in b; in particular all the laws between the normalisation forms hold of texts in an encoding, and normalising twice is normalising once.", "quantifier": "every text, every chunking, every chain of such phases, every encoding of C63 or character set of C76", "why_tests_cant": "unbounded texts, any number of phases each with its own state, and chunk boundaries inside characters", "anchors": ["src/libbsdconv.c:bsdconv", "modules/inter/alias", "modules/inter/_NFD.txt", "modules/inter/_NFKD.txt", "modules/inter/_NFC.c", "modules/inter/_NF-ORDER.c"]}
{"id": "C80", "title": "NFKD-CASEFOLD is a form for caseless comparison", "statement": "NFKD-CASEFOLD gives a text in which nothing is left to fold or decompose, doing it twice is doing it once, and texts that differ only in the spelling of accents or in case have the same NFKD-CASEFOLD form.", "quantifier": "every text", "why_tests_cant": "eleven phases with tables of thousands of rules that feed one another, and marks whose order matters, on unbounded texts", "anchors": ["modules/inter/alias", "modules/inter/CASEFOLD.txt", "modules/inter/LOWER.txt", "modules/inter/_NFD.txt", "modules/inter/_NFKD.txt", "modules/inter/_NF-ORDER.c"]}
{"id": "C81", "title": "JIS (ISO-2022-JP) text is read and written", "statement": "JIS:b reads a text of ASCII, JIS X 0201, JIS X 0208 and JIS X 0212 characters with the escape sequences that switch between them, cut anywhere; the codes after an escape sequence are read in the set it announces until the next one; a:JIS writes text that JIS reads back.", "quantifier": "every sequence of characters and escape sequences, every chunking, every target encoding", "why_tests_cant": "the meaning of a byte depends on an escape sequence arbitrarily far back, and chunks may cut escape sequences", "anchors": ["modules/from/_JIS.c", "modules/from/_JIS.txt", "modules/from/_JIS0201.txt", "modules/from/_JIS0208.txt", "modules/from/_JIS0212.txt", "modules/to/_JIS0212.txt", "modules/from/alias", "modules/to/alias", "src/libbsdconv.c:bsdconv"]}
{"id": "C82", "title": "A last codec ANY turns undecodable input into a replacement, and counts it", "statement": "With X,..,ANY#data as decoding phase no decoding error is left: the output is that of X,.. with data in place of each byte they cannot read, and the counter given with ERROR goes up by their number; UTF-8 with errors, cut anywhere, comes out as its characters with the replacement at each byte that belongs to none.", "quantifier": "every input, every choice of codecs before ANY, every chunking (even inside broken sequences)", "why_tests_cant": "errors may be anywhere in an unbounded input and across chunk boundaries, with the state of the other codecs after a failure", "anchors": ["modules/from/ANY.c", "modules/from/ANY.txt", "modules/from/_UTF-8.c", "modules/from/ASCII.txt", "src/libbsdconv.c:bsdconv"]}
{"id": "C83", "title": "Terminal control sequences go through a conversion as they are", "statement": "ANSI-CONTROL before the other decoders takes each terminal control sequence as one piece, byte for byte, and leaves the text between them to the others, however the input is cut; ANSI-CONTROL,UTF-8:UTF-8,ANSI-CONTROL gives every such text back unchanged; phases that change characters leave control sequences alone.", "quantifier": "every sequence of control sequences and characters, every chunking, every following phase", "why_tests_cant": "the sequences are of any length and number, cut anywhere, and the buffer of the codec is a state carried across calls and failures", "anchors": ["modules/from/ANSI-CONTROL.c", "modules/from/ANSI-CONTROL.txt", "modules/to/PASS.c", "modules/filter/ANSI.c", "modules/filter/type.c", "modules/to/alias", "src/libbsdconv.c:bsdconv"]}
{"id": "C84", "title": "The command line program converts many files as it converts each alone", "statement": "bsdconv conversion file ... writes, one after the other, what it writes for each file alone, up to the first that cannot be opened; how the files are read in chunks does not matter for texts; the error counts reported with a file are those of that file.", "quantifier": "every conversion whose codecs have an init, every list of files, every way fread may cut them, every state an earlier file left in the instance", "why_tests_cant": "an unfinished character at the end of one file must not reach the next, for every pair of files and every boundary of the read buffer", "anchors": ["src/bsdconv.c:bsdconv_file", "src/bsdconv.c:main", "src/libbsdconv.c:bsdconv_init", "src/libbsdconv.c:bsdconv"]}
{"id": "C85", "title": "In-place conversion loses nothing, whenever the program is killed", "statement": "With -i, whenever the program dies, each file is there with its old contents or the converted ones; afterwards each file holds its contents converted, no other file is changed and no temporary file is left; if the output cannot be written, the file keeps its contents.", "quantifier": "every list of files (also with repetitions), every conversion, every crash point between two steps on the file system, every temporary name, every size of the pieces written", "why_tests_cant": "a crash may happen between any two system calls, and tests do not kill the program there", "anchors": ["src/bsdconv.c:main", "src/bsdconv.c:bsdconv_file"]}
{"id": "C86", "title": "Looking up an alias gives its definition, and nothing else is an alias", "statement": "bsdconv_solve_alias returns, for every name in the alias list of a phase type and in any mixture of upper and lower case, the definition in that list, and for LOCALE the character set named by LC_ALL, LC_CTYPE or LANG; for any other name it returns NULL.", "quantifier": "every name as a string of bytes, every value of the environment variables, every line of the four shipped alias lists, every automaton for the tables", "why_tests_cant": "the lookup is itself a conversion: every name goes through three phases with longest matches, where one name may begin with another, and the number of possible names is unbounded", "anchors": ["src/libbsdconv_module.c:bsdconv_solve_alias", "modules/inter/ALIAS-FROM.c:cbconv", "modules/inter/ALIAS-INTER.c:cbconv", "modules/inter/COUNT.c:cbconv", "modules/from/alias", "modules/to/alias", "modules/inter/alias", "modules/filter/alias", "src/libbsdconv.c:bsdconv"]}
{"id": "C87", "title": "A page of character pictures is made without writing past a buffer", "statement": "to ASCII-HTML-UNICODE-IMG turns each character of a text into an img element whose address names its code point, and ASCII-HTML-INFO into the same inside a link; different characters get different elements, nothing else is written and nothing counted as an error; data of other types are refused and counted, or written as their kind says; no buffer of the codec is overrun, for any data that reach it.", "quantifier": "every text in every chunking and every decoder; every datum, of any type and length", "why_tests_cant": "whether a fixed buffer suffices depends on the longest datum an earlier phase may make, which has no bound", "anchors": ["modules/to/ASCII-HTML-UNICODE-IMG.c:cbconv", "modules/to/ASCII-HTML-INFO.c:cbconv", "src/libbsdconv.c:bsdconv"]}
{"id": "C88", "title": "Training and scoring agree", "statement": "SCORE-TRAIN passes a text on unchanged and leaves in the score file, for every character, the number of its occurrences but at most 3, counting earlier runs, and in the list file each new character once in order of appearance; SCORE passes a text on unchanged and adds to its counter the sum of the scores of its characters in that file (0 for characters not in it).", "quantifier": "every text and chunking, every earlier contents of the files, every following phase", "why_tests_cant": "the contents of a file after arbitrarily many runs are a function of the whole history", "anchors": ["modules/inter/SCORE-TRAIN.c:cbconv", "modules/inter/SCORE.c:cbconv", "src/libbsdconv.c:bsdconv"]}
{"id": "C89", "title": "The log codecs show the data of a conversion exactly", "statement": "to BSDCONV-LOG and BSDCONV-OUTPUT write each datum that reaches them once, in order, as its bytes in hexadecimal with its flags on a line of the log, and from BSDCONV-LOG each byte it reads, however the input is cut; nothing is put out and no error is counted; from the log one can tell the sequence of data.", "quantifier": "every sequence of data, every chunking", "why_tests_cant": "the log is only useful if no two different conversions give the same log, whatever the data", "anchors": ["modules/to/BSDCONV-LOG.c:cbconv", "modules/to/BSDCONV-OUTPUT.c:cbconv", "modules/from/BSDCONV-LOG.c:cbconv", "src/libbsdconv.c:bsdconv"]}
{"id": "C90", "title": "A bonus for characters leaves the text as it is", "statement": "ZH-BONUS and ZH-BONUS-PHRASE pass every text on unchanged and add to the counter SCORE the sum of the bonuses their tables give to its characters and phrases.", "quantifier": "every text in every encoding and chunking, every following phase, every automaton for the tables", "why_tests_cant": "the rows call back in the middle of a match, and whether a row is taken for other characters too can only be seen by looking at every character", "anchors": ["modules/inter/BONUS.c:cbconv", "modules/inter/ZH-BONUS.txt", "modules/inter/ZH-BONUS-PHRASE.txt", "src/libbsdconv.c:bsdconv"]}
{"id": "C91", "title": "Characters with control sequences between their bytes are mended", "statement": "BIG5-DEFRAG moves every control sequence that stands between the two bytes of a Big5 character behind the character, keeps the order of the sequences and of the other data, changes nothing else, and loses nothing.", "quantifier": "every sequence of data, every chunking, every phase before and after", "why_tests_cant": "the codec holds data over calls; that nothing is lost or reordered concerns every stream and every place where it may be cut or end", "anchors": ["modules/inter/BIG5-DEFRAG.c:cbconv", "modules/inter/BIG5-DEFRAG.c:cbinit", "src/libbsdconv.c:bsdconv"]}
{"id": "C92", "title": "The list of codecs is complete, in order and safe to make", "statement": "bsdconv_modules_list returns, in alphabetical order and ended by NULL, the names of all modules of a kind that are installed and all their aliases, nothing else, however the directory is read, and never writes outside its array.", "quantifier": "every directory, in every order, and every alias file", "why_tests_cant": "the array grows with the number of files and lines, which has no bound, and the lines are read through a buffer of fixed size", "anchors": ["src/libbsdconv_module.c:bsdconv_modules_list", "src/libbsdconv_module.c:bsdconv_module_check", "src/libbsdconv_module.c:scmp", "modules/from/alias", "modules/to/alias", "modules/inter/alias"]}
{"id": "C93", "title": "Completion offers exactly the codecs that fit", "statement": "bsdconv-completion prints, once each, every way to go on from the conversion typed so far: what was typed in front of the last codec, in upper case, followed by a codec that can stand there and begins with what was typed of it; quotes around the text do not matter and no memory outside its buffers is touched.", "quantifier": "every text typed and every set of installed codecs", "why_tests_cant": "which separators come in which order in the text, and how many codecs fit, is unbounded", "anchors": ["src/bsdconv-completion.c:main", "src/bsdconv-completion.c:item_in_array", "src/libbsdconv_module.c:bsdconv_modules_list"]}
{"id": "C94", "title": "A filter is found under its name and its aliases only", "statement": "Loading a filter by name always returns: the filter of that name in any mixture of cases, else the one its alias stands for, else nothing; a scorer is found under its own name only.", "quantifier": "every name, every set of installed modules", "why_tests_cant": "the loop goes on as long as lookups give new names; that it ends for every name is a fact about every possible result of a conversion", "anchors": ["src/libbsdconv_filter.c:load_filter", "src/libbsdconv_scorer.c:load_scorer", "src/libbsdconv_module.c:bsdconv_solve_alias", "src/libbsdconv_module.c:bsdconv_module_check", "modules/filter/alias"]}
{"id": "C95", "title": "bsdconv-man always ends and shows the right page", "statement": "bsdconv-man shows the page of the codec named, following redirections, or what the alias of that name stands for, or says that there is no page or no such codec; for anything else it prints its usage; it always returns and touches no memory it does not own.", "quantifier": "every argument, every set of pages, codecs and aliases", "why_tests_cant": "redirections can form chains and cycles of any length, and pages and arguments can have any contents", "anchors": ["src/bsdconv-man.c:man", "src/bsdconv-man.c:main", "modules/from/UTF-16LE.man", "src/libbsdconv_module.c:bsdconv_solve_alias", "src/libbsdconv_module.c:bsdconv_module_check"]}
{"id": "C96", "title": "Named character references stand for their characters", "statement": "ASCII-NAMED-HTML-ENTITY reads every reference &name; of its table, with the name spelled exactly or, where that is not ambiguous, in any mixture of cases, as the character HTML gives it, and writes every such character as its reference; reading what was written gives the text back.", "quantifier": "every text of references and ASCII characters, every chunking, every other encoding", "why_tests_cant": "names with capitals compete with those in small letters for the same strings, and there are as many strings as ways to spell them", "anchors": ["modules/from/ASCII-NAMED-HTML-ENTITY.txt", "modules/to/ASCII-NAMED-HTML-ENTITY.txt", "src/bsdconv-mktable.c:main", "src/libbsdconv.c:bsdconv"]}
{"id": "C97", "title": "BIG5-5C undoes and makes doubled backslashes", "statement": "With BIG5-5C in front of BIG5, a text in which characters whose second byte is 5C are followed by another 5C, or not, is read as its characters, and is written with the second 5C; reading what was written gives the text back.", "quantifier": "every text, every chunking (also between the backslashes), every other encoding", "why_tests_cant": "whether a 5C belongs to the character in front of it, is the added one or stands for itself depends on all bytes before it", "anchors": ["modules/from/BIG5-5C.txt", "modules/to/BIG5-5C.txt", "src/libbsdconv.c:bsdconv"]}
{"id": "C98", "title": "BYTE carries what cannot be decoded through unchanged", "statement": "With BYTE as the last codec on both sides (UTF-8,BYTE:UTF-8,BYTE and the like) every input comes out as it was and no errors are counted; BYTE:HEX gives the bytes as pairs of capital hexadecimal digits, and HEX:BYTE gives back the bytes from such pairs in any mixture of cases.", "quantifier": "all byte sequences, every chunking", "why_tests_cant": "which bytes no other codec takes depends on everything around them and on what the decoder still holds", "anchors": ["modules/from/BYTE.txt", "modules/to/BYTE.txt", "modules/from/HEX.txt", "modules/to/HEX.txt", "modules/from/_UTF-8.c:cbconv", "src/libbsdconv.c:bsdconv"]}
{"id": "C99", "title": "X-TRANS replaces what the set lacks, and nothing else", "statement": "With CP936-TRANS, GBK-TRANS or CP950-TRANS behind or before CP936, GBK or BIG5, a character the set has is written as before, one it lacks is written as the replacement the table gives, and what has neither is left out and counted; reading the output as the set gives a text in which every character the set had and keeps is unchanged and the others are replaced by characters of the set, and converting the output once more changes nothing.", "quantifier": "every text, every chunking, every source encoding", "why_tests_cant": "tables with thousands of lines have to agree with other tables line by line, for every text", "anchors": ["modules/to/CP936-TRANS.txt", "modules/to/GBK-TRANS.txt", "modules/to/CP950-TRANS.txt", "modules/to/GB2312-TRANS.txt", "modules/to/_CP936.txt", "modules/to/_GBK.txt", "modules/to/_CP950.txt", "src/libbsdconv.c:bsdconv"]}
{"id": "C100", "title": "Phrase tables replace the longest row that is there, from left to right", "statement": "UPSIDEDOWN, KANA-PHONETIC, NL2BR, ZHTW-WORDS, UNIX, WIN and MAC turn a text into the one in which, read from left to right, at every place the longest sequence of characters that is a row of the rule file is replaced and a character no row begins at stays; there is exactly one such text, it comes out however the input was cut, also inside a row or a character, and no errors are counted by the phase; any other file of such rows does the same.", "quantifier": "every text, every chunking, every source and target encoding, every rule file with such rows", "why_tests_cant": "the rows overlap, so what is replaced depends on the text in front and behind, and on input that has not come yet", "anchors": ["modules/inter/UPSIDEDOWN.txt", "modules/inter/KANA-PHONETIC.txt", "modules/inter/NL2BR.txt", "modules/inter/ZHTW-WORDS.txt", "modules/inter/UNIX.txt", "modules/inter/WIN.txt", "modules/inter/MAC.txt", "src/bsdconv-mktable.c:main", "src/libbsdconv.c:bsdconv"]}
{"id": "C101", "title": "Replacing phrases twice", "statement": "UPSIDEDOWN done twice gives the text back; KANA-PHONETIC, NL2BR and ZHTW-WORDS done twice are as good as once; NL2BR leaves no carriage return and no line feed, and KANA-PHONETIC no kana that has a row; ZHTW-WORDS keeps the number of characters.", "quantifier": "every text", "why_tests_cant": "a replacement and the text next to it may make a new row", "anchors": ["modules/inter/UPSIDEDOWN.txt", "modules/inter/KANA-PHONETIC.txt", "modules/inter/NL2BR.txt", "modules/inter/ZHTW-WORDS.txt", "src/libbsdconv.c:bsdconv"]}
{"id": "C102", "title": "Fuzzy Chinese forms and BMP-TRANS", "statement": "ZH-FUZZY-CN and ZH-FUZZY-TW give the same for a text and for its ZHCN, ZHTW, KANJI, HANJA, BMP-TRANS-CN, BMP-TRANS-TW and fuzzy forms, so texts that differ by such conversions only become equal; done twice they are as good as once. BMP-TRANS-CN and BMP-TRANS-TW replace only characters above U+FFFF, by ones that are not above it, and keep the ZHCN and ZHTW forms. None of the four adds or takes away characters.", "quantifier": "every text", "why_tests_cant": "tables with thousands of rows have to agree with other tables row by row, for every text", "anchors": ["modules/inter/ZH-FUZZY-CN.txt", "modules/inter/ZH-FUZZY-TW.txt", "modules/inter/BMP-TRANS-CN.txt", "modules/inter/BMP-TRANS-TW.txt", "modules/inter/ZHCN.txt", "modules/inter/ZHTW.txt", "modules/inter/KANJI.txt", "modules/inter/HANJA.txt"]}
{"id": "C103", "title": "CP932 and the code pages 1254 to 1258 are read", "statement": "Every text in CP932 is read as the characters of its rule file, whatever it is written in and however it was cut: CP932:UTF-8 and the other Unicode encodings give exactly these characters, and any other target, with any phases in between, gets the same text from CP932 as from UTF-8. The code pages 1254 to 1258 are read likewise, and no two of their codes as the same character.", "quantifier": "every text, every chunking, every target", "why_tests_cant": "that data of one module are understood by all others cannot be seen from the module; the tables have thousands of lines", "anchors": ["modules/from/_CP932.txt", "modules/from/_CP1254.txt", "modules/from/_CP1255.txt", "modules/from/_CP1256.txt", "modules/from/_CP1257.txt", "modules/from/_CP1258.txt", "modules/to/_SHIFT-JIS.txt", "src/libbsdconv.c:bsdconv"]}
{"id": "C104", "title": "IBM-37 (code page 037)", "statement": "Bytes in IBM-37 are read as the characters of the code page 037 and the characters of the code page are written as their bytes; so bytes converted from IBM-37 to IBM-37 come out unchanged, and text of the code page converted there and back comes back, whatever encodings are at the other ends and however the bytes were cut.", "quantifier": "every sequence of bytes, every text, every chunking, every other encoding", "why_tests_cant": "which of several lines for a byte counts is decided by the compiler of rule files; that texts of any length survive is a statement about the engine too", "anchors": ["modules/from/IBM-37.txt", "modules/to/IBM-37.txt", "src/bsdconv-mktable.c:main", "src/libbsdconv.c:bsdconv"]}
{"id": "C105", "title": "Big5 and its extensions are read alike", "statement": "Every text in HKSCS (1999, 2001, 2004), Big5-2003, Big5-ETEN, Big5E or UAO 2.41 is read as the characters its rule files say (of several files the first that has the code), whatever it is written in and however it was cut; and a text in plain Big5 (CP950) is read by each of them as CP950 reads it. The supplements of HKSCS have no code of Big5, and HKSCS 2001 has all codes of HKSCS 1999.", "quantifier": "every text, every chunking, every target", "why_tests_cant": "that a code of the second or third file is found after the first gave up inside a character depends on how the engine falls back and re-reads; the tables have thousands of lines", "anchors": ["modules/from/alias", "modules/from/_CP950.txt", "modules/from/_HKSCS1999.txt", "modules/from/_HKSCS2001.txt", "modules/from/_HKSCS2004.txt", "modules/from/_BIG5-2003.txt", "modules/from/_BIG5-ETEN.txt", "modules/from/_BIG5E.txt", "modules/from/_UAO241.txt", "src/libbsdconv.c:bsdconv"]}
{"id": "C106", "title": "CCCII", "statement": "In CCCII every character is three bytes. Text in CCCII, cut into pieces in any way, is read as the characters of its codes, without errors. Every code that is written for a character is read back as that character; every character that is read can be written, with a code (the first of its lines) that is read as the same character. So text of characters that CCCII has, converted from any modelled encoding to CCCII and, cut anew, back, comes back; and a text of known codes converted from CCCII to CCCII gives codes of the same characters and no errors. The compiled rule files of the code make such phases.", "quantifier": "all texts of CCCII codes or characters, all ways of cutting the input, all modelled encodings on the other side; all 24-bit codes and all characters", "why_tests_cant": "24000 runs of codes, and texts of any length cut anywhere", "anchors": ["modules/from/CCCII.txt", "modules/to/CCCII.txt", "src/bsdconv-mktable.c:main", "src/libbsdconv.c:bsdconv"]}
{"id": "C107", "title": "IBM-930, IBM-933, IBM-935, IBM-937 and IBM-939 with their tables", "statement": "In the mixed EBCDIC code pages a character is one byte or, between shift-out and shift-in, two. Converting to one of the pages, cut into chunks in any way, writes the codes of the characters with a shift code exactly where the kind of code changes and ends back in single bytes; nothing in such text but shift codes can be taken for one; reading it gives the characters of the codes. Apart from a short list of compatibility characters per page (which share the code of another character) and U+000E and U+000F, every character that can be written passes unchanged through writing and reading. Every code that can be read (for IBM-937 but 189) is written back as itself, so text with no needless shift codes passes unchanged through reading and writing. All this with the rule files and callbacks of the code, without conversion errors, and among any other phases.", "quantifier": "all five pages; all texts of characters or codes of the page, all ways of cutting them, all phases before and behind", "why_tests_cant": "tables of ten to twenty thousand lines and texts of any length, with state kept between calls", "anchors": ["modules/from/EBCDIC.c:cbconv", "modules/to/EBCDIC.c:cbconv", "modules/to/EBCDIC.c:cbflush", "modules/from/IBM-930.txt", "modules/from/IBM-933.txt", "modules/from/IBM-935.txt", "modules/from/IBM-937.txt", "modules/from/IBM-939.txt", "modules/to/IBM-930.txt", "modules/to/IBM-933.txt", "modules/to/IBM-935.txt", "modules/to/IBM-937.txt", "modules/to/IBM-939.txt"]}
{"id": "C108", "title": "CP936, GBK and GB2312; Shift-JIS and CP932", "statement": "Files whose encoding is only known by family convert alike. Every code CP936 reads, except 80, GBK reads as the same character, so a text in CP936 without 80, converted from CP936 and from GBK to the same encoding, comes out as the same bytes with the same errors, however each input is cut. Every code of GB2312, with the high bit of both bytes set, is read by CP936 and GBK as the same character, except A1A4 and A1AA. Every code of Shift-JIS is read by CP932 as the same character, except seven. The exceptions are real.", "quantifier": "all codes of the five character sets; all texts of codes that two character sets read alike, all modelled target encodings, all ways of cutting each input", "why_tests_cant": "tables of up to 24000 codes and texts of any length", "anchors": ["modules/from/_CP936.txt", "modules/from/_GBK.txt", "modules/from/_GB2312.txt", "modules/from/_SHIFT-JIS.txt", "modules/from/_CP932.txt", "src/libbsdconv.c:bsdconv"]}
