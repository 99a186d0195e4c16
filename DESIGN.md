# Formal model of bsdconv in Lean 4 — design

Source: `/repo` (C). The model is written by reading the C text; nothing is compiled or run.
Every definition under `lean/Verif/Model` cites the file and lines it models.

## Layout

* `lean/Verif/Model/*`  – executable model of the code (functions over `List`, `Nat`, `Int`, `Option`, structures).
* `lean/Verif/Spec/*`   – small independent specifications (what a user means), no reference to model helpers.
* `lean/Verif/Proofs/*` – helper lemmas.
* `lean/Verif/Props/*`  – the property theorems (names `Cxx_...`) with non-vacuity `example`s beside them.

### Layers of the model

1. **Engine** (`Model/Engine`): `bsdconv()` (libbsdconv.c 523-836) as a loop over an explicit state: per phase the queue,
   `curr`, `bak`, `match_data`, the automaton state, flags and the private data of its codecs. `Call` is the relation
   "this call returns with this instance", so termination is an existence statement. `Model/Automaton` gives the
   transition tables; `Model/Output`, `Model/Pass` the part of `bsdconv()` after the loop (output modes, PASS).
2. **What a phase does** (`Spec/Proc`, `Proofs/EngineKind`, `Proofs/EngineSession`): a `Proc` is a function from the data a phase
   receives to the data it hands on, its errors and its final private state; `Realises s I P` says that the phase `s`
   started in private states satisfying `I` behaves as `P` under every schedule of the engine. `session_procs` composes
   realised phases into whole conversions: any chunking, any mixture of output modes. `Converts` (`Proofs/Placed`) is
   the resulting statement about the API; `Placed` says where the phase of interest stands among arbitrary others.
3. **Ways to realise a phase**: tables (`table_realises`; specification `Spec/Tokens`, leftmost-longest matching with
   ordered fallback), callbacks that answer per datum (`Spec/Handler`, `Spec/Codec`, `EngineHandler`, `HandlerSingle`),
   byte readers (`Spec/Reader`, `EngineReader`), scanners (`Spec/Scanner`, `EngineScan`), encoders/decoders pairs
   (`Spec/Transcode`), and kinds of their own for codecs that look at the queue (`Proofs/Replace`, `Proofs/Nfc`, ...).
4. **Codecs** (`Model/Utf8`, `Utf16`, `Escape`, `Gb18030`, `Cp950`, `Inter`, `Normal`, `Nfc`, `Replace`, `Whitespace`, `Ebcdic`,
   `Bsdconv`, `Newline`, `Ascii`, `Range`): one Lean function per callback.
5. **Table compiler** (`Model/MkTable`, `Model/MkText`): `bsdconv-mktable.c`, from the characters of the rule file to the
   bytes of the image, and the reading of that image by the engine. C50 links it to layer 3: rule files denote `Tokens` tables.
6. **Around the engine** (`Model/Conv`, `Util`, `Counter`, `Hash`, `Str`, `Fmalloc`): strings, aliases, arguments, containers.

Data tables (`Model/Aliases`, `RangeTables`, `NfcTable`) are generated from `/repo` by the scripts in `tools/`;
facts about them are kernel evaluations (`decide +kernel`) over the whole table, not samples.

## Conventions

* A byte is a `Nat`; the model only produces values `< 256` and theorems assume/prove that where it matters.
  32-bit accumulators are reduced modulo `2^32` where the C code may wrap.
* A datum (`struct data_rt`) is a `List Nat` of bytes; a queue is the list between `data_head` and `NULL`;
  pointers into a queue (`curr`, `bak`, `data_tail`) are indices, 0 being the sentinel `data_head`.
* Undefined behaviour (out-of-bounds access, use of a freed node) is a distinct outcome
  (`Except`/`Option`/explicit `ub` flag), never silently totalised.
* Loops whose termination is itself a property take fuel; the termination theorem gives the bound.
* When the code violates the property, the negation is proved with a concrete witness
  (`Cxx_..._violated`) and the correct part as `Cxx_..._partial`.

## Per-property plan

| id | what is modelled | how it is proved |
|----|------------------|------------------|
| C01 | `bsdconv()` FROM branch over rule automata (trie with statuses) | engine small-step machine refines the recursive longest-match tokeniser; induction on remaining input |
| C02 | same, several input calls | from C01's invariant: no-error inputs are chunk independent; violated witness when an error dead-ends across a boundary |
| C03 | TO branch | refinement as C01 over symbol sequences |
| C04 | INTER branch | refinement as C01 over symbol sequences |
| C05 | scheduling (`phase_begin`, check-back, flush) | each phase is a deterministic stream transducer; confluence of the interleaving |
| C06 | every local step of `bsdconv()` (Proofs/Terminate) and the global control flow (Proofs/TerminateAll) for codecs that are `Proper` (Spec/Progress) | a lexicographic measure over all phases decreases at every step; instances: tables, UTF decoders, callbacks; a recurring state for `_UTF-8#CESU&LOOSE` refutes the general claim |
| C07 | `bsdconv_init`; private state of codecs with/without cbinit | init state equality; witnesses for codecs without cbinit |
| C08 | output switch | case analysis, induction over call list |
| C09 | PREMALLOCED loop | induction over the queue |
| C10 | PASS branch + input append | induction; witness for lost input |
| C11 | ownership flags in PASS | counting owners per buffer |
| C12 | flush loop | corollary of C05 invariant |
| C13–C16 | `from/_UTF-8`, `to/_UTF-8` as state machines over bytes | case split on length + arithmetic; witness for CESU |
| C17 | UTF-8 decoder inside the engine's flush path | witness + partial |
| C18–C21 | UTF-16/32, UCS-2 codecs | arithmetic (omega) |
| C22–C25 | ESCAPE, numeric entity, BSDCONV | digit induction |
| C26 | GB18030 range tables | finite table + linear arithmetic |
| C27 | CP950-UDA | witness, partial injectivity |
| C28, C29, C62 | `_NF-HANGUL-*`, `_NF-ORDER` callbacks | handlers; Hangul arithmetic by omega; insertion into the pending run is a stable sort (`Spec/Ordering`) |
| C30 | `_NFC.c` with its pending queue; the 941 rules of `_NFC-MAP` | invariant relating the callback's state to `Spec/Compose` (D117) for ordered input; table facts by kernel evaluation; witnesses |
| C31, C66 | DERAIL/RERAIL sharing one record | dedicated two-phase model over every schedule; witness for the cleared flags |
| C32–C36, C61 | inter codecs as list transducers | handlers; induction over the data list |
| C37 | `REPLACE.c` on the engine's queue | kind of its own; refinement of "non-overlapping leftmost occurrences"; witness for the missing cbflush |
| C38 | UNIX/WIN/MAC tables | table phase + induction on the text |
| C39 | binary search | loop invariant; shipped tables imported and checked sorted by kernel evaluation |
| C40 | `EBCDIC.c` on both sides with compiled tables | shift-state invariant (`Spec/Shift`), scanner/reader kinds; witnesses for the malformed cases |
| C41, C42 | counter and hash lists | refinement to a map; violated witnesses for get/del |
| C43 | str2datum/str2data with explicit buffer | induction; violated witness for odd length |
| C44–C46 | unpack/pack/insert/replace | induction on strings |
| C47 | index arithmetic (C remainder) | omega; violated witness |
| C48, C49 | create | induction; witness for cyclic aliases |
| C50–C52 | mktable | induction over rules; byte-level layout of the image |
| C53 | fmalloc | invariant by induction |
| C54 | `_cbcreate` argument parser | induction on strings |
| C55 | node pool | invariant by induction over operations |
| C56 | TO branch, tables with patterns of several symbols | witness: the error branch drops what was already held |
| C57 | PREMALLOCED with a small buffer, repeated | invariant over calls; witness when one datum exceeds the buffer |
| C58, C59 | `bsdconv_unpack`, alias expansion with explicit arrays and lifetimes | out-of-range store and dangling argument are explicit outcomes; shown for every string resp. by a witness |
| C60 | `_GB18030` table and callback in one phase | witness |
| C63, C64 | decoder phase, arbitrary phases, encoder phase | `Transcode` layer: a decoder reading codes and an encoder writing codes compose; instances for UTF-8/16/32, UCS-2, entities |
| C67 | the five phases of NFC and their tables (`NfdTable`, `NfcTable`, generated) | `PlacedN` composes the phases; idempotence by canonical ordering lemmas (moving a mark over others of another class) and kernel-checked table facts |
| C68 | the 128 callback rules of from/_GB18030.txt (`GbRules`, generated), the other rules by form (`Spec/GbTable`) | `C50_lookup` (compiled image) + the callback of C26; no clashes and image size proved for every such file |
| C69 | as C06 | a state that recurs after 16 steps, found again at every call's start (`hung`), refutes it |
| C70 | UTF-8 decoder behind ASCII (as C13, C63), `Spec/Mended`: reading with skipped bytes | induction over the reading; every byte sequence has exactly one reading (`C70_total`, `C70_unique`) |
| C71 | UTF-16 decoder (as C18) | the step after an unpaired surrogate, and a run that refutes the property |
| C72 | rule files as lists of pages (`Model/MapTables`, generated by tools/maptables.py), `Spec/MapTable`: the first rule for each character | `map_real` + C63 for any chain of such phases; laws on texts from checks rule by rule in the kernel, with a verified search tree (`Proofs/MapTable`) |
| C73 | as C72 | CASEFOLD absorbs LOWER and UPPER, checked for every rule, exceptions named |
| C74 | as C72 | FULL and HALF absorb each other, checked for every rule |
| C75 | ZHCN.txt, ZHTW.txt (`Model/ZhTables`, generated) | as C73 |
| C76 | from/to rule files as runs of codes (`Model/Charsets`, `SjisTable`, .., generated by tools/charsets.py), `Spec/Charset`; aliases `ASCII,_X`, `_X,ASCII,FALLBACK-UNICODE`, to `_X,ASCII` | table phases as sources and targets of C63; that the two tables are inverse to each other is checked code by code in the kernel with a verified search tree |
| C77 | as C76 | the exact effect of `X:X` on every text, from the exceptions the checks of C76 leave |
| C78 | as C67, with the rules of `_NFKD.txt` (`Model/NfkdTable`, generated by tools/nfkdtable.py) | the proofs of C67 for any table of decompositions with the properties `Decomposes`, which are checked over the whole table by the kernel; the laws between the forms from a check that every NFD decomposition, expanded by NFKD, is the NFKD decomposition |
| C79 | phases that turn texts into texts (`Stage`), described by the realised stream processors of C63, C67, C72, C78 | composition of stages, and C63 for whole conversions; the sixteen laws by transport from data to code points |
| C80 | the eleven phases of NFKD-CASEFOLD as a stage | a check over all rules of CASEFOLD and NFKD that two rounds leave nothing to fold, lifted to texts because reordering keeps the characters; lower case by a relation between texts that canonical ordering preserves |
| C81 | Model/Jis (the callback of _JIS, one byte a call), Model/JisTables (generated), Spec/Jis | decoding machine on a lens; induction over characters and escape sequences (`C81_readsAs`), then C63's session theorem; tables by kernel evaluation; witnesses by running the engine model |
| C82 | Model/Any (from/ANY), Spec/Fallback | simulation between the readers with and without ANY (`resume_any`), induction on the input; session theorem for any following phases; UTF-8 by C70's lemmas |
| C83 | Model/Ansi (from/ANSI-CONTROL), Model/Inter (to/PASS), Spec/Ansi | a reader put before others (`resume_front`), induction over the pieces of the text; encoder phase of three codecs; witnesses by running the engine model |
| C84 | `Model/Cli` (`main`, `bsdconv_file` of src/bsdconv.c: options, the loop of `fread` and calls, the counters printed), `Spec/Files` | one instance, initialised before each file: C07_reusable with the frame kept by any earlier files; texts by C79; reports by evaluation |
| C85 | `Model/Cli` (`replaceSteps`, `InPlace`: create, writes in any pieces, unlink, rename; a crash after any number of them), `Spec/Files` | induction over the files, the state after `n` steps of one replacement by cases; faults (`Faulty`) directly |
| C86 | `Model/Solve` (the lookup as a conversion of three phases; rows of the tables, LOCALE from the environment), `Model/Aliases`, `Spec/Solve` (`Resolves`) | `Proofs/Mixed` (table codecs followed by a codec that takes everything, as a kind of phase), `Proofs/CallRow` (a row with a callback behaves as the row with its data), `Proofs/Solve` (cutting into longest names = `Resolves`) |
| C87 | `Model/Html` (to/ASCII-HTML-UNICODE-IMG, ASCII-HTML-INFO; buffers with their size and an overrun flag), `Spec/Html` | callback as a function of the datum (`sound_texts`), then session theorem behind any decoder; witnesses through the exact condition for an overrun |
| C88 | `Model/Score` (inter/SCORE-TRAIN, SCORE; files as lists of bytes, `fread` beyond the end leaves an arbitrary value), `Spec/Score` | induction over the characters; the two conversions tied by the contents of the file |
| C89 | `Model/Log` (to/BSDCONV-LOG, BSDCONV-OUTPUT, from/BSDCONV-LOG), `Spec/Log` | induction over the data; unique reading of a log |
| C90 | `Model/Bonus` (inter/BONUS.c with the tables ZH-BONUS, ZH-BONUS-PHRASE), `Spec/Bonus` | `Proofs/Bonus`: any automaton for a prefix-free table with callbacks as a codec working datum by datum (`bonus_member`); arithmetic of byte prefixes; a stage of C79; witness for phrases by running the engine model |
| C91 | `Model/Defrag` (inter/BIG5-DEFRAG.c), `Spec/Defrag` (streams cut into characters) | the codec as a handler (`single_converts`); induction over the characters of the stream; every stream is such a stream or one that ends inside a character |
| C92 | `Model/Listing` (bsdconv_modules_list, bsdconv_module_check), `Spec/Listing` | invariant of the growing array; fgets line by line; `qsort` is any sorting: the result is unique by antisymmetry of strcmp |
| C93 | `Model/Complete` (bsdconv-completion.c) | invariants of the scanning loop and of the candidate loops; memory errors are a result of the model |
| C94 | `Model/Load` (the loops of load_filter, load_scorer) | the lookups are those of C86; definitions begin with letters and aliases with digits, so the loop ends after at most three rounds |
| C95 | `Model/Man` (bsdconv-man.c), `Model/ManPages` (generated by tools/manpages.py) | `man` as an inductive relation (no outcome: it does not return), with memory errors as outcomes; case analysis, induction over runs for cycles; the redirections of the distribution checked by evaluation in the kernel |
| C96 | `Model/Named`, `Model/NamedTable` (generated by tools/named.py), `Spec/CiTable`, `Spec/Named` | the rule in charge of each string of a file with `!` (general: `C52_represents`), names compared letter by letter, then sessions as in C76 |
| C97 | `Model/Big5Esc`, `Model/Big5EscTable` (generated by tools/big5esc.py), `Spec/Lex`, `Spec/Big5Esc` | a reader made of several tables takes the first table that fits (`tables_lex`), then sessions as in C63 |
| C98 | `Model/Bytes`, `Spec/Bytes`, `Spec/Lex` | a last reader that takes every byte (`resume_last`), tables that read everything (`pieces_total`); every datum is written as the bytes it was read from |
| C99 | `Model/TransTables` (generated by tools/charsets.py), `Spec/Translit` | the phase writes by the first of three tables (`trans_target`, C63); that the tables of replacements suit their sets is evaluated in the kernel (`fits`) |
| C100 | `Model/PhraseTables` (generated by tools/phrases.py), `Spec/Phrases` (`Swapped`: leftmost, longest first) | the phase rewrites by the table on data (Spec/Tokens); the same on characters by induction over the text; shape of the tables evaluated in the kernel |
| C101 | the same tables | `Final` (no replacement contains a character of a row) and `Mirror` (rows both ways round) evaluated in the kernel, idempotence and involution from them by induction; ZHTW-WORDS is a counterexample |
| C102 | `Model/FuzzyTables` (generated by tools/maptables.py), Props `ZhFuzzyTable`, `ZhFuzzy` | the tables evaluated in the kernel against one another as in C75; phases as in C72 |
| C103 | `Model/Cp932Table`, `Model/Cp125xTable` (generated by tools/charsets.py), `Model/Cp932` | the phase as a lexer with two tables (C97); the charset layer of C76 for everything about codes; what the encoders do with the eight data evaluated |
| C104 | both files with all their lines in order; published code page as specification | 256 bytes and 351 lines checked by the kernel; the rest by C63, C50 |
| C105 | files as charts in kernel-computable trees; phase of ASCII and any number of two-byte files | pieces (Spec/Lex) for the engine's falling back; the comparisons by kernel-checked tree walks proved sound |
| C106 | both tables and the phases they make | kernel checks that writing is undone by reading and that every character read has a code; the piece and codec lemmas of the charset layer |
| C107 | the callbacks of C40 with the tables of all five pages | C40 generalised to the data of the text at hand; kernel checks of the shape of each table and of both directions |
| C108 | the reading tables of the five sets | kernel comparison of the tables; C63 applied to both conversions |
| C65 | the tokenizer of `bsdconv-mktable.c` on characters with an explicit buffer | printing a well-formed file and reading it back; witnesses for malformed lines |

Partial properties: MANIFEST.json says for each what is proved, and what is false of the code (`_violated`) or missing.

## Trusted base

* Lean 4.33.0 kernel. The theorems depend at most on `propext`, `Classical.choice` and `Quot.sound`; no axiom is added,
  nothing rests on compiled evaluation.
* The reading of the C source. This is the only link between model and code: the model was written by hand from the
  text, with the C semantics noted beside the definitions (unsigned wrap-around, `char` signedness, sizes of `uint32_t`).
* The generators in `tools/` for the tables (their output can be compared with the sources).

## What is modelled

| file in /repo | model |
|---|---|
| src/libbsdconv.c | `bsdconv()`, `bsdconv_init`, output modes, PASS: `Engine`, `Output`, `Pass`; create/unpack/pack/insert/replace/alias: `Conv`, `Util` |
| src/bsdconv.h | node pool and data lists (`Util`, `Engine`), `str2datum`, string helpers (`Str`) |
| src/libbsdconv_module.c, _filter.c, _scorer.c | `Solve` (alias lookup), `Listing`, `Load` |
| src/bsdconv-completion.c, bsdconv-man.c | `Complete`, `Man`, `ManPages` |
| src/bsdconv.c | `Cli` (not: owner and mode of the replaced file, links, directories, other processes) |
| src/libbsdconv_counter.c, _hash.c, _util.c | `Counter`, `Hash`, `Util`, `Conv` |
| src/bsdconv-mktable.c, libfmalloc.c | `MkTable`, `MkText`, `Automaton`, `Fmalloc` |
| modules/from | `_UTF-8`, `CCCII`, `UTF-16/32*`, `ASCII`, `ESCAPE`, `ASCII-NUMERIC-HTML-ENTITY`, `_GB18030`, `CP950-UDA`, `BSDCONV`, `BSDCONV-LOG`, `EBCDIC` family (`IBM-930`, `IBM-933`, `IBM-935`, `IBM-937`, `IBM-939`), `_JIS`, `ANSI-CONTROL`, `PASS`, `ANY`, `ASCII-NAMED-HTML-ENTITY`, `BIG5-5C`, `BYTE`, `HEX`, `IBM-37`; character sets as named under C76, C77, C81, C103, C105 |
| modules/inter | everything with a callback; `UNIX/WIN/MAC`; alias tables; mapping tables as named under C72 to C75, C78, C90, C102; phrase tables as named under C100 |
| modules/to | `_UTF-8`, `CCCII`, `UTF-16/32*`, `UCS-2*`, `ASCII`, `ESCAPE`, `_GB18030`, `BSDCONV`, `EBCDIC` family (`IBM-930`, `IBM-933`, `IBM-935`, `IBM-937`, `IBM-939`), `RAW`, `NULL`, `PASS`, `ANY`, `ASCII-NAMED-HTML-ENTITY`, `BIG5-5C`, `CP936-TRANS`, `GBK-TRANS`, `CP950-TRANS`, `GB2312-TRANS`, `BYTE`, `HEX`, `IBM-37`, `ASCII-HTML-UNICODE-IMG`, `ASCII-HTML-INFO`, `BSDCONV-LOG`, `BSDCONV-OUTPUT` |
| modules/filter, modules/scorer | range filters and scorers with their tables (`Range`, `RangeTables`) |
| modules/*/*.txt | any rule file, by C50; individual large character tables (CP950, GBK, ...) are not imported except where named |

## What is not modelled

* `dlopen`/module search paths, the file system, `mmap`, locale, WIN32 branches, failure of `malloc`; the command-line
  program `bsdconv-dbg.c`.
* Codecs without a model: the sub-instance of to `ASCII-HTML-INFO` that
  maps code points to CNS 11643 is taken to be absent, as when its table is not installed.
* Sub-instances created by codecs (`TRIM-WIDTH`, `AMBIGUOUS-PAD`, `_NFC`): the callback is modelled with the function the
  sub-instance computes; for `TRIM-WIDTH` that function is derived from the engine (`trim_sub`), for the others it is
  a parameter or the generated table.
* Concurrency: an instance is used by one thread, as the API requires.
