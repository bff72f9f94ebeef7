# Formal model of qtrace-tools: design

## Aim

`/verif/lean` holds a Lean 4 model of qtrace-tools (C sources in `/repo`) and proofs of the properties in
`properties.jsonl`. The model is written function by function. Every definition cites the file and lines it models.

## Trusted base

* Lean 4.33.0's kernel. No `sorry`, `native_decide`, `bv_decide`, or added axioms.
* Faithfulness of the model to the C text, which was established by reading only; the code is never run.
  `seeded/LOG.jsonl` lists wrong edits of the model and the theorems that noticed them: `m` entries were written by
  hand after realistic mistakes, `a` entries change one random token of a definition; for those `claim_broken` lists the
  properties that rest on the theorems that failed.
* `Verif/Htm/Conformance.lean` runs the model on the dumps that the project has for its own tests (`htm/tests`) and compares
  with the listings expected there: five agree in full, six do not fit the code at this commit, for the reasons given in
  that file. These are tests of the model, not part of the proofs.
* `Verif/Qt/Conformance.lean` runs reader and writer on the traces of the project's own tests (`qtlib/tests`) and evaluates their
  assertions; all hold. These too are tests of the model, not proofs.
* C semantics assumed: LP64, `unsigned` arithmetic wraps, `int` is 32 bits, two's complement. The differences in byte
  order between host and guest are hidden by the code's own `be16/32/64` helpers; the model works on big-endian bytes.
* The specifications (`Spec*.lean`, and the statements in `Props*.lean`) say what the English properties say. For the
  processor (instruction encodings, page tables, what it leaves out of a dump) they follow the architecture's documents
  as known to the author, since the repository has none.

## Modelling conventions

* `uintN_t` is `BitVec N`; sizes and loop counters that provably stay small are `Nat`.
* An outcome type separates normal return, `return false`/error, `assert`/`exit` abort and undefined behaviour
  (access outside an array, over-wide shift). Undefined behaviour is never assumed away.
* Memory that was never written is a parameter: the theorems hold for whatever it contains, or say on what they depend.
* A function mutating through a pointer returns the new value. A loop is structural recursion or a fold.
* Calls of the operating system and of the C library (`mmap`, `fallocate`, `ptrace`, `read`, `qsort`) are parameters
  with their contract, or plain data.
* Where the code violates a property the negation is proved on a concrete witness (`..._refuted`) and the
  strongest true version we have is kept, usually with the suffix `_partial`.

## Layout

* `Verif/Qt`: the trace format: reader, writer, branches, register sections (C01-C14, C49, C92)
* `Verif/Branch`: link stack and its tool (C15, C16, C90)
* `Verif/Htm`: HTM dumps: TLB, ERAT, walk caches, translation, decoder, conversion, counting (C17-C26, C50-C54, C68-C73, C83, C93, C98-C102)
* `Verif/Stats`: ppcstats, basic blocks and the statistics script (C27-C30, C56-C60, C78-C80); `Opcodes.lean` is generated from the table in the code
* `Verif/Bbv`: matrices, clustering, vectors (C31-C36, C55)
* `Verif/Ptracer`: the tracer (C37-C41, C46, C61, C62, C74-C77, C84-C89, C94, C97)
* `Verif/Dis`: qtdis and symbols (C42, C43, C63-C66, C91, C94, C95)
* `Verif/Cmd`: command lines (C96)
* `Verif/Htable`, `Verif/Clist`, `Verif/Text`, `Verif/Hash`: hash table, linked lists, encodings, hash functions (C44, C47, C48, C67, C81, C82)
* `Verif/Build`: qtbuild (C45)

In each, `Spec*.lean` has specifications that do not use the model, `Props*.lean` the theorems with an example beside
each, the other files the model (with citations) and lemmas.

## Axioms

By `#print axioms`, for every theorem of MANIFEST.json:

* no axioms (9): `Num.C104_block_refuted`, `Ptr.Cnt.C116_asked`, `Ptr.Cnt.C116_main_asked`, `Ptr.Cnt.C117_lowered_refuted`, `Ptr.Cnt.C117_endless_refuted`, `Ptr.C46_attach_refuted`, `Sym.C42_comparator_refuted`, `Ptr.C76_forward_partial`, `Ptr.C77_full_refuted`.
* `propext` (26): `Num.C104_large_refuted`, `LinkStack.C104_none_refuted`, `Str.C114_count_refuted`, `Res.C115_opens`, `Ptr.Cnt.C116_read_refuted`, `Ptr.Cnt.C116_message_refuted`, `Ptr.Sur.C118_refuted`, `Bbv.C121_far_refuted`, `Bbv.C121_great_refuted`, `LinkStack.C15_depth_needed`, `Htm.Pwc.C21_kept`, `Bbv.C31_refuted`, `Bbv.C31_empty`, `Bbv.C33_iteration_partial`, `Bbv.C33_start`, `Bbv.C33_refuted`, `Bbv.C34_refuted`, `Ptr.C40_capacity`, `Ptr.C40_refuted`, `Text.C47_base32_refuted`, `Bbv.C55_refuted`, `Sym.C66_refuted`, `Sym.C42_last_refuted`, `Bbv.C84_period_refuted`, `Ptr.Launch.C86_harmless_refuted`, `Cmd.C96_ptracer_output`.
* `Quot.sound`, `propext` (214): all others.
* `Classical.choice`, `Quot.sound`, `propext` (416): all others.

## Plan per property

| id | modelled | proof method |
|----|----------|--------------|
| C01-C05 | `qtwriter_*` as a producer of bytes, `qtreader_*` as a positional parser (`Qt/Writer`, `Qt/Reader`) | simulation: the reader's state tracks the writer's previous record; codec lemmas per section; induction over the records; refutations by evaluation |
| C06 | the writer with the mapped size and growth failing at any call | invariant over histories of calls, bound on the size of one record |
| C07, C08, C09, C11 | the reader over arbitrary bytes, with an outcome for accesses outside | lemmas per primitive, the position only grows, induction over the calls |
| C10 | the writer without close, zeros at the end | simulation of C01, zeros are no header |
| C100 | htmdecoder.c `print_record` and the functions it calls | reading the lines back word by word; induction over what the decoder tells (C72 for the stamps); order: every decoding function tells of an instruction only once it has read all its records, then induction over the records |
| C101 | tlb.c with its counters, `tlb_dump`; the calls of htm.c | the cache with counters refines the one of C17, a tally of pages and numbers is kept along the history; for dumps the history is that of the instructions (C98); the calls in the output of any decode give the cache of the decoder (Tracks), and for overlapping pages the tally is kept with the page that each call found |
| C102 | htm.c as a whole, both modes; tlb.c | no step of the decoding functions stops the program on records of the kind (a predicate on programs, closed under sequencing), invariant: no walk seen, pages of one size in the cache; induction over the records |
| C103 | htable.c: allocation failures, `htable_clear`, `htable_copy`, `htable_delval`, `htable_first/next/prev`; htable_type.h `delkey` | the invariant of C44 under the further calls; the loop that deletes while it walks by induction over the slots; the bound on elements is exact |
| C104 | binary floating point (correct rounding of fractions to 53 or 24 digits) and `%.2f`; the expressions of link_stack.c, ppcstats.c, bb.c and qtrace_statistics.py | relative error of each rounding by arithmetic on rationals (Mathlib), composed; distinct quotients of small counts are further apart than the error |
| C105 | the test library tap.c (state, calls, report, exit status) and the comparison of radixtest.c | invariant over the calls that relates the printed lines, as a harness reads them, to the tests made |
| C106 | ppc-opc.c: the 57 insertion and 57 extraction functions, valid_bo, the table of operands | every function by its bits (normal forms of masks and shifts compared bit by bit in the kernel), dispatch over the rows of the table |
| C107 | the same; ppc.h: default of an operand left out | as C106; the loop of insert_mbe by an invariant over the 32 bits; legality by the tables of BO encodings and integer arithmetic |
| C108 | the same | as C106, from the word to the value |
| C109 | the three opcode tables with the operand codes of every entry (generated from the text), filling an entry with operand values one after the other (the procedure of ppc.h; the assembler itself is not in the project) | exact set of bits each insertion changes in a word matching the entry, locality of each extraction function, kernel-checked disjointness of these bit sets for each entry of the tables, induction over the operand list |
| C110 | matrix.c: matrix_random and the self-test (MATRIX_TEST), with assertions as outcomes | associativity of sums of products modulo 2^64 by exchanging sums; the runs of C31 and C32 joined |
| C111 | the text printed by do_one_pam, print_medoids and matrix_print, and with -v by parse_qtrace and do_pam | an independent reader of lines, paragraphs and numbers; induction over the tables, lines and digits |
| C112 | the opcode tables with the operand codes of every entry, extraction of all operands of a word and insertion one after the other | each insertion function adds the same bits to words that agree on the bits it looks at; kernel-checked order and disjointness for each entry; induction over the operand list with the single operands of C108 |
| C113 | qtlib/tests/test3.c: the copying loop over reader and writer, with growth of the output as an oracle, and failed assertions as outcomes | what holds of every record the reader returns, for arbitrary bytes (a frame calculus over the reader); then the round trips of C01 to C05 |
| C114 | ccan/str: streq, strstarts, strends, strcount as a loop, STR_MAX_CHARS, the character tests with the checks of the debug version; the C library functions on arrays with a 0 | induction over the strings; greedy choice of the first occurrence is best, by induction over the rest of the string; lengths of digits by powers |
| C115 | descriptors and mappings in qtwriter_open, fallocate_or_ftruncate, qtwriter_write_record, qtwriter_close, qtreader_initialize(_fd) and qtreader_destroy, with the answers of the system as arguments and stores at null as an outcome | invariant that descriptor and mapping are those of the writer, by induction over histories of writes and foreign steps |
| C116 | the loop of fast_forward with the table of threads and the counters (setup_insn_counter, setup_sigio, destroy_insn_counter), answers of the system as arguments | invariant: the open counters are a permutation of those of the table and those of before; induction over the stops; joined to the living threads of C77 |
| C117 | setrlimit_open_files as a loop, setrlimit as its manual says | induction over the number that is halved; concrete limits for the refutations |
| C118 | main of ptracer up to do_exec: opening the trace and the log, ignore_sigchld, setrlimit_open_files; execve as its manual says | composition of the steps; equality with direct execution decided by its three parts |
| C119 | ignore_signals and dont_ignore_signals as loops over all signals, with refused calls | induction over the signals |
| C12, C13, C14 | `branch.h`, `annotate_branch` over `BitVec` | arithmetic of bit fields, case analysis against the ISA's encodings |
| C120 | hash_string as a loop over memory, hash_pointer with the words of both byte orders | induction over the string; multiplication by 31 is invertible modulo 2^32; C81 for the pointer |
| C121 | dump_pam, print_raw_medoids and print_point of pam.c with their printed text | the loop of dump_pam simulates find_medoid; texts read back by splitting at blanks; counts by C55 |
| C122 | list_check_node and list_check of list.c on memory with arbitrary links, with the counter | no node is met twice as long as the links back are right, so the loop ends; the four ends exclude each other |
| C123 | qtrace-bbv from records to output with an answer of the system for every request for memory | the run with the answers is compared step by step with the run that gets all; a refusal leaves a prefix of the output and status 1 |
| C124 | init_pagemaps of pagemap.c with the conversions of ffs, and the page numbers of ea_to_pa | the lowest bit of the negated size, by arithmetic of naturals |
| C125 | asprintf.c, with the text that a format stands for as parameter | cases of the length |
| C126 | test1.c and test2.c with their printed text | lines and words read back by splitting; digits by induction; C01 for written traces |
| C127 | files of several traces one behind the other: a header in the middle, state of the reader carried over | simulation of one trace from any state between traces (block), induction on the traces |
| C128 | which entry of the opcode table the instruction mix finds, among all pairs of entries with instructions in common | first match by C28, all pairs of each major opcode checked in the kernel, bit algebra |
| C15, C16 | `link_stack.c` as a ring | refinement to a bounded list |
| C17, C18 | `tlb.c` as a sorted array | refinement to a map of pages, witnesses for overlaps |
| C19 | `erat.c` | laws of the map over all histories |
| C20, C21 | `pwc.c` | laws of the maps over all histories; lemma on lists for joined walks |
| C22, C51, C52 | `xlate.c` with every assertion and array bound | postconditions through the whole decoder, classification of its outcomes |
| C23, C24, C50 | `htm.c`: bit helpers, recoding, instruction records of both formats | arithmetic; evaluation of the decoder on every trace of the format |
| C25, C26, C53, C54 | `htm.c`: reading, stepping back, the decoding loop | invariants over interleavings; erasing stamps |
| C27, C28, C56-C60 | `ppcstats.c` with its opcode table (generated module `Stats/Opcodes`), `bb.c` | counters as numbers of instructions, by induction; finite checks of the table by the kernel |
| C29, C30 | `bb.c`, the printed blocks | refinement to counting; `qsort` by the contract of the C standard |
| C31, C32 | `matrix.c` as a flat array | index arithmetic |
| C33, C34, C55 | `pam.c` | invariant "cost is the cost of the medoids", descent |
| C35, C36 | `qtrace-bbv.c` | conservation invariant |
| C37, C62 | `ppc_storage.c` | comparison with a table of the ISA written separately |
| C38, C39, C61 | `single_step.c` on a memory with the text | memory updates; relation of control flow |
| C40 | `pids.c` | refinement to a list without duplicates |
| C41 | `pagemap.c` | invariant over histories |
| C42, C66 | symbol tables of `qtdis.c`/`symbols.c` | invariant of the binary search |
| C43, C63-C65 | `qtdis.c`: reading and printing a trace | simulation of the reader's records; listing of every byte string |
| C44 | `htable.c` with tagged pointers | invariant on probe chains, refinement to a multiset |
| C45 | `qtbuild.c` | induction over the source, then the round trip of C01 |
| C46 | the window of `ptracer` | closed form of the counters |
| C47 | `hex.c`, `base32.c` | round trip by induction |
| C48, C67 | `list.h` with memory and pointers; the store of interrupted walks on it | representation predicate, refinement to lists |
| C49 | `do_parse_regs` | layout of the section in both directions |
| C68, C69 | `htmdecoder.c` | the writer accepts what the decoder produces; composition of C50 and C01 |
| C70 | `xlate.c` against radix page tables (`SpecWalk`) | the caches describe the tables; every omitted step is found |
| C71 | `erat.c` and `xlate_lookup` against the same tables | invariant: entries are pages of translations before |
| C72 | stamps in `htm.c` | erasing everything but stamps |
| C73 | the whole POWER10 decoder on dumps with walks (`SpecGuest`) | composition of C50, C70 and C71 by induction over the instructions |
| C74 | the register dump of the live tracer and the lines of its ASCII log, as text; a reader of such logs as specification | induction over the calls: the lines are those of the changed registers, replaying them gives the new values |
| C75, C76 | the main loop of the live tracer and the loop of `fast_forward`, on the stops reported by the system; lives of the traced thread as specification | non-interference of the other threads by induction over the schedule, then induction over the life |
| C77 | the table of threads in both loops | invariant: the table is the list of living threads |
| C78, C79, C80 | tools/qtrace_statistics.py: its two regular expressions, `parse_one` and the shares; the lines of qtdis as text | matching by the first characters of each part; the counters as counts by induction over the lines; comparison with the model of ppcstats.c (C27); invariant of the search for system calls |
| C81, C82 | ccan/hash/hash.c: `hashlittle` (three paths), `hashbig` (two), `hash_u32`, `hash64_any`, the stable hashes | lookup3 over zero-padded blocks as specification; induction over the blocks, the thirteen last blocks by cases; inverses of the mixing steps |
| C83 | the conversion of a guest's dump, from the bytes of the dump to the records that qtreader returns (models of C68, C73, C03, C05) | C73 composed with the round trip; walks carried along sequential instructions by an invariant of the reader; pages of one translation |
| C84 | qtrace-bbv.c `do_one_pam`, `do_pam`, `main`; `random_projection`, `matrix_random_ones`; the lines of `print_medoids` | composition of C32, C34, C36 and C55; bounds on the distances from the number of instructions; cost 0 exactly when all different points are medoids |
| C85 | ptracer/ptrace.c `capture_all_threads`, `wait_for_group_stop`, against a model of the kernel's job control and ptrace stops | transition system of threads and tracer; invariants over all schedules; weight of every signal conserved; schedules as witnesses |
| C86 | ptracer/ptrace.c `do_exec`, against a model of a process that is forked, stopped, traced and executes a program | transition system; invariants over all schedules by cases; reachability of the end from every state; schedules as witnesses |
| C87 | ptracer `main` behind attaching, `fast_forward`, `release_all_non_tracing_threads`, `detach_all_threads`, the requests of `step_over_atomic`, against the kernel of C85 | transition system of threads and tracer; invariants over all schedules; weight of every signal conserved up to the suppressed ones; schedules as witnesses |
| C88 | ptracer/main.c `print_insn` with `ea_to_pa` and `is_storage_insn`, the trace writer and reader | C46, C37, C41, C01, C02, C04, C10 and the exact statement of what is reported about pages (C03_reported) composed; the page maps carried along by a history of look-ups |
| C89 | qtdis.c `print_qt_record` with -b, the macros of qtb.h, against an assumed assembler; `build` of C45, reader and writer | what is printed is the text of annotated lines (induction over the listing); C63, C45, C01 and C02 composed; a branch is determined by its target and the fields kept |
| C90 | link_stack.c `main` on the reader with branch annotation, behind the writer and behind the live tracer | C01, C04, C12 and C88 composed; the simulator refined to a bounded stack (C16) by induction over the instructions |
| C91 | qtdis.c `disasm` with -s, -i and -c on the loop of `read_qt`, behind the writer and the live tracer | C01, C63, C65 and C88 composed with C27, C28 and C29; the opcode table has no entry with primary opcode 1 (whole table) |
| C92 | qtwriter.c `qtwriter_open`, `qtwriter_write_header`; qtreader.c `qtreader_initialize` | what is stored begins with the header of the first accepted record (induction over the history); the header parser on it |
| C93 | htmdecoder.c `main` with -s, -i and -b; htm.c without a callback | both modes of the decoder on the formats of C50 and C73 (induction over the instructions), then C27, C28, C29, C69 and C91 |
| C94 | ascii.c `initialise_mem_map` at the level of characters, `fgets`, `sscanf`, `syminit` | the scanner on a line of the kernel's format gives its fields (numbers by induction over the digits), then induction over the lines for all contents of the uninitialised variables; composed with C66 |
| C95 | qtdis.c `print_qt_record` with -v, `print_radix_on_radix`, `read_qt` | what the reader leaves in state and record for any file, case by case; for the next instruction induction over the written records with the reader state as in C01 |
| C96 | option loops of ptracer, qtdis, htmdecode and qtrace-bbv; `getopt`, `strtol`, `strtoul`, `atoi` as assumptions | induction over the ways to write a command line (an inductive relation), then over the options |
| C97 | main.c `do_checkpoint`; ptrace.c the directory of the threads (C85) | lengths and values of decimal numbers by induction |
| C98 | htm.c `htm_decode_insn`, `htm_decode_insn_ira`; tlb.c; the writer and reader of C03 | the cache holds the pages of the table at the addresses seen (from C17), induction over the dump; for the file the writer does not look at translations of instructions reached from the one before (refilling), then C03 |
| C99 | htmdecoder.c `print_stat`; the counters of htm.c | counters as events of the decoder (C26), induction over the dump for what each instruction adds; lines read back from the text |

## Findings

Properties the code does not have as stated, with the witness theorems. What holds instead is in the theorems named `_partial` or without suffix, and in the notes of MANIFEST.json.

* **C01** Proved for every sequence the format can express (Spec.Expressible); the refutations show each condition is needed. (`Qt.C01_zero_word_refuted`, `Qt.C01_one_sided_walk_refuted`, `Qt.C01_nested_and_single_refuted`, `Qt.C01_header_walk_refuted`, `Qt.C01_unknown_walk_aborts`, `Qt.C01_huge_page_undefined`)
* **C03** Proved for translations the format can express (Spec.TranslationOk, Spec.TranslationStep); each condition is shown necessary. C03_reported and C03_data_reported say exactly what is reported for every trace. (`Qt.C03_large_real_address_refuted`, `Qt.C03_offset_refuted`, `Qt.C03_sequential_page_change_refuted`, `Qt.C03_forgotten_translation_refuted`, `Qt.C03_exchanged_page_sizes_refuted`)
* **C05** Proved for single walks of four entries and walks that do not change without a jump; otherwise refuted. (`Qt.C05_short_single_walk_refuted`, `Qt.C05_sequential_walk_refuted`, `Qt.C05_insn_walk_kind_refuted`, `Qt.C05_data_walk_kind_refuted`)
* **C06** Growth failures at any call. C06_aborted: when a write call ends in a failed assertion and what it has stored by then; the file then stays as large as the mapping, it is not truncated. C06_undefined: exactly when the effect of a call is undefined in C; C06_shift_refuted: the property does not hold of histories with a real address and a page shift of 64 or more, which nothing rejects. C06_close_loses_last_record: the unreported loss of the last record when growing fails in close. (`Qt.C06_aborted`, `Qt.C06_shift_refuted`, `Qt.C06_close_loses_last_record`)
* **C07** False as stated: the instruction word is fetched before the bounds check. Proved: at most the four bytes after the end are looked at before the first failure, none by a successful call, and they never influence a record. (`Qt.C07_every_end_overreads`, `Qt.C07_written_traces_overread`, `Qt.C07_refuted`, `Qt.C07_retry_refuted`)
* **C08** False as stated. Proved: a store outside an array needs an excessive count at the start of a walk or register section; traces of the writer never cause one. (`Qt.C08_refuted`, `Qt.C08_shift_refuted`)
* **C10** False as stated when the last stored word is an instruction prefix (one phantom record); proved otherwise. (`Qt.C10_phantom_record`, `Qt.C10_refuted`)
* **C100** C100_listed_partial: for every dump that is decoded, from the lines of the text back to the instructions and stamps; C100_power9_partial joins it to the contents of the dump and of the trace. Refuted: a time stamp with two reasons at once is listed as an empty one. The C100_order theorems say where the stamps are listed among the instructions, for dumps of the formats of C98, C50 and C73. Missing: the order of lines for other dumps, and the messages the decoder prints about records it does not understand. (`Htm.C100_time_refuted`)
* **C101** C101_report_partial: the text for every proper history of fewer than 2^31 calls; C101_overlap_partial: the text for every accepted history of fewer than 2^31 calls, with pages that may overlap, where it is left open which of several pages a call finds; C101_same: the counters do not change translations; C101_dump_partial: the last lines of htmdecode -d for every dump that is decoded, of any format, in terms of the calls that the decoder makes; C101_power9_partial: the last lines of htmdecode -d for every dump of fewer than 2^31 instructions in the format of C98, with the numbers of lookups, failed lookups and moves taken from the dump; C101_power10 and C101_guest: the cache is not used for POWER10. Refuted: the counters overflow at 2^31 (C101_overflow_refuted). In terms of the records (C101_power9_partial) only for dumps in the format of C98, with or without segment information. (`Htm.Tlb.C101_overflow_refuted`)
* **C102** The five conditions on the records are sufficient; each is needed in some dump. Missing: which dumps with page-table walks are decoded to the end (those in the format of C73 are), and what exactly counts as an error; too many of them in a row remain a possible end. Refuted: the project's test dump 08 (a walk of the hypervisor with relocation on) ends with an assertion; a third walk before an instruction is stored behind the end of an array; a mark with a reserved bit; POWER9 pages of 4 and 64 kilobytes that begin at the same address, and an instruction in the last page; 102 unknown stamps. (`Htm.C102_hypervisor_refuted`, `Htm.C102_walks_refuted`, `Htm.C102_mark_refuted`, `Htm.C102_pages_refuted`, `Htm.C102_errors_refuted`)
* **C103** For pointers none of which is a bit-subset of another one lacking its highest bit (as in C44). C103_history_partial: every history, with memory lacking at any call, ends as the bag says or adds to a table of 3*2^28 elements, which is undefined. Copies are separate values: that malloc gives fresh memory is assumed. Refuted: after init_sized has failed a lookup reads outside the table, although the header says it is usable; init_sized promises room for any number but has it for 3*2^28, and the next addition is an undefined shift; after a second next at the end of a walk, prev reads outside the table. (`Htable.C103_no_memory_refuted`, `Htable.C103_limit_refuted`, `Htable.C103_past_end_refuted`)
* **C104** Floating point is modelled as correct rounding to 53 or 24 binary digits, ties to even. Correct to the last digit for counts below 2^36 where a double is printed; off by at most an additional 10^-11 hundredths for larger ones (they can be wrong by that: C104_large_refuted). The percentages of qtdis -c go through a float: right for blocks of at most 838 instructions, otherwise off by at most an additional 1/1600 of a hundredth, and wrong in the last digit for 1714 of 1941 (C104_block_refuted). The warning about context switches is given exactly for more than a tenth, below 2^23 switches. Refuted: without returns or instructions nan is printed. The idle share is that of its counter, which can exceed the system counter (C59). (`Num.C104_large_refuted`, `Num.C104_block_refuted`, `LinkStack.C104_none_refuted`, `Stats.C104_empty_refuted`)
* **C105** For programs with one plan of fewer than 2^31 tests, names and messages without line ends, and todo blocks that are ended once. Refuted: a program without a plan can end with status 0 though its report has none; plans of 2^31 tests (status 0 with no test made); a name with a line end makes a test of its own; a todo block that is ended twice frees memory twice; the test program of the decoder ends with status 0 whatever the results are. Not modelled: failing allocations, several threads or processes. (`Tap.C105_noplan_refuted`, `Tap.C105_large_refuted`, `Tap.C105_lines_refuted`, `Tap.C105_blocks_refuted`, `Tap.C105_radixtest_refuted`)
* **C106** All of it for 172 of the 185 operands. Byte counts and OIMM5 come back unless 0 (0 comes back as 32); predicted displacements come back before version 2, and from version 2 on if BO is one of the four encodings with free hint bits (otherwise inserted without a message and not accepted); negated immediates come back but are never accepted, as the comment of extract_nsi says for the disassembler; scaled immediates and masks come back up to multiples of 2^32. Values are in the range of the table; the check of the range is the assembler's, which is not in this repository. A missing operand is C107. (`Opc.C106_zero_count_refuted`, `Opc.C106_hints_refuted`, `Opc.C106_negated_refuted`, `Opc.C106_scaled_refuted`, `Opc.C106_mask_refuted`)
* **C108** All of it for 176 of the 185 operands. For the others it is stated exactly what becomes of the word: BO and NBI come back, with a message exactly if the options are not legal or the registers overlap; BOE loses the prediction bit; mtcrf of one register on Power4 becomes mtocrf, all other masks of condition registers come back; SPRG4 to 7 read by the privileged numbers get the numbers for users; a scaled immediate gets the chosen encoding of the same value. Words with a mask operand (second row MBE) are never accepted. (`Opc.C108_options_refuted`, `Opc.C108_prediction_refuted`, `Opc.C108_register_refuted`, `Opc.C108_count_refuted`, `Opc.C108_scaled_refuted`, `Opc.C108_sprg_refuted`)
* **C109** Matching for all entries but mfcr and mtcrf in every dialect, and for all entries in the dialects without Power4 and any; a word of the main table (but its last entry) is one that ppcstats counts. Operands come back for all entries but mfcr and mtcrf, except the thirteen operands of C106 that do not come back and BOE. mfcr and mtcrf have their own theorems for all masks, registers and dialects. For BOE (branch options of the forms with a prediction) the field of the assembled word, what is extracted and whether the disassembler takes it are given for all dialects; before version 2 the options come back, "branch always" predicted as taken is not disassembled. Missing: that the first entry found by the disassembler is the one assembled from. mtcrf of one register on Power4 becomes mtocrf; with the hints of version 2 the options of bc+ come back with the hint added. (`Opc.C109_predicted_register_refuted`, `Opc.C109_mtcrf_refuted`, `Opc.C109_options_refuted`)
* **C111** The text comes back for all clusterings, as signed numbers (C111_reports, C111_output), and for all traces of C84 with less than 2^63 instructions as the numbers of the medoids. With -v, for the traces of C84 with enough memory: blocks, matrix, costs and tables (C111_verbose_partial, C111_verbose_chosen_partial); lengths of blocks are shown as signed numbers of 32 bits. Refuted: instruction numbers from 2^63 on are shown as negative ones, which needs -p 2^63 or more and is shown for points given, not for a trace. Without a complete interval -v shows the blocks and an empty matrix (C111_verbose_short_partial). Missing: the output with -v of traces outside those of C84 (for lack of memory see C123). (`Bbv.C111_sign_refuted`)
* **C112** For all entries and all words whose operands come back (Operand.Kept: all but one register of mtcrf on Power4, the numbers 20 to 23 in mfsprg, shifted immediates of all zeros or ones); the error message appears exactly for illegal branch options and overlapping registers of lswi. The open bits are given for each entry. Refuted: open bits that are not zero are lost; mtcrf of one register becomes mtocrf on Power4. In every word that is recognised, kept or not, all operands come back with their values (C112_operands_partial): only the word can be another encoding of them. What remains is that the words themselves are not the same in the refuted cases. (`Opc.C112_open_refuted`, `Opc.C112_mtcrf_refuted`)
* **C113** For arbitrary file contents that are opened and read until the reader returns false, whose walks and page sizes can be written (Copyable), with an output file that grows: instructions, addresses, data addresses and branches (C113_copy_partial); real addresses and page sizes if pages change only at jumps and page sizes do not conflict there; walks if single ones have four entries and those of instructions change only at jumps. For traces of the writer without walks no hypothesis is on what is read: the copy has what was written if the format can express it (C113_written_partial), and in any case what is read from the original, if data page sizes and guest page sizes of instructions do not both occur (C113_reads_alike_partial). Refuted: copying aborts on a single walk of an instruction, page sizes at a jump are exchanged, magic number and stored reasons change, the last record is lost unreported if growing fails while closing. If growing fails, the program reports an error, or the copy is complete, or growing failed in closing and exactly the last record is missing (C113_growth_partial). Copies of copies, for traces without walks whose pages change only at jumps (PlainTrace): the copy of a copy is that copy byte for byte if control leaves the sequential path only at branches (C113_twice_partial; so for all such traces of the writer, C113_written_twice_partial), otherwise after one more copy (C113_settles_partial, C113_twice_refuted). Missing: what is copied of traces outside these hypotheses. (`Qt.C113_twice_refuted`, `Qt.C113_walk_refuted`, `Qt.C113_exchanged_page_sizes_refuted`, `Qt.C113_magic_refuted`, `Qt.C113_bytes_refuted`, `Qt.C113_close_refuted`)
* **C114** All of it but strcount of an empty string, which is refuted: the loop finds it again at the same place and never ends. The functions of the C library (strlen, strcmp, strncmp, strstr) are described by what the standard says, on arrays; reading behind an array is a distinct outcome. The tools of this repository use none of these helpers. (`Str.C114_count_refuted`)
* **C115** All of it for successful opening, and for a file that cannot be opened (C115_not_opened_partial). Opening that fails later is refuted: a writer without room for its file leaves the descriptor open, and ptracer, which does not look at the result, then stores the first record at a null pointer (C115_no_room_refuted); a reader of a file with a bad header leaves the mapping, while after a failed fstat its state is what it was before, so that destroying it can close a descriptor of somebody else (C115_reader_failed_refuted); and destroying twice closes what was opened in between (C115_twice_refuted). The rest of the program is assumed to leave the descriptor and the mapping of the writer alone. (`Res.C115_no_room_refuted`, `Res.C115_reader_failed_refuted`, `Res.C115_twice_refuted`)
* **C116** C116_counters and C116_end for all stops as long as the requests succeed (otherwise the tracer exits), with new descriptors that are not in use. C116_living_partial if the reports come in the order of the events and there are at most 30000 threads, as in C77, where the rest is refuted. Refuted: if the counter cannot be read only a message is printed, and the number still to be skipped depends on what was in memory (C116_read_refuted); if the system does not say which thread is new (the reporting thread was killed), the test of the answer is for 1 instead of -1, and whatever number was in memory is entered as a thread (C116_message_refuted), while the main loop ends the tracer in that case (C116_main_asked). Skips below 200: C46. (`Ptr.Cnt.C116_read_refuted`, `Ptr.Cnt.C116_message_refuted`)
* **C117** False as stated: a limit of 10000 is lowered to 8192 if the hard limit is 12000 (C117_lowered_refuted); the limit is never raised beyond 16384, though the table has room for 30000 threads (C117_threads_refuted); if the hard limit is larger than the system allows by now the loop never ends (C117_endless_refuted). Proved: otherwise it ends after at most 16 turns with at least 16384 or about half the hard limit, and does not lower the limit if the hard limit is at least 16384. What setrlimit accepts is taken from its manual. (`Ptr.Cnt.C117_lowered_refuted`, `Ptr.Cnt.C117_endless_refuted`, `Ptr.Cnt.C117_threads_refuted`)
* **C118** False as stated: SIGCHLD is ignored in the started program (so that waiting for its children gives no status), its soft limit of open files is that of the tracer, and the trace and the log of the tracer are open in it (C118_refuted, an ordinary start). C118_exact_partial says exactly what the program finds; all other signals, the hard limit and all files of before are as without the tracer. What execve hands on is taken from its manual. Environment variables, the mask of signals and the working directory are not touched by the tracer and not in the model. (`Ptr.Sur.C118_refuted`)
* **C12** False as stated: unconditional bc and conditional branches ending in an exception abort the reader, and bclr is called direct. Proved: up to the first such record every record has the branch type its instruction prescribes, and the abort condition is exact. (`Qt.C12_abort_partial`, `Qt.C12_never_aborts_refuted`, `Qt.C12_exception_abort_refuted`, `Qt.C12_direct_refuted`)
* **C121** False as stated: a point whose distance to all medoids is 2^64-1 is listed with the medoid -1 (C121_far_refuted), and a coordinate of at least 2^63 is listed as a negative number (C121_great_refuted). Proved: the list of points is right, and agrees with the table of weights, for clusterings of fewer than 2^63 medoids whose distances fit (as in C55); the list of medoids gives all coordinates as signed numbers of 64 bits without any condition. The tools of this repository do not call these two functions. (`Bbv.C121_far_refuted`, `Bbv.C121_great_refuted`)
* **C122** C122_check_partial: for fewer than 2^31 objects the result is as stated, in both directions. C122_sound: what a sound list is good for. C122_lasso: a list on which the traversal never ends, and the check does. Refuted for a list of 2^31 nodes: the counter of the check, an int, overflows (C122_long_refuted). The text of the message is left out, but for the node and the number in it. The tools do not call list_check (CCAN_LIST_DEBUG is off). (`Clist.C122_long_refuted`)
* **C123** False as stated: that the hash table of blocks cannot grow is not noticed, so that an execution of a block is lost, equal intervals are taken for different ones and the tables change (C123_lost_refuted, for a program that starts with a matrix of 2 by 4 entries instead of 1000 by 10000); that there is no memory for the table of weights leaves it out with status 0 (C123_table_refuted). Proved for all other requests, traces, options and answers (C123_prefix_partial); what is printed with enough memory is the output of C111 and C84 (C123_verbose, C123_plain). Not in the model: memory of the library (for instance the buffer of the output), and that the system kills a process it has promised too much memory. (`Bbv.C123_lost_refuted`, `Bbv.C123_table_refuted`)
* **C124** Proved for powers of two below 2^32; C124_main: the two sizes of ptracer are among them and give the shifts of C41. Refuted: multiples of 4 GiB (POWER has pages of 16 GiB) give the shift 2^64-1, which is undefined at once for the base size and at the first translation for the other (C124_great_refuted); a base size that is no power of two is taken for its lowest bit (C124_odd_refuted). The program passes constants, so that these do not occur in it. (`Ptr.C124_great_refuted`, `Ptr.C124_odd_refuted`)
* **C125** Proved for all texts but those of exactly INT_MAX characters, for which the addition of one to the length overflows (C125_long_refuted). The replacement of vasprintf is modelled, which is compiled if the C library has none; vsnprintf and vsprintf are taken to agree about the text. (`Fmt.C125_long_refuted`)
* **C127** For any number of traces, empty ones too, none but the last of which ends with the first word of a prefixed instruction: all records in order, with instructions, addresses, data addresses and branches as in the trace alone (C127_joined_partial); real addresses and page sizes if each trace has ones the format can express and what is known of an instruction is known of all later ones (C127_translations_partial); page-table walks if in each trace single walks have four entries and instruction walks change only where control jumps, with no condition from one trace to the next (C127_walks_partial); so the instructions read are those of the traces in order (C127_instructions_partial) and every counter of the instruction mix is the sum over the traces (C127_mix_partial); copying the joined file, if the records read of it can be written again, gives one trace of all the instructions, in which the jump from one trace to the next is told (C127_copied_partial), and they can if the traces have no page-table walks (C127_walkless_copied_partial). Refuted: a trace that ends within an instruction swallows the next header (C127_prefix_refuted); an instruction of unknown real address gets one of the trace before (C127_unknown_refuted); the jump to the next trace is not told (C127_jump_refuted). Missing: what is read of joined files outside these hypotheses, and which joined traces with walks can be copied. (`Qt.C127_prefix_refuted`, `Qt.C127_unknown_refuted`, `Qt.C127_jump_refuted`)
* **C128** For every entry and every word that matches it: counted under an entry not later, for these processors, that the word matches, and that is a form of the entry, but for the listed pairs of names (C128_form_partial, all pairs of entries of a major opcode compared by the kernel); exactly under the entry if none earlier has an instruction in common with it (C128_own_partial). Refuted: nothing is ever counted as mfspr, because the first mftb has its opcode and mask and the search of the statistics does not ask the operand TBR whether it takes the register number (C128_never_refuted, C128_mfspr_refuted); mfpvr is counted as mfsprg in the same way (C128_mfpvr_refuted); 37 such entries are never counted, among them or, nor, cror, vor and the branches without a hint or with the hint +, because mr, not, crmove, vmr and the branches with the hint - have their opcodes and masks (C128_hidden_refuted). Missing: for which other words the operands of the entry counted do not take the word. (`Opc.C128_never_refuted`, `Opc.C128_mfspr_refuted`, `Opc.C128_mfpvr_refuted`, `Opc.C128_hidden_refuted`)
* **C13** False only for rfebb, which the code does not recognise. (`Qt.C13_rfebb_refuted`)
* **C14** Retargeting is proved in full against the ISA's target; the code's own decoder is right for relative branches at aligned addresses and shown wrong for every absolute branch. (`Qt.C14_decode_absolute_refuted`)
* **C15** C15_depth_needed shows the depth bound is sharp. (`LinkStack.C15_depth_needed`)
* **C16** Proved for every depth of at least one, C16_exact also for the returns that find the stack empty (a ring of the old entries answers); depth zero, which the command line accepts, is refuted. (`LinkStack.C16_depth_zero_refuted`)
* **C17** False as stated when a large page is inserted over smaller ones and for lookups in the last page of the address space. Proved in full for histories without those, in particular for every history of one page size; for all other histories every returned translation is proved to come from an inserted page covering the address. (`Htm.Tlb.C17_latest_refuted`, `Htm.Tlb.C17_miss_refuted`, `Htm.Tlb.C17_last_page_refuted`, `Htm.Tlb.C17_same_start_aborts`)
* **C18** False as stated (witness in C18_refuted). Proved for proper histories; for every history, no two entries start at the same address. (`Htm.Tlb.C18_refuted`)
* **C19** False for the host page size of a re-inserted entry (C19_host_refuted). C19_lookup_partial says exactly what is returned after every history; C19_lookup is the full property when insertions for the page agree on the host page size. (`Htm.Erat.C19_host_refuted`)
* **C20** Proved for every history with pages taken in the 52-bit address space; false for full 64-bit addresses because the upper twelve bits are dropped from the keys (C20_quadrant_refuted). (`Htm.Pwc.C20_quadrant_refuted`)
* **C21** The capacity is not checked (C21_overflow_refuted) and a step with an exception cuts the old walk (C21_exception_refuted). C21_merge says exactly what happens for every pair of walks that overlap, C21_history_partial what holds after every history. (`Htm.Pwc.C21_overflow_refuted`, `Htm.Pwc.C21_exception_refuted`)
* **C23** Field extraction is exact for every range of fewer than 64 bits and outside calls stop on the assertion; the whole word (0..63) shifts by 64 and is undefined (C23_whole_refuted). (`Htm.C23_whole_refuted`)
* **C24** Proved for POWER9 and POWER10, I-form and B-form, relative and absolute, for all words and addresses with an encodable displacement; the POWER10 absolute B-form loses the high bit of BI (refuted for all such words). (`Htm.C24_p10_b_absolute_refuted`)
* **C25** Proved for every interleaving in which a step back follows a fetch, and, without condition, for decoding after any number of steps; refuted for other interleavings: the reader itself does not check that condition. (`Htm.C25_twice_refuted`)
* **C26** Termination is proved for all files. The second half is false at the end of the file (C26_refuted); C26_all_records says exactly what is read. (`Htm.C26_refuted`)
* **C28** False as stated: the last entry of a table is never found (for the table of the code C57_refuted: fcfidu.), nor one whose mask leaves out the major opcode. Proved for all other entries of every table whose masks cover the major opcode, and that every instruction is counted once, for traces of fewer than 2^64; table_covered: the table of the code is one. kind_some and kind_none say bit by bit what the classification means. (`Stats.C28_tables_refuted`, `Stats.C57_refuted`)
* **C29** C29_exact: a trace is counted if it has at most 2^30 different addresses, and with one more the size of the table does not fit in an int; C29_sum_partial, the sum, is for at most 2^30 different addresses and fewer than 2^64 instructions. Refuted for 2^30 + 1 different addresses. (`Bb.C29_size_refuted`, `Bb.C29_limit_refuted`)
* **C30** False as stated for counters beyond 2^31, as the witnesses show; proved for all traces of fewer than 2^31 instructions and all results that qsort may give. (`Bb.C30_refuted`)
* **C31** Proved for all shapes with less than 2^64 bytes; larger ones wrap (C31_refuted), and a resize to no entries may exit (C31_empty). (`Bbv.C31_refuted`, `Bbv.C31_empty`)
* **C33** Proved for points whose distances do not overflow; otherwise llabs is undefined (C33_refuted). (`Bbv.C33_refuted`)
* **C34** Proved for points whose distances do not overflow; with wrapping distances two different points are taken for the same and no clustering is found (C34_refuted). (`Bbv.C34_refuted`)
* **C35** Proved for all traces and interval lengths within the size limits (Fits). Blocks that end after the last complete interval are in no entry (C35_refuted), and doubling the columns only once can lose counts (C36_refuted). (`Bbv.C35_refuted`)
* **C36** Proved whenever one doubling per interval is enough, in particular for traces with at most 20000 different blocks; false beyond that (C36_refuted: 20001 new blocks in the first interval). (`Bbv.C36_refuted`)
* **C37** False as stated: string and atomic memory instructions abort the tracer. Proved for every load and store of the table in SpecStorage.lean. (`Ptr.C37_refuted`)
* **C38** False as stated: when the target of a later exit branch is not mapped, the tracer exits with the breakpoint of an earlier one in the text. (`Ptr.C38_refuted`)
* **C39** False as stated: an unconditional branch leaves the sequence unnoticed. Proved for sequences with no other transfer of control than conditional branches. (`Ptr.C39_refuted`)
* **C40** False as stated: a process added twice and removed once is still found. Proved for histories that add a process only while it is absent. (`Ptr.C40_refuted`)
* **C41** False as stated: the first 2 MiB are answered from the zero-initialised cache, and the access counter wraps. (`Ptr.C41_refuted`, `Ptr.C41_wrap_refuted`)
* **C43** False as stated: every second word shown is that of the prefixed instruction before, 0 for the first. Proved for traces without prefixed instructions. (`Dis.C43_shifted`, `Dis.C43_refuted`)
* **C44** Proved for histories with at most 3*2^28 additions of pointers none of which is a bit-subset of another one lacking its highest bit (in particular pointers of the same magnitude); allocation is assumed to succeed. Refuted for other pointers: an element can be lost. (`Htable.C44_lost_refuted`)
* **C45** False as stated: two annotations behind one instruction make all later ones ignored, branch_taken behind an absolute branch goes astray, a load without annotation reads past the table. Proved, up to the bytes of the written file and their reading, for sources without these. (`Qtb.C45_refuted`, `Qtb.C45_absolute_refuted`, `Qtb.C45_oob_refuted`)
* **C46** False as stated: the perf period underflows for a skip count below 200. (`Ptr.C46_refuted`, `Ptr.C46_attach_refuted`)
* **C47** Hexadecimal is proved in full: exactly the texts of two digits per byte are accepted, encoding succeeds exactly with enough room and decodes to the same bytes. Base 32 is proved inverse on the encodings of all byte strings, in exactly the announced room. Refuted: base 32 decoding accepts text that encodes nothing (bits set beyond the last byte, groups of padding only, padding in the middle). The size announced for the data of a text is exact for encodings and an upper bound for every accepted text. (`Text.C47_base32_refuted`)
* **C48** All operations of list.h with memory and pointers, over all histories that keep to the stated rules; also for_each_safe with removal. C48_plain_traversal shows the rule about the plain traversal is needed. (`Clist.C48_plain_traversal`)
* **C50** Proved for whole traces of any length with stamps anywhere, for the POWER10 format, without page-table walk records (C50_p10) and, for a guest, with them (C73_guest_partial), and the POWER9 format without instruction real addresses (C50_p9) and with them (C98_decoded). Refuted for POWER9 traces with segment information (a data address of 0 is reported) and for offsets that disagree with their line. (`Htm.C50_half_refuted`, `Htm.C50_segment_refuted`)
* **C51** False as stated: three ways to stop the decoder are shown. C51_outcomes_partial shows, for every history, that there are no others. (`Htm.Xl.C51_refuted`)
* **C52** False as stated when a larger page around the address was translated before, and a failed decode does leave a translation. Proved for nested translations when the page and the larger ones around it were not translated before. (`Htm.Xl.C52_refuted`)
* **C54** Proved for all traces and all known stamps, unless the trace without stamps has more than 101 errors in a row; unknown stamps and data addresses that look like stamps are refuted. (`Htm.C54_unknown_refuted`, `Htm.C54_data_address_refuted`, `Htm.C54_errors_refuted`)
* **C55** Proved for points whose distances do not overflow; otherwise an entry before the table is written (C55_refuted). (`Bbv.C55_refuted`)
* **C56** False as stated: the mask leaves out the target registers 16 to 31 (C56_refuted); proved for the others. (`Stats.C56_refuted`)
* **C57** False as stated: the last entry of the table (fcfidu.) is never found. Proved for all other entries. (`Stats.C57_refuted`)
* **C58** False as stated: the comparison functions return the difference of 64 bit counters as an int. Proved for counters below 2^31. qsort is described by what the C standard promises. (`Stats.C58_refuted`)
* **C59** False as stated. C59_idle_partial says exactly what is counted, for traces of fewer than 2^32 instructions (the code uses a 32 bit difference). (`Stats.C59_refuted`)
* **C60** False as stated; the error of each block is bounded. (`Bb.C60_refuted`)
* **C61** False as stated: the range of addresses up to the stop is recorded, executed or not. Proved for sequences passed through in a straight line. (`Ptr.C61_refuted`)
* **C62** False as stated: in an atomic sequence the registers at its end are used. Proved if the registers the address is formed from are unchanged. (`Ptr.C62_refuted`)
* **C63** False behind headers in the middle of a trace. Proved for every trace whose records are linked, and for all traces of the writer. (`Dis.C63_refuted`)
* **C64** False for fetches, and for data pages of other sizes than 4 KiB. Proved for the data side with 4 KiB pages. (`Dis.C64_page_refuted`, `Dis.C64_fetch_refuted`)
* **C65** False for traces cut off behind a prefix. Proved for all other byte strings. (`Dis.C65_refuted`)
* **C66** False behind the end of a mapping, in the last function of a file and with more than 256 mappings. Proved: the table and the symbol chosen are the closest below the address, and the distance is right. (`Sym.C66_refuted`, `Sym.C66_overrun_refuted`, `Sym.C42_last_refuted`, `Sym.C42_comparator_refuted`)
* **C68** For every dump, provided the record that the decoder leaves partly uninitialised has no page-table walk and no guest page size in its memory; refuted for other memory: an assertion fails or the trace has a walk that is not in the dump. (`Htm.C68_refuted`)
* **C69** Proved for dumps of the two formats without page-table walks, for POWER9 also with real addresses of instructions (C98_contents), with any stamps between the records, and for every dump whose decoded sequence the format can express. Refuted for instruction words 0. Translations in the trace are the subject of C83. (`Htm.C69_zero_refuted`)
* **C70** Proved for all page tables and all histories of nested walks and lookups; a walk may also lack its last record. Refuted when a walk without relocation of the same process comes between, and for cut walks to 64 KiB pages of the host whose ending record has level 0. Refuted too for pages of 1 GiB of the guest: a third level is expected. Not covered: walks joined from fragments, entries found only by their host address. (`Htm.Mmu.C70_guest_real_refuted`, `Htm.Mmu.C70_cut_refuted`, `Htm.Mmu.C70_huge_refuted`)
* **C71** Proved for all page tables and histories of one process, refuted for two processes that share a page. (`Htm.Mmu.C71_processes_refuted`)
* **C72** For all bytes and both formats, when decoding ends without a failed assertion. Refuted: markers with something in their reserved bits end the program (refuted witness). (`Htm.C72_reserved_refuted`)
* **C73** For all page tables and all sequences of instructions of one process, POWER10 format, relocation on. The real address is proved where the host's page is not larger than the guest's, and refuted otherwise. Not covered: several processes in a dump (refuted by C71), fragments of walks, a walk for the second of two accesses of one instruction to the same page of 4 kB. Refuted: if two accesses of one instruction are to different pages that are mapped to the same page of real memory, the walk of the first is taken for the second as well, and later records have that wrong translation. (`Htm.Guest.C73_real_refuted`, `Htm.Guest.C73_alias_refuted`)
* **C74** For all runs and register contents, from the text of the log (build without the BFD library). Refuted for the upper half of FPSCR, and on little-endian systems for the order of the halves of VSR0 to VSR31. (`Ptr.Log.C74_vsr_refuted`, `Ptr.Log.C74_fpscr_refuted`)
* **C75** For all schedules in which no signal arrives at the traced thread (other threads may get any). Refuted for signals with and without handler. What an atomic sequence reports is C61. (`Ptr.C75_handled_refuted`, `Ptr.C75_ignored_refuted`)
* **C76** Proved outside of the listed cases, each of which is refuted: signals in front of an atomic sequence, SIGILL of other threads, SIGSTKFLT, traps while skipping, job control stops. (`Ptr.C76_refuted`, `Ptr.C76_stop_refuted`)
* **C77** Proved when the report of a new thread comes before that of its exit and there are at most 30000 threads; refuted otherwise (null pointer while skipping, dead thread in the table). (`Ptr.C77_refuted`, `Ptr.C77_full_refuted`)
* **C78** For names without blanks and plus signs (all names of C); the names under which functions are reported are not injective, even up to the prefix of a system call. (`Script.C78_names_refuted`)
* **C79** Exceptions for all traces; agreement below 0xd000000000000000; shares without firmware. The rest is refuted. (`Script.C79_agree_refuted`, `Script.C79_shares_refuted`, `Script.C79_negative_refuted`)
* **C80** The bound holds for all listings; the counts for traces whose entries all reach their function; refuted otherwise. (`Script.C80_refuted`, `Script.C80_raw_refuted`)
* **C82** Proved: mixing and final mixing are bijections; the stable hashes are the hash of the little-endian memory whenever the number of elements is not a multiple of three (six for 2-byte elements). Refuted: hash64_stable_32 and hash64_stable_64 ignore the last three elements of an array of 3n elements and hash64_stable_16 the last six of 6n (the loop stops at three (six) elements and the switch has no case for three (six)), so that all arrays of three words have the same hash; the hash of an empty array lacks the high word. The tools of this repository use only hash64_any. (`Hash.C82_every_refuted`, `Hash.C82_empty_refuted`)
* **C83** From the bytes of the dump to the records read, for all page tables and all sequences of instructions of one process, also prefixed ones, if the dump has walks for the pages of the first instruction, of those jumped to and of all data, and the host's pages are not larger than the guest's. Refuted: when an instruction that accessed data is followed by a jump, the size of the data's host page and that of the target's guest page come back exchanged, so that the real address of the data is wrong too (0xa13000 instead of 0x53000 with 64 kB and 2 MB pages); when control runs into the next page, the trace keeps the walk of the page before. (`Htm.Guest.C83_sizes_refuted`, `Htm.Guest.C83_next_page_refuted`)
* **C84** For all traces within the size limits (Fits, Sized), all interval lengths, dimensions and signs, from the records of the trace to the printed tables; memory is assumed (C123 is about its lack). Refuted: a trace shorter than an interval (10 million instructions by default) gives no table and status 1; with -p 0 every line says 0 to -1. (`Bbv.C84_short_refuted`, `Bbv.C84_period_refuted`)
* **C85** For all programs and all interleavings; C85_completes_partial: from every state reached the tracer can get to the end (no deadlock), though nothing is said about fairness of the scheduler; the behaviour of the kernel (SpecAttach.lean) is an assumption taken from ptrace(2) and signal(7), without SIGKILL, exec and stop signals other than SIGSTOP. Refuted: a failure leaves the program stopped (exit(1) behind kill(SIGSTOP) without SIGCONT), and it occurs when the main thread makes a thread after it was seized (the new thread is traced automatically, so that PTRACE_SEIZE fails) or when a thread exits before it is seized; a program that was stopped before goes on afterwards and gets a SIGCONT nobody sent; when somebody else sends SIGCONT meanwhile, a thread can be missing from the table and run on untraced. (`Ptr.Attach.C85_left_stopped_refuted`, `Ptr.Attach.C85_undisturbed_refuted`, `Ptr.Attach.C85_other_cont_refuted`)
* **C86** For all interleavings; the behaviour of the kernel (SpecLaunch.lean) is an assumption taken from ptrace(2), signal(7) and wait(2). Refuted: any signal that reaches the new process between PTRACE_SEIZE and the execution of the program, even one that is ignored by default as SIGWINCH, makes the tracer kill the process and exit(1); with a SIGCONT from elsewhere before PTRACE_SEIZE the program runs any number of instructions untraced, and the tracer may return from the execution of a second program. (`Ptr.Launch.C86_harmless_refuted`, `Ptr.Launch.C86_cont_refuted`)
* **C87** For all interleavings; the behaviour of the kernel (SpecAttach.lean, SpecSession.lean) is an assumption taken from ptrace(2), signal(7) and wait(2); C87_ready_partial joins it to C85. Refuted: release_all_non_tracing_threads continues threads that have stopped and of which the tracer has not been told, which suppresses their signals, hides new threads from the table, and lets exiting threads die so that the main loop gets a status it does not expect and the tracer exits with 1; step_over_atomic and detach_all_threads suppress the signal the thread has stopped for; any signal in an atomic sequence makes the tracer exit with 1; fast_forward uses the null pointer of find_pid when a new thread exits before its creation is reported. Not modelled: forked processes, exec, SIGKILL; the checkpoint is the subject of C97. (`Ptr.Attach.C87_signals_refuted`, `Ptr.Attach.C87_end_refuted`, `Ptr.Attach.C87_crash_refuted`, `Ptr.Attach.C87_table_refuted`)
* **C88** For all instructions on which the tracer does not abort (Traceable); real addresses for pages that are present, in frames below 2^48 and not in the first 2 MiB (Mapped, see C41), instructions that are reached by a jump into their page. Refuted: an instruction reached from the page before without a jump is reported in the frame of that page; print_insn reads one word, so that the second word of a prefixed instruction is missing and the first is reported as a taken branch; an unknown load or store (lswx, ...) aborts the tracer and the instruction before it is lost too. (`Ptr.C88_real_refuted`, `Ptr.C88_prefixed_refuted`, `Ptr.C88_abort_refuted`)
* **C89** For all traces that can be written (Expressible) and are regular (Regular), from the bytes of the first trace file to the records read from the second; C89_rebuilt_partial says exactly what comes back, C89_same_partial when it is the same. The assembler is an assumption (SpecText.lean): an instruction is assembled to the word it was disassembled from, except that the target of a branch, printed as an undefined symbol _dummy_..., leaves an empty field. Refuted: the target of a branch that is not taken is lost; a branch followed by an interrupt gets the address of the interrupt as its target; a prefixed instruction makes qtbuild exit (second word 0, see C43, behind a jump); an unknown load or store aborts it. (`Qtb.C89_refuted`, `Qtb.C89_interrupt_refuted`, `Qtb.C89_prefixed_refuted`, `Qtb.C89_abort_refuted`)
* **C90** For all expressible traces whose conditional branches are marked (C90_answers_partial) and for everything the live tracer can record (C90_live_partial), without B-form branches that are always taken. C90_exact_partial and C90_live_exact_partial give the answers in full, also for a return that finds the stack empty (an old entry answers). The percentage printed at the end is in C104. Refuted: an always-taken bc, such as bcl 20,31,$+8, fails an assertion in annotate_branch; a return after which an interrupt is taken counts as mispredicted. (`LinkStack.C90_abort_refuted`, `LinkStack.C90_interrupt_refuted`)
* **C91** For all traces that can be written (Expressible) and do not end within an instruction (Complete), and for programs without prefixed instructions traced live (those with: C88_prefixed_refuted); at most 2^30 different addresses for -c. The counters themselves are those of C27, C28 and C29, with what is refuted there. Refuted: disasm gives only the first word to the counters, so that all prefixed instructions are counted as unknown. (`Dis.C91_prefixed_refuted`)
* **C92** Proved for every first record that is accepted and does not have entries of a page table (nr_ptes) without a walk (nr_walks 0); refuted for those: the header announces a word that is not there. (`Qt.C92_walk_refuted`)
* **C93** For dumps in the format of C50 (POWER9 with or without real addresses of instructions; with segment information for C93_p9_real and C93_agree_p9_real_partial, which take the format of C98) and, with page-table walk records, that of C73. Agreement with qtdis for dumps without prefixed instructions and without words zero. Refuted: of a prefixed instruction htmdecode counts the second word at the address of the first, qtdis the prefix; without a callback the second pair of data addresses of a POWER10 instruction is left to be read as records, so that an address such as 0x2abcdf00 is counted as an instruction. (`Htm.C93_prefixed_refuted`, `Htm.C93_second_refuted`)
* **C94** For lines shorter than 2048 characters, with executable mappings that have a name without white space; the table overrun of C66 is an outcome of both sides. fgets and sscanf are modelled as far as this program uses them. Refuted: an executable mapping without a file is looked up under whatever name the uninitialised variable holds, in practice that of an earlier mapping, and if there is no end of a string in it the program reads behind it; a name with a space is cut at the space. (`Sym.C94_anonymous_refuted`, `Sym.C94_indeterminate_refuted`, `Sym.C94_space_refuted`)
* **C95** For files that do not end within an instruction, with data pages of 4 GiB at most (a larger shift makes the reader lose the upper bits of the page number it printed). The second part for traces that the writer makes. Refuted: the walk printed behind the page of the instruction that is jumped to is that of the instruction that jumps; the record shown for a prefixed instruction is that of its first word, so that the page of an instruction jumped to from its second word is never printed. (`Dis.C95_walk_refuted`, `Dis.C95_after_refuted`)
* **C96** getopt, strtol, strtoul and atoi of the C library are an assumption (Cmd/Model.lean). C96_qtdis_partial is for fewer than 2^32 options, C96_htmdecode_partial for file names that fit PATH_MAX; C96_qtdis_any and C96_htmdecode_any say what is done for all others, which is not what the property says: 2^32 options -v count as none (C96_verbose_refuted), and a dump whose name has 4093 bytes or more is refused even with -s, -i or -b, which write nothing (C96_name_refuted). C96_malformed: numbers are not checked, -n 10k is taken for -n 10. qtdis is the one built with BFD. (`Cmd.C96_verbose_refuted`, `Cmd.C96_name_refuted`)
* **C97** For ids of at most six digits. Refuted for all ids of seven digits: the text of the id is cut after six, and the process that has that id is dumped, with root privileges; the status is 0 if sudo cannot be started. C97_closed: a trace file that was asked for as well is left unfinished unless the checkpoint cannot be started. (`Ptr.Tasks.C97_other_refuted`, `Ptr.Tasks.C97_status_refuted`)
* **C98** C98_decoded: what the callback gets, for every dump of the format, with pages that move at any time: the place that the dump had last counts; C98_sound: if pages do not move, what is known of translated instructions is what the page table says; C98_file_partial: what a reader finds in the converted trace. Refuted: a page that comes with an instruction reached from the one before is not remembered (C98_next_refuted), going back to the last page of the address space ends the program (C98_last_refuted), and a page entered from the instruction before is lost in the trace (C98_cross_refuted). If a page becomes part of a larger one the program ends with a failed assertion (C98_size_refuted). The dumps may have segment information, but then the real address of that instruction is not reported although the dump has it (C98_segment_refuted). (`Htm.C98_next_refuted`, `Htm.C98_last_refuted`, `Htm.C98_cross_refuted`, `Htm.C98_size_refuted`, `Htm.C98_segment_refuted`)
* **C99** C99_records: the first eight lines, for every dump; C99_consistent_partial: for every dump that is decoded, of any format, the numbers of all 46 lines do not contradict each other (missing: that they are those of the dump); C99_incomplete_partial: incomplete walks, for two dumps only; C99_power9_partial, C99_power10_partial and, with the page-table walks of C73, C99_guest_partial: all 46 lines for every dump of the format. Refuted: data pages of POWER9 dumps are never counted; an interrupt is not counted if the instruction before was itself jumped to; the line for jumps after instructions that are no branches counts those after branches; instructions counted as without a real address may have one in the trace; returns from interrupts are never counted; the cycles wrap at 2^32; instructions before the first walk are counted neither as with nor as without translations. Interrupts are not counted in POWER10 dumps at all (C99_power10_partial). The lines about the cache at the end are those of C101. C99_power9_partial covers dumps with and without segment information. (`Htm.Guest.C99_missing_refuted`, `Htm.C99_data_pages_refuted`, `Htm.C99_interrupt_refuted`, `Htm.C99_branches_refuted`, `Htm.C99_ira_refuted`, `Htm.C99_rfid_refuted`, `Htm.C99_cycles_refuted`)

## Not modelled

* System calls themselves (ptrace, perf, process creation); what the kernel does with stops and signals while the tracer
  attaches (C85), starts a program (C86) and traces it (C87) is described in SpecAttach.lean, SpecLaunch.lean and SpecSession.lean and is an assumption, ELF and BFD loading, the text of the GNU disassembler,
  debug output.
* Output formats beyond what the properties mention.
* In the tables (C44 and others) the hash of a key is an arbitrary function of it; C81 gives it.
* Concurrency does not occur in the code, except between the tracer and the traced processes, which is described by
  what the tracer reads from them.
