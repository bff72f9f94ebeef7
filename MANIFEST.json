{
 "claims": [
  {
   "property": "C01",
   "status": "partial",
   "theorems": [
    "Qt.C01_roundtrip_partial",
    "Qt.C01_zero_word_refuted",
    "Qt.C01_one_sided_walk_refuted",
    "Qt.C01_nested_and_single_refuted",
    "Qt.C01_header_walk_refuted",
    "Qt.C01_unknown_walk_aborts",
    "Qt.C01_huge_page_undefined"
   ],
   "note": "Proved for every sequence the format can express (Spec.Expressible); the refutations show each condition is needed."
  },
  {
   "property": "C02",
   "status": "proved",
   "theorems": [
    "Qt.C02_data_addresses"
   ],
   "note": ""
  },
  {
   "property": "C03",
   "status": "partial",
   "theorems": [
    "Qt.C03_translations_partial",
    "Qt.C03_reported",
    "Qt.C03_data_reported",
    "Qt.C03_large_real_address_refuted",
    "Qt.C03_offset_refuted",
    "Qt.C03_sequential_page_change_refuted",
    "Qt.C03_forgotten_translation_refuted",
    "Qt.C03_exchanged_page_sizes_refuted"
   ],
   "note": "Proved for translations the format can express (Spec.TranslationOk, Spec.TranslationStep); each condition is shown necessary. C03_reported and C03_data_reported say exactly what is reported for every trace."
  },
  {
   "property": "C04",
   "status": "proved",
   "theorems": [
    "Qt.C04_branches"
   ],
   "note": ""
  },
  {
   "property": "C05",
   "status": "partial",
   "theorems": [
    "Qt.C05_page_walks_partial",
    "Qt.C05_short_single_walk_refuted",
    "Qt.C05_sequential_walk_refuted",
    "Qt.C05_insn_walk_kind_refuted",
    "Qt.C05_data_walk_kind_refuted"
   ],
   "note": "Proved for single walks of four entries and walks that do not change without a jump; otherwise refuted."
  },
  {
   "property": "C06",
   "status": "partial",
   "theorems": [
    "Qt.C06_stores_inside_partial",
    "Qt.C06_aborted",
    "Qt.C06_undefined",
    "Qt.C06_shift_refuted",
    "Qt.C06_failed_calls_have_no_effect",
    "Qt.C06_close_loses_last_record"
   ],
   "note": "Growth failures at any call. C06_aborted: when a write call ends in a failed assertion and what it has stored by then; the file then stays as large as the mapping, it is not truncated. C06_undefined: exactly when the effect of a call is undefined in C; C06_shift_refuted: the property does not hold of histories with a real address and a page shift of 64 or more, which nothing rejects. C06_close_loses_last_record: the unreported loss of the last record when growing fails in close."
  },
  {
   "property": "C07",
   "status": "partial",
   "theorems": [
    "Qt.C07_records_partial",
    "Qt.C07_four_bytes_partial",
    "Qt.C07_success_partial",
    "Qt.C07_every_end_overreads",
    "Qt.C07_written_traces_overread",
    "Qt.C07_refuted",
    "Qt.C07_retry_refuted"
   ],
   "note": "False as stated: the instruction word is fetched before the bounds check. Proved: at most the four bytes after the end are looked at before the first failure, none by a successful call, and they never influence a record."
  },
  {
   "property": "C08",
   "status": "partial",
   "theorems": [
    "Qt.C08_stores_partial",
    "Qt.C08_walk_partial",
    "Qt.C08_regs_partial",
    "Qt.C08_written_traces_partial",
    "Qt.C08_refuted",
    "Qt.C08_shift_refuted"
   ],
   "note": "False as stated. Proved: a store outside an array needs an excessive count at the start of a walk or register section; traces of the writer never cause one."
  },
  {
   "property": "C09",
   "status": "proved",
   "theorems": [
    "Qt.C09_progress",
    "Qt.C09_record_count",
    "Qt.C09_loops_end"
   ],
   "note": ""
  },
  {
   "property": "C10",
   "status": "partial",
   "theorems": [
    "Qt.C10_crash_partial",
    "Qt.C10_phantom_record",
    "Qt.C10_refuted"
   ],
   "note": "False as stated when the last stored word is an instruction prefix (one phantom record); proved otherwise."
  },
  {
   "property": "C100",
   "status": "partial",
   "theorems": [
    "Htm.C100_listed_partial",
    "Htm.C100_power9_partial",
    "Htm.C100_order_power9_partial",
    "Htm.C100_order_power10_partial",
    "Htm.C100_order_guest_partial",
    "Htm.C100_time_refuted"
   ],
   "note": "C100_listed_partial: for every dump that is decoded, from the lines of the text back to the instructions and stamps; C100_power9_partial joins it to the contents of the dump and of the trace. Refuted: a time stamp with two reasons at once is listed as an empty one. The C100_order theorems say where the stamps are listed among the instructions, for dumps of the formats of C98, C50 and C73. Missing: the order of lines for other dumps, and the messages the decoder prints about records it does not understand."
  },
  {
   "property": "C101",
   "status": "partial",
   "theorems": [
    "Htm.Tlb.C101_report_partial",
    "Htm.Tlb.C101_same",
    "Htm.Tlb.C101_overflow_refuted",
    "Htm.Tlb.C101_overlap_partial",
    "Htm.C101_dump_partial",
    "Htm.C101_power9_partial",
    "Htm.C101_power10",
    "Htm.Guest.C101_guest"
   ],
   "note": "C101_report_partial: the text for every proper history of fewer than 2^31 calls; C101_overlap_partial: the text for every accepted history of fewer than 2^31 calls, with pages that may overlap, where it is left open which of several pages a call finds; C101_same: the counters do not change translations; C101_dump_partial: the last lines of htmdecode -d for every dump that is decoded, of any format, in terms of the calls that the decoder makes; C101_power9_partial: the last lines of htmdecode -d for every dump of fewer than 2^31 instructions in the format of C98, with the numbers of lookups, failed lookups and moves taken from the dump; C101_power10 and C101_guest: the cache is not used for POWER10. Refuted: the counters overflow at 2^31 (C101_overflow_refuted). In terms of the records (C101_power9_partial) only for dumps in the format of C98, with or without segment information."
  },
  {
   "property": "C102",
   "status": "partial",
   "theorems": [
    "Htm.C102_plain_partial",
    "Htm.C102_statistics_partial",
    "Htm.C102_hypervisor_refuted",
    "Htm.C102_walks_refuted",
    "Htm.C102_mark_refuted",
    "Htm.C102_pages_refuted",
    "Htm.C102_errors_refuted"
   ],
   "note": "The five conditions on the records are sufficient; each is needed in some dump. Missing: which dumps with page-table walks are decoded to the end (those in the format of C73 are), and what exactly counts as an error; too many of them in a row remain a possible end. Refuted: the project's test dump 08 (a walk of the hypervisor with relocation on) ends with an assertion; a third walk before an instruction is stored behind the end of an array; a mark with a reserved bit; POWER9 pages of 4 and 64 kilobytes that begin at the same address, and an instruction in the last page; 102 unknown stamps."
  },
  {
   "property": "C103",
   "status": "partial",
   "theorems": [
    "Htable.C103_history_partial",
    "Htable.C103_reserved_partial",
    "Htable.C103_back_partial",
    "Htable.C103_no_memory_refuted",
    "Htable.C103_limit_refuted",
    "Htable.C103_past_end_refuted"
   ],
   "note": "For pointers none of which is a bit-subset of another one lacking its highest bit (as in C44). C103_history_partial: every history, with memory lacking at any call, ends as the bag says or adds to a table of 3*2^28 elements, which is undefined. Copies are separate values: that malloc gives fresh memory is assumed. Refuted: after init_sized has failed a lookup reads outside the table, although the header says it is usable; init_sized promises room for any number but has it for 3*2^28, and the next addition is an undefined shift; after a second next at the end of a walk, prev reads outside the table."
  },
  {
   "property": "C104",
   "status": "partial",
   "theorems": [
    "Num.C104_text",
    "Num.C104_double_partial",
    "Num.C104_close_partial",
    "Num.C104_float_partial",
    "Num.C104_ends",
    "LinkStack.C104_rate_partial",
    "LinkStack.C104_tool_partial",
    "Stats.C104_statistics_partial",
    "Stats.C104_warning_partial",
    "Stats.C104_mix_partial",
    "Bb.C104_blocks_partial",
    "Script.C104_script_partial",
    "Num.C104_large_refuted",
    "Num.C104_block_refuted",
    "LinkStack.C104_none_refuted",
    "Stats.C104_empty_refuted"
   ],
   "note": "Floating point is modelled as correct rounding to 53 or 24 binary digits, ties to even. Correct to the last digit for counts below 2^36 where a double is printed; off by at most an additional 10^-11 hundredths for larger ones (they can be wrong by that: C104_large_refuted). The percentages of qtdis -c go through a float: right for blocks of at most 838 instructions, otherwise off by at most an additional 1/1600 of a hundredth, and wrong in the last digit for 1714 of 1941 (C104_block_refuted). The warning about context switches is given exactly for more than a tenth, below 2^23 switches. Refuted: without returns or instructions nan is printed. The idle share is that of its counter, which can exceed the system counter (C59)."
  },
  {
   "property": "C105",
   "status": "partial",
   "theorems": [
    "Tap.C105_report_partial",
    "Tap.C105_skipped_partial",
    "Tap.C105_twice_partial",
    "Tap.C105_record_partial",
    "Tap.C105_noplan_refuted",
    "Tap.C105_large_refuted",
    "Tap.C105_lines_refuted",
    "Tap.C105_blocks_refuted",
    "Tap.C105_radixtest_refuted"
   ],
   "note": "For programs with one plan of fewer than 2^31 tests, names and messages without line ends, and todo blocks that are ended once. Refuted: a program without a plan can end with status 0 though its report has none; plans of 2^31 tests (status 0 with no test made); a name with a line end makes a test of its own; a todo block that is ended twice frees memory twice; the test program of the decoder ends with status 0 whatever the results are. Not modelled: failing allocations, several threads or processes."
  },
  {
   "property": "C106",
   "status": "partial",
   "theorems": [
    "Opc.C106_roundtrip_partial",
    "Opc.C106_counts_partial",
    "Opc.C106_hints_old_partial",
    "Opc.C106_hints_new_partial",
    "Opc.C106_negated_partial",
    "Opc.C106_scaled_partial",
    "Opc.C106_mask_partial",
    "Opc.C106_zero_count_refuted",
    "Opc.C106_hints_refuted",
    "Opc.C106_negated_refuted",
    "Opc.C106_scaled_refuted",
    "Opc.C106_mask_refuted"
   ],
   "note": "All of it for 172 of the 185 operands. Byte counts and OIMM5 come back unless 0 (0 comes back as 32); predicted displacements come back before version 2, and from version 2 on if BO is one of the four encodings with free hint bits (otherwise inserted without a message and not accepted); negated immediates come back but are never accepted, as the comment of extract_nsi says for the disassembler; scaled immediates and masks come back up to multiples of 2^32. Values are in the range of the table; the check of the range is the assembler's, which is not in this repository. A missing operand is C107."
  },
  {
   "property": "C107",
   "status": "proved",
   "theorems": [
    "Opc.C107_frame",
    "Opc.C107_error",
    "Opc.C107_omitted",
    "Opc.C107_omitted_legal"
   ],
   "note": "Undefined shifts and negations in the insertion functions are outcomes of the model; C107_error includes that they do not occur for values in range. The legal values are written down in Opc/Spec.lean from the comments and the instruction forms."
  },
  {
   "property": "C108",
   "status": "partial",
   "theorems": [
    "Opc.C108_again_partial",
    "Opc.C108_options_partial",
    "Opc.C108_prediction_partial",
    "Opc.C108_count_partial",
    "Opc.C108_register_partial",
    "Opc.C108_sprg_partial",
    "Opc.C108_scaled_partial",
    "Opc.C108_options_refuted",
    "Opc.C108_prediction_refuted",
    "Opc.C108_register_refuted",
    "Opc.C108_count_refuted",
    "Opc.C108_scaled_refuted",
    "Opc.C108_sprg_refuted"
   ],
   "note": "All of it for 176 of the 185 operands. For the others it is stated exactly what becomes of the word: BO and NBI come back, with a message exactly if the options are not legal or the registers overlap; BOE loses the prediction bit; mtcrf of one register on Power4 becomes mtocrf, all other masks of condition registers come back; SPRG4 to 7 read by the privileged numbers get the numbers for users; a scaled immediate gets the chosen encoding of the same value. Words with a mask operand (second row MBE) are never accepted."
  },
  {
   "property": "C109",
   "status": "partial",
   "theorems": [
    "Opc.C109_matches_partial",
    "Opc.C109_matches_old_partial",
    "Opc.C109_operands_partial",
    "Opc.C109_counted_partial",
    "Opc.C109_mtcrf_partial",
    "Opc.C109_mfcr_partial",
    "Opc.C109_predicted_register_partial",
    "Opc.C109_predicted_address_partial",
    "Opc.C109_predicted_old_partial",
    "Opc.C109_predicted_all",
    "Opc.C109_predicted_register_refuted",
    "Opc.C109_mtcrf_refuted",
    "Opc.C109_options_refuted"
   ],
   "note": "Matching for all entries but mfcr and mtcrf in every dialect, and for all entries in the dialects without Power4 and any; a word of the main table (but its last entry) is one that ppcstats counts. Operands come back for all entries but mfcr and mtcrf, except the thirteen operands of C106 that do not come back and BOE. mfcr and mtcrf have their own theorems for all masks, registers and dialects. For BOE (branch options of the forms with a prediction) the field of the assembled word, what is extracted and whether the disassembler takes it are given for all dialects; before version 2 the options come back, \"branch always\" predicted as taken is not disassembled. Missing: that the first entry found by the disassembler is the one assembled from. mtcrf of one register on Power4 becomes mtocrf; with the hints of version 2 the options of bc+ come back with the hint added."
  },
  {
   "property": "C11",
   "status": "proved",
   "theorems": [
    "Qt.C11_truncation"
   ],
   "note": ""
  },
  {
   "property": "C110",
   "status": "proved",
   "theorems": [
    "Bbv.C110_associative",
    "Bbv.C110_identity",
    "Bbv.C110_resize_back",
    "Bbv.C110_random",
    "Bbv.C110_selftest"
   ],
   "note": "For all shapes that fit in memory, with entries modulo 2^64. The code's own associativity test does not compare its two results; C110_associative does."
  },
  {
   "property": "C111",
   "status": "partial",
   "theorems": [
    "Bbv.C111_reports",
    "Bbv.C111_output",
    "Bbv.C111_trace_partial",
    "Bbv.C111_chosen_partial",
    "Bbv.C111_verbose_partial",
    "Bbv.C111_verbose_chosen_partial",
    "Bbv.C111_verbose_short_partial",
    "Bbv.C111_matrix",
    "Bbv.C111_sign_refuted"
   ],
   "note": "The text comes back for all clusterings, as signed numbers (C111_reports, C111_output), and for all traces of C84 with less than 2^63 instructions as the numbers of the medoids. With -v, for the traces of C84 with enough memory: blocks, matrix, costs and tables (C111_verbose_partial, C111_verbose_chosen_partial); lengths of blocks are shown as signed numbers of 32 bits. Refuted: instruction numbers from 2^63 on are shown as negative ones, which needs -p 2^63 or more and is shown for points given, not for a trace. Without a complete interval -v shows the blocks and an empty matrix (C111_verbose_short_partial). Missing: the output with -v of traces outside those of C84 (for lack of memory see C123)."
  },
  {
   "property": "C112",
   "status": "partial",
   "theorems": [
    "Opc.C112_open",
    "Opc.C112_word_partial",
    "Opc.C112_closed_partial",
    "Opc.C112_operands_partial",
    "Opc.C112_open_refuted",
    "Opc.C112_mtcrf_refuted"
   ],
   "note": "For all entries and all words whose operands come back (Operand.Kept: all but one register of mtcrf on Power4, the numbers 20 to 23 in mfsprg, shifted immediates of all zeros or ones); the error message appears exactly for illegal branch options and overlapping registers of lswi. The open bits are given for each entry. Refuted: open bits that are not zero are lost; mtcrf of one register becomes mtocrf on Power4. In every word that is recognised, kept or not, all operands come back with their values (C112_operands_partial): only the word can be another encoding of them. What remains is that the words themselves are not the same in the refuted cases."
  },
  {
   "property": "C113",
   "status": "partial",
   "theorems": [
    "Qt.C113_copy_partial",
    "Qt.C113_translations_partial",
    "Qt.C113_walks_partial",
    "Qt.C113_written_partial",
    "Qt.C113_reads_alike_partial",
    "Qt.C113_growth_partial",
    "Qt.C113_twice_partial",
    "Qt.C113_settles_partial",
    "Qt.C113_written_twice_partial",
    "Qt.C113_twice_refuted",
    "Qt.C113_walk_refuted",
    "Qt.C113_exchanged_page_sizes_refuted",
    "Qt.C113_magic_refuted",
    "Qt.C113_bytes_refuted",
    "Qt.C113_close_refuted"
   ],
   "note": "For arbitrary file contents that are opened and read until the reader returns false, whose walks and page sizes can be written (Copyable), with an output file that grows: instructions, addresses, data addresses and branches (C113_copy_partial); real addresses and page sizes if pages change only at jumps and page sizes do not conflict there; walks if single ones have four entries and those of instructions change only at jumps. For traces of the writer without walks no hypothesis is on what is read: the copy has what was written if the format can express it (C113_written_partial), and in any case what is read from the original, if data page sizes and guest page sizes of instructions do not both occur (C113_reads_alike_partial). Refuted: copying aborts on a single walk of an instruction, page sizes at a jump are exchanged, magic number and stored reasons change, the last record is lost unreported if growing fails while closing. If growing fails, the program reports an error, or the copy is complete, or growing failed in closing and exactly the last record is missing (C113_growth_partial). Copies of copies, for traces without walks whose pages change only at jumps (PlainTrace): the copy of a copy is that copy byte for byte if control leaves the sequential path only at branches (C113_twice_partial; so for all such traces of the writer, C113_written_twice_partial), otherwise after one more copy (C113_settles_partial, C113_twice_refuted). Missing: what is copied of traces outside these hypotheses."
  },
  {
   "property": "C114",
   "status": "partial",
   "theorems": [
    "Str.C114_equal",
    "Str.C114_starts",
    "Str.C114_ends",
    "Str.C114_count_partial",
    "Str.C114_room",
    "Str.C114_characters",
    "Str.C114_count_refuted"
   ],
   "note": "All of it but strcount of an empty string, which is refuted: the loop finds it again at the same place and never ends. The functions of the C library (strlen, strcmp, strncmp, strstr) are described by what the standard says, on arrays; reading behind an array is a distinct outcome. The tools of this repository use none of these helpers."
  },
  {
   "property": "C115",
   "status": "partial",
   "theorems": [
    "Res.C115_writer",
    "Res.C115_writer_alone",
    "Res.C115_opens",
    "Res.C115_refused",
    "Res.C115_reader",
    "Res.C115_reader_alone",
    "Res.C115_memory",
    "Res.C115_not_opened_partial",
    "Res.C115_reader_failed_partial",
    "Res.C115_no_room_refuted",
    "Res.C115_reader_failed_refuted",
    "Res.C115_twice_refuted"
   ],
   "note": "All of it for successful opening, and for a file that cannot be opened (C115_not_opened_partial). Opening that fails later is refuted: a writer without room for its file leaves the descriptor open, and ptracer, which does not look at the result, then stores the first record at a null pointer (C115_no_room_refuted); a reader of a file with a bad header leaves the mapping, while after a failed fstat its state is what it was before, so that destroying it can close a descriptor of somebody else (C115_reader_failed_refuted); and destroying twice closes what was opened in between (C115_twice_refuted). The rest of the program is assumed to leave the descriptor and the mapping of the writer alone."
  },
  {
   "property": "C116",
   "status": "partial",
   "theorems": [
    "Ptr.Cnt.C116_counters",
    "Ptr.Cnt.C116_living_partial",
    "Ptr.Cnt.C116_end",
    "Ptr.Cnt.C116_asked",
    "Ptr.Cnt.C116_main_asked",
    "Ptr.Cnt.C116_read_refuted",
    "Ptr.Cnt.C116_message_refuted"
   ],
   "note": "C116_counters and C116_end for all stops as long as the requests succeed (otherwise the tracer exits), with new descriptors that are not in use. C116_living_partial if the reports come in the order of the events and there are at most 30000 threads, as in C77, where the rest is refuted. Refuted: if the counter cannot be read only a message is printed, and the number still to be skipped depends on what was in memory (C116_read_refuted); if the system does not say which thread is new (the reporting thread was killed), the test of the answer is for 1 instead of -1, and whatever number was in memory is entered as a thread (C116_message_refuted), while the main loop ends the tracer in that case (C116_main_asked). Skips below 200: C46."
  },
  {
   "property": "C117",
   "status": "partial",
   "theorems": [
    "Ptr.Cnt.C117_limit_partial",
    "Ptr.Cnt.C117_lowered_refuted",
    "Ptr.Cnt.C117_endless_refuted",
    "Ptr.Cnt.C117_threads_refuted"
   ],
   "note": "False as stated: a limit of 10000 is lowered to 8192 if the hard limit is 12000 (C117_lowered_refuted); the limit is never raised beyond 16384, though the table has room for 30000 threads (C117_threads_refuted); if the hard limit is larger than the system allows by now the loop never ends (C117_endless_refuted). Proved: otherwise it ends after at most 16 turns with at least 16384 or about half the hard limit, and does not lower the limit if the hard limit is at least 16384. What setrlimit accepts is taken from its manual."
  },
  {
   "property": "C118",
   "status": "partial",
   "theorems": [
    "Ptr.Sur.C118_exact_partial",
    "Ptr.Sur.C118_same_partial",
    "Ptr.Sur.C118_refuted"
   ],
   "note": "False as stated: SIGCHLD is ignored in the started program (so that waiting for its children gives no status), its soft limit of open files is that of the tracer, and the trace and the log of the tracer are open in it (C118_refuted, an ordinary start). C118_exact_partial says exactly what the program finds; all other signals, the hard limit and all files of before are as without the tracer. What execve hands on is taken from its manual. Environment variables, the mask of signals and the working directory are not touched by the tracer and not in the model."
  },
  {
   "property": "C119",
   "status": "proved",
   "theorems": [
    "Ptr.Sur.C119_signals"
   ],
   "note": "For all actions, refused signals and earlier contents of the array. A signal that arrives meanwhile is lost, as the property says."
  },
  {
   "property": "C12",
   "status": "partial",
   "theorems": [
    "Qt.C12_annotation_partial",
    "Qt.C12_abort_partial",
    "Qt.C12_branch_fields",
    "Qt.C12_never_aborts_refuted",
    "Qt.C12_exception_abort_refuted",
    "Qt.C12_direct_refuted"
   ],
   "note": "False as stated: unconditional bc and conditional branches ending in an exception abort the reader, and bclr is called direct. Proved: up to the first such record every record has the branch type its instruction prescribes, and the abort condition is exact."
  },
  {
   "property": "C120",
   "status": "proved",
   "theorems": [
    "Hash.C120_string",
    "Hash.C120_one",
    "Hash.C120_pointer"
   ],
   "note": "For all strings and pointers (of eight bytes). A string without an end is read beyond its memory, which is a distinct outcome. The tools of this repository do not use these two functions."
  },
  {
   "property": "C121",
   "status": "partial",
   "theorems": [
    "Bbv.C121_points_partial",
    "Bbv.C121_medoids",
    "Bbv.C121_far_refuted",
    "Bbv.C121_great_refuted"
   ],
   "note": "False as stated: a point whose distance to all medoids is 2^64-1 is listed with the medoid -1 (C121_far_refuted), and a coordinate of at least 2^63 is listed as a negative number (C121_great_refuted). Proved: the list of points is right, and agrees with the table of weights, for clusterings of fewer than 2^63 medoids whose distances fit (as in C55); the list of medoids gives all coordinates as signed numbers of 64 bits without any condition. The tools of this repository do not call these two functions."
  },
  {
   "property": "C122",
   "status": "partial",
   "theorems": [
    "Clist.C122_check_partial",
    "Clist.C122_sound",
    "Clist.C122_lasso",
    "Clist.C122_long_refuted"
   ],
   "note": "C122_check_partial: for fewer than 2^31 objects the result is as stated, in both directions. C122_sound: what a sound list is good for. C122_lasso: a list on which the traversal never ends, and the check does. Refuted for a list of 2^31 nodes: the counter of the check, an int, overflows (C122_long_refuted). The text of the message is left out, but for the node and the number in it. The tools do not call list_check (CCAN_LIST_DEBUG is off)."
  },
  {
   "property": "C123",
   "status": "partial",
   "theorems": [
    "Bbv.C123_prefix_partial",
    "Bbv.C123_verbose",
    "Bbv.C123_plain",
    "Bbv.C123_lost_refuted",
    "Bbv.C123_table_refuted"
   ],
   "note": "False as stated: that the hash table of blocks cannot grow is not noticed, so that an execution of a block is lost, equal intervals are taken for different ones and the tables change (C123_lost_refuted, for a program that starts with a matrix of 2 by 4 entries instead of 1000 by 10000); that there is no memory for the table of weights leaves it out with status 0 (C123_table_refuted). Proved for all other requests, traces, options and answers (C123_prefix_partial); what is printed with enough memory is the output of C111 and C84 (C123_verbose, C123_plain). Not in the model: memory of the library (for instance the buffer of the output), and that the system kills a process it has promised too much memory."
  },
  {
   "property": "C124",
   "status": "partial",
   "theorems": [
    "Ptr.C124_sizes_partial",
    "Ptr.C124_main",
    "Ptr.C124_great_refuted",
    "Ptr.C124_odd_refuted"
   ],
   "note": "Proved for powers of two below 2^32; C124_main: the two sizes of ptracer are among them and give the shifts of C41. Refuted: multiples of 4 GiB (POWER has pages of 16 GiB) give the shift 2^64-1, which is undefined at once for the base size and at the first translation for the other (C124_great_refuted); a base size that is no power of two is taken for its lowest bit (C124_odd_refuted). The program passes constants, so that these do not occur in it."
  },
  {
   "property": "C125",
   "status": "partial",
   "theorems": [
    "Fmt.C125_text_partial",
    "Fmt.C125_fails",
    "Fmt.C125_long_refuted"
   ],
   "note": "Proved for all texts but those of exactly INT_MAX characters, for which the addition of one to the length overflows (C125_long_refuted). The replacement of vasprintf is modelled, which is compiled if the C library has none; vsnprintf and vsprintf are taken to agree about the text."
  },
  {
   "property": "C126",
   "status": "proved",
   "theorems": [
    "Show.C126_lists",
    "Show.C126_refused",
    "Show.C126_written"
   ],
   "note": "For all contents of the file. If reading breaks down (a failed assertion or undefined behaviour, which C07 and others describe) the lines before are those of the records before, as handed to the library; what of them is still in its buffer then is lost."
  },
  {
   "property": "C127",
   "status": "partial",
   "theorems": [
    "Qt.C127_joined_partial",
    "Qt.C127_translations_partial",
    "Qt.C127_walks_partial",
    "Qt.C127_instructions_partial",
    "Qt.C127_mix_partial",
    "Qt.C127_copied_partial",
    "Qt.C127_walkless_copied_partial",
    "Qt.C127_prefix_refuted",
    "Qt.C127_unknown_refuted",
    "Qt.C127_jump_refuted"
   ],
   "note": "For any number of traces, empty ones too, none but the last of which ends with the first word of a prefixed instruction: all records in order, with instructions, addresses, data addresses and branches as in the trace alone (C127_joined_partial); real addresses and page sizes if each trace has ones the format can express and what is known of an instruction is known of all later ones (C127_translations_partial); page-table walks if in each trace single walks have four entries and instruction walks change only where control jumps, with no condition from one trace to the next (C127_walks_partial); so the instructions read are those of the traces in order (C127_instructions_partial) and every counter of the instruction mix is the sum over the traces (C127_mix_partial); copying the joined file, if the records read of it can be written again, gives one trace of all the instructions, in which the jump from one trace to the next is told (C127_copied_partial), and they can if the traces have no page-table walks (C127_walkless_copied_partial). Refuted: a trace that ends within an instruction swallows the next header (C127_prefix_refuted); an instruction of unknown real address gets one of the trace before (C127_unknown_refuted); the jump to the next trace is not told (C127_jump_refuted). Missing: what is read of joined files outside these hypotheses, and which joined traces with walks can be copied."
  },
  {
   "property": "C128",
   "status": "partial",
   "theorems": [
    "Opc.C128_form_partial",
    "Opc.C128_own_partial",
    "Opc.C128_never_refuted",
    "Opc.C128_mfspr_refuted",
    "Opc.C128_mfpvr_refuted",
    "Opc.C128_hidden_refuted"
   ],
   "note": "For every entry and every word that matches it: counted under an entry not later, for these processors, that the word matches, and that is a form of the entry, but for the listed pairs of names (C128_form_partial, all pairs of entries of a major opcode compared by the kernel); exactly under the entry if none earlier has an instruction in common with it (C128_own_partial). Refuted: nothing is ever counted as mfspr, because the first mftb has its opcode and mask and the search of the statistics does not ask the operand TBR whether it takes the register number (C128_never_refuted, C128_mfspr_refuted); mfpvr is counted as mfsprg in the same way (C128_mfpvr_refuted); 37 such entries are never counted, among them or, nor, cror, vor and the branches without a hint or with the hint +, because mr, not, crmove, vmr and the branches with the hint - have their opcodes and masks (C128_hidden_refuted). Missing: for which other words the operands of the entry counted do not take the word."
  },
  {
   "property": "C13",
   "status": "partial",
   "theorems": [
    "Qt.C13_conditional",
    "Qt.C13_unconditional",
    "Qt.C13_exclusive",
    "Qt.C13_is_branch_partial",
    "Qt.C13_rfebb_refuted"
   ],
   "note": "False only for rfebb, which the code does not recognise."
  },
  {
   "property": "C14",
   "status": "partial",
   "theorems": [
    "Qt.C14_retarget",
    "Qt.C14_refused",
    "Qt.C14_success_nonzero",
    "Qt.C14_other",
    "Qt.C14_decode_partial",
    "Qt.C14_decode_absolute_refuted"
   ],
   "note": "Retargeting is proved in full against the ISA's target; the code's own decoder is right for relative branches at aligned addresses and shown wrong for every absolute branch."
  },
  {
   "property": "C15",
   "status": "proved",
   "theorems": [
    "LinkStack.C15_nested_returns",
    "LinkStack.C15_depth_needed"
   ],
   "note": "C15_depth_needed shows the depth bound is sharp."
  },
  {
   "property": "C16",
   "status": "partial",
   "theorems": [
    "LinkStack.C16_bounded_lifo_partial",
    "LinkStack.C16_exact",
    "LinkStack.C16_inside",
    "LinkStack.C16_depth_zero_refuted"
   ],
   "note": "Proved for every depth of at least one, C16_exact also for the returns that find the stack empty (a ring of the old entries answers); depth zero, which the command line accepts, is refuted."
  },
  {
   "property": "C17",
   "status": "partial",
   "theorems": [
    "Htm.Tlb.C17_proper_partial",
    "Htm.Tlb.C17_inserted_is_current",
    "Htm.Tlb.C17_single_size_partial",
    "Htm.Tlb.C17_sound_partial",
    "Htm.Tlb.C17_latest_refuted",
    "Htm.Tlb.C17_miss_refuted",
    "Htm.Tlb.C17_last_page_refuted",
    "Htm.Tlb.C17_same_start_aborts"
   ],
   "note": "False as stated when a large page is inserted over smaller ones and for lookups in the last page of the address space. Proved in full for histories without those, in particular for every history of one page size; for all other histories every returned translation is proved to come from an inserted page covering the address."
  },
  {
   "property": "C18",
   "status": "partial",
   "theorems": [
    "Htm.Tlb.C18_proper_partial",
    "Htm.Tlb.C18_starts_partial",
    "Htm.Tlb.C18_refuted"
   ],
   "note": "False as stated (witness in C18_refuted). Proved for proper histories; for every history, no two entries start at the same address."
  },
  {
   "property": "C19",
   "status": "partial",
   "theorems": [
    "Htm.Erat.C19_total",
    "Htm.Erat.C19_found",
    "Htm.Erat.C19_lookup",
    "Htm.Erat.C19_lookup_partial",
    "Htm.Erat.C19_host_refuted"
   ],
   "note": "False for the host page size of a re-inserted entry (C19_host_refuted). C19_lookup_partial says exactly what is returned after every history; C19_lookup is the full property when insertions for the page agree on the host page size."
  },
  {
   "property": "C20",
   "status": "partial",
   "theorems": [
    "Htm.Pwc.C20_total",
    "Htm.Pwc.C20_translation_partial",
    "Htm.Pwc.C20_reverse_partial",
    "Htm.Pwc.C20_walk_partial",
    "Htm.Pwc.C20_other_context",
    "Htm.Pwc.C20_quadrant_refuted"
   ],
   "note": "Proved for every history with pages taken in the 52-bit address space; false for full 64-bit addresses because the upper twelve bits are dropped from the keys (C20_quadrant_refuted)."
  },
  {
   "property": "C21",
   "status": "partial",
   "theorems": [
    "Htm.Pwc.C21_merge",
    "Htm.Pwc.C21_kept",
    "Htm.Pwc.C21_history_partial",
    "Htm.Pwc.C21_overflow_refuted",
    "Htm.Pwc.C21_exception_refuted"
   ],
   "note": "The capacity is not checked (C21_overflow_refuted) and a step with an exception cuts the old walk (C21_exception_refuted). C21_merge says exactly what happens for every pair of walks that overlap, C21_history_partial what holds after every history."
  },
  {
   "property": "C22",
   "status": "proved",
   "theorems": [
    "Htm.Xl.C22_history",
    "Htm.Xl.C22_lookup",
    "Htm.Xl.C22_written"
   ],
   "note": "For every history of calls, without conditions on the walks; C22_written connects the bounds to the writer."
  },
  {
   "property": "C23",
   "status": "partial",
   "theorems": [
    "Htm.C23_field_partial",
    "Htm.C23_field32_partial",
    "Htm.C23_bit",
    "Htm.C23_outside",
    "Htm.C23_whole_refuted"
   ],
   "note": "Field extraction is exact for every range of fewer than 64 bits and outside calls stop on the assertion; the whole word (0..63) shifts by 64 and is undefined (C23_whole_refuted)."
  },
  {
   "property": "C24",
   "status": "partial",
   "theorems": [
    "Htm.C24_p10_i",
    "Htm.C24_p10_i_absolute",
    "Htm.C24_p10_b",
    "Htm.C24_p10_b_absolute_partial",
    "Htm.C24_p10_b_absolute_refuted",
    "Htm.C24_p10_bclr",
    "Htm.C24_p9_i",
    "Htm.C24_p9_i_absolute",
    "Htm.C24_p9_b",
    "Htm.C24_p9_b_absolute"
   ],
   "note": "Proved for POWER9 and POWER10, I-form and B-form, relative and absolute, for all words and addresses with an encodable displacement; the POWER10 absolute B-form loses the high bit of BI (refuted for all such words)."
  },
  {
   "property": "C25",
   "status": "partial",
   "theorems": [
    "Htm.C25_interleavings_partial",
    "Htm.C25_decoding",
    "Htm.C25_twice_refuted"
   ],
   "note": "Proved for every interleaving in which a step back follows a fetch, and, without condition, for decoding after any number of steps; refuted for other interleavings: the reader itself does not check that condition."
  },
  {
   "property": "C26",
   "status": "partial",
   "theorems": [
    "Htm.C26_terminates",
    "Htm.C26_bound",
    "Htm.C26_all_records",
    "Htm.C26_only_records_partial",
    "Htm.C26_outcomes",
    "Htm.C26_refuted"
   ],
   "note": "Termination is proved for all files. The second half is false at the end of the file (C26_refuted); C26_all_records says exactly what is read."
  },
  {
   "property": "C27",
   "status": "proved",
   "theorems": [
    "Stats.C27_counts",
    "Stats.C27_sums",
    "Stats.C27_partition",
    "Stats.tables_good"
   ],
   "note": "C27_counts: every counter is the number (modulo 2^64) of the instructions it stands for; C27_sums: the sums in the arithmetic of the counters, for all traces; C27_partition: as numbers, for traces of fewer than 2^64 instructions; tables_good: the tables of the code meet the hypotheses."
  },
  {
   "property": "C28",
   "status": "partial",
   "theorems": [
    "Stats.C28_search_partial",
    "Stats.C28_counts_partial",
    "Stats.C28_once_partial",
    "Stats.C28_cache_partial",
    "Stats.C28_tables_refuted",
    "Stats.C57_refuted",
    "Stats.kind_some",
    "Stats.kind_none",
    "Stats.table_covered"
   ],
   "note": "False as stated: the last entry of a table is never found (for the table of the code C57_refuted: fcfidu.), nor one whose mask leaves out the major opcode. Proved for all other entries of every table whose masks cover the major opcode, and that every instruction is counted once, for traces of fewer than 2^64; table_covered: the table of the code is one. kind_some and kind_none say bit by bit what the classification means."
  },
  {
   "property": "C29",
   "status": "partial",
   "theorems": [
    "Bb.C29_exact",
    "Bb.C29_counts_partial",
    "Bb.C29_sum_partial",
    "Bb.C29_size_refuted",
    "Bb.C29_limit_refuted"
   ],
   "note": "C29_exact: a trace is counted if it has at most 2^30 different addresses, and with one more the size of the table does not fit in an int; C29_sum_partial, the sum, is for at most 2^30 different addresses and fewer than 2^64 instructions. Refuted for 2^30 + 1 different addresses."
  },
  {
   "property": "C30",
   "status": "partial",
   "theorems": [
    "Bb.C30_blocks_partial",
    "Bb.C30_refuted"
   ],
   "note": "False as stated for counters beyond 2^31, as the witnesses show; proved for all traces of fewer than 2^31 instructions and all results that qsort may give."
  },
  {
   "property": "C31",
   "status": "partial",
   "theorems": [
    "Bbv.C31_create_partial",
    "Bbv.C31_resize_partial",
    "Bbv.C31_compare",
    "Bbv.C31_copy",
    "Bbv.C31_refuted",
    "Bbv.C31_empty"
   ],
   "note": "Proved for all shapes with less than 2^64 bytes; larger ones wrap (C31_refuted), and a resize to no entries may exit (C31_empty)."
  },
  {
   "property": "C32",
   "status": "proved",
   "theorems": [
    "Bbv.C32_product",
    "Bbv.C32_rejected"
   ],
   "note": "For all matrices that fit in memory."
  },
  {
   "property": "C33",
   "status": "partial",
   "theorems": [
    "Bbv.C33_iteration_partial",
    "Bbv.C33_start",
    "Bbv.C33_terminates_partial",
    "Bbv.C34_iteration",
    "Bbv.C33_refuted"
   ],
   "note": "Proved for points whose distances do not overflow; otherwise llabs is undefined (C33_refuted)."
  },
  {
   "property": "C34",
   "status": "partial",
   "theorems": [
    "Bbv.C34_clustering_partial",
    "Bbv.C34_start",
    "Bbv.C34_optimum_partial",
    "Bbv.C34_iteration",
    "Bbv.C34_refuted"
   ],
   "note": "Proved for points whose distances do not overflow; with wrapping distances two different points are taken for the same and no clustering is found (C34_refuted)."
  },
  {
   "property": "C35",
   "status": "partial",
   "theorems": [
    "Bbv.C35_conserved_partial",
    "Bbv.C35_blocks",
    "Bbv.C36_vectors_partial",
    "Bbv.C35_refuted"
   ],
   "note": "Proved for all traces and interval lengths within the size limits (Fits). Blocks that end after the last complete interval are in no entry (C35_refuted), and doubling the columns only once can lose counts (C36_refuted)."
  },
  {
   "property": "C36",
   "status": "partial",
   "theorems": [
    "Bbv.C36_vectors_partial",
    "Bbv.C36_growth_partial",
    "Bbv.C36_refuted"
   ],
   "note": "Proved whenever one doubling per interval is enough, in particular for traces with at most 20000 different blocks; false beyond that (C36_refuted: 20001 new blocks in the first interval)."
  },
  {
   "property": "C37",
   "status": "partial",
   "theorems": [
    "Ptr.C37_storage_partial",
    "Ptr.C37_bounds",
    "Ptr.C37_refuted"
   ],
   "note": "False as stated: string and atomic memory instructions abort the tracer. Proved for every load and store of the table in SpecStorage.lean."
  },
  {
   "property": "C38",
   "status": "partial",
   "theorems": [
    "Ptr.resumed_spec",
    "Ptr.C38_text_partial",
    "Ptr.C38_exit_partial",
    "Ptr.C38_refuted"
   ],
   "note": "False as stated: when the target of a later exit branch is not mapped, the tracer exits with the breakpoint of an earlier one in the text."
  },
  {
   "property": "C39",
   "status": "partial",
   "theorems": [
    "Ptr.C39_contained_partial",
    "Ptr.C39_refuted"
   ],
   "note": "False as stated: an unconditional branch leaves the sequence unnoticed. Proved for sequences with no other transfer of control than conditional branches."
  },
  {
   "property": "C40",
   "status": "partial",
   "theorems": [
    "Ptr.C40_set_partial",
    "Ptr.C40_index",
    "Ptr.C40_capacity",
    "Ptr.C40_refuted"
   ],
   "note": "False as stated: a process added twice and removed once is still found. Proved for histories that add a process only while it is absent."
  },
  {
   "property": "C41",
   "status": "partial",
   "theorems": [
    "Ptr.C41_fresh_partial",
    "Ptr.C41_refuted",
    "Ptr.C41_wrap_refuted"
   ],
   "note": "False as stated: the first 2 MiB are answered from the zero-initialised cache, and the access counter wraps."
  },
  {
   "property": "C42",
   "status": "proved",
   "theorems": [
    "Sym.C42_lookup",
    "Sym.C42_kernel",
    "Sym.C42_merge_partial"
   ],
   "note": "For every table in order of addresses; for kernel images with whatever function does the sorting; a library whose qsort is a merge sort does sort it (C42_merge_partial). The comparison function given to qsort breaks the contract of qsort (Sym.C42_comparator_refuted), so the order rests on the C library."
  },
  {
   "property": "C43",
   "status": "partial",
   "theorems": [
    "Dis.C43_plain_partial",
    "Dis.C43_shifted",
    "Dis.C43_refuted"
   ],
   "note": "False as stated: every second word shown is that of the prefixed instruction before, 0 for the first. Proved for traces without prefixed instructions."
  },
  {
   "property": "C44",
   "status": "partial",
   "theorems": [
    "Htable.Map.refines",
    "Htable.C44_history_partial",
    "Htable.C44_visits_partial",
    "Htable.C44_get_partial",
    "Htable.C44_iterate_partial",
    "Htable.C44_lost_refuted"
   ],
   "note": "Proved for histories with at most 3*2^28 additions of pointers none of which is a bit-subset of another one lacking its highest bit (in particular pointers of the same magnitude); allocation is assumed to succeed. Refuted for other pointers: an element can be lost."
  },
  {
   "property": "C45",
   "status": "partial",
   "theorems": [
    "Qtb.C45_flow_partial",
    "Qtb.C45_built_partial",
    "Qtb.C45_start",
    "Qtb.C45_file_partial",
    "Qtb.C45_refuted",
    "Qtb.C45_absolute_refuted",
    "Qtb.C45_oob_refuted"
   ],
   "note": "False as stated: two annotations behind one instruction make all later ones ignored, branch_taken behind an absolute branch goes astray, a load without annotation reads past the table. Proved, up to the bytes of the written file and their reading, for sources without these."
  },
  {
   "property": "C46",
   "status": "partial",
   "theorems": [
    "Ptr.C46_window_partial",
    "Ptr.C46_refuted",
    "Ptr.C46_attach_refuted"
   ],
   "note": "False as stated: the perf period underflows for a skip count below 200."
  },
  {
   "property": "C47",
   "status": "partial",
   "theorems": [
    "Text.C47_hex_decode",
    "Text.C47_hex_roundtrip",
    "Text.C47_base32_roundtrip",
    "Text.C47_base32_accepted_partial",
    "Text.C47_data_size",
    "Text.C47_base32_refuted"
   ],
   "note": "Hexadecimal is proved in full: exactly the texts of two digits per byte are accepted, encoding succeeds exactly with enough room and decodes to the same bytes. Base 32 is proved inverse on the encodings of all byte strings, in exactly the announced room. Refuted: base 32 decoding accepts text that encodes nothing (bits set beyond the last byte, groups of padding only, padding in the middle). The size announced for the data of a text is exact for encodings and an upper bound for every accepted text."
  },
  {
   "property": "C48",
   "status": "proved",
   "theorems": [
    "Clist.C48_history",
    "Clist.C48_readings",
    "Clist.C48_neighbours",
    "Clist.C48_plain_traversal"
   ],
   "note": "All operations of list.h with memory and pointers, over all histories that keep to the stated rules; also for_each_safe with removal. C48_plain_traversal shows the rule about the plain traversal is needed."
  },
  {
   "property": "C49",
   "status": "proved",
   "theorems": [
    "Qt.C49_section_layout",
    "Qt.C49_section_accepted"
   ],
   "note": "Both directions."
  },
  {
   "property": "C50",
   "status": "partial",
   "theorems": [
    "Htm.C50_p10",
    "Htm.C50_p9",
    "Htm.C98_decoded",
    "Htm.Guest.C73_guest_partial",
    "Htm.C50_half_refuted",
    "Htm.C50_segment_refuted"
   ],
   "note": "Proved for whole traces of any length with stamps anywhere, for the POWER10 format, without page-table walk records (C50_p10) and, for a guest, with them (C73_guest_partial), and the POWER9 format without instruction real addresses (C50_p9) and with them (C98_decoded). Refuted for POWER9 traces with segment information (a data address of 0 is reported) and for offsets that disagree with their line."
  },
  {
   "property": "C51",
   "status": "partial",
   "theorems": [
    "Htm.Xl.C51_outcomes_partial",
    "Htm.Xl.C51_refuted"
   ],
   "note": "False as stated: three ways to stop the decoder are shown. C51_outcomes_partial shows, for every history, that there are no others."
  },
  {
   "property": "C52",
   "status": "partial",
   "theorems": [
    "Htm.Xl.C52_lookup_partial",
    "Htm.Xl.C52_refuted"
   ],
   "note": "False as stated when a larger page around the address was translated before, and a failed decode does leave a translation. Proved for nested translations when the page and the larger ones around it were not translated before."
  },
  {
   "property": "C53",
   "status": "proved",
   "theorems": [
    "Htm.C53_never_repeats"
   ],
   "note": ""
  },
  {
   "property": "C54",
   "status": "partial",
   "theorems": [
    "Htm.C54_stamps_partial",
    "Htm.C54_instructions_partial",
    "Htm.C54_unknown_refuted",
    "Htm.C54_data_address_refuted",
    "Htm.C54_errors_refuted"
   ],
   "note": "Proved for all traces and all known stamps, unless the trace without stamps has more than 101 errors in a row; unknown stamps and data addresses that look like stamps are refuted."
  },
  {
   "property": "C55",
   "status": "partial",
   "theorems": [
    "Bbv.C55_weights_partial",
    "Bbv.C55_counts_partial",
    "Bbv.C55_refuted"
   ],
   "note": "Proved for points whose distances do not overflow; otherwise an entry before the table is written (C55_refuted)."
  },
  {
   "property": "C56",
   "status": "partial",
   "theorems": [
    "Stats.C56_context_partial",
    "Stats.C56_refuted"
   ],
   "note": "False as stated: the mask leaves out the target registers 16 to 31 (C56_refuted); proved for the others."
  },
  {
   "property": "C57",
   "status": "partial",
   "theorems": [
    "Stats.C57_counted_partial",
    "Stats.C57_refuted"
   ],
   "note": "False as stated: the last entry of the table (fcfidu.) is never found. Proved for all other entries."
  },
  {
   "property": "C58",
   "status": "partial",
   "theorems": [
    "Stats.C58_printed_partial",
    "Stats.C58_refuted"
   ],
   "note": "False as stated: the comparison functions return the difference of 64 bit counters as an int. Proved for counters below 2^31. qsort is described by what the C standard promises."
  },
  {
   "property": "C59",
   "status": "partial",
   "theorems": [
    "Stats.C59_idle_partial",
    "Stats.C59_kernel_partial",
    "Stats.C59_refuted"
   ],
   "note": "False as stated. C59_idle_partial says exactly what is counted, for traces of fewer than 2^32 instructions (the code uses a 32 bit difference)."
  },
  {
   "property": "C60",
   "status": "partial",
   "theorems": [
    "Bb.C60_share_partial",
    "Bb.C60_refuted"
   ],
   "note": "False as stated; the error of each block is bounded."
  },
  {
   "property": "C61",
   "status": "partial",
   "theorems": [
    "Ptr.C61_straight_partial",
    "Ptr.C61_refuted"
   ],
   "note": "False as stated: the range of addresses up to the stop is recorded, executed or not. Proved for sequences passed through in a straight line."
  },
  {
   "property": "C62",
   "status": "partial",
   "theorems": [
    "Ptr.C62_address_partial",
    "Ptr.C62_refuted"
   ],
   "note": "False as stated: in an atomic sequence the registers at its end are used. Proved if the registers the address is formed from are unchanged."
  },
  {
   "property": "C63",
   "status": "partial",
   "theorems": [
    "Dis.C63_linked_partial",
    "Dis.C63_written_partial",
    "Dis.C63_refuted"
   ],
   "note": "False behind headers in the middle of a trace. Proved for every trace whose records are linked, and for all traces of the writer."
  },
  {
   "property": "C64",
   "status": "partial",
   "theorems": [
    "Dis.C64_data_partial",
    "Dis.C64_page_refuted",
    "Dis.C64_fetch_refuted"
   ],
   "note": "False for fetches, and for data pages of other sizes than 4 KiB. Proved for the data side with 4 KiB pages."
  },
  {
   "property": "C65",
   "status": "partial",
   "theorems": [
    "Dis.C65_listing_partial",
    "Dis.C65_refuted"
   ],
   "note": "False for traces cut off behind a prefix. Proved for all other byte strings."
  },
  {
   "property": "C66",
   "status": "partial",
   "theorems": [
    "Sym.C66_attribution",
    "Sym.C66_nothing",
    "Sym.C66_mapped_partial",
    "Sym.C66_refuted",
    "Sym.C66_overrun_refuted",
    "Sym.C42_last_refuted",
    "Sym.C42_comparator_refuted"
   ],
   "note": "False behind the end of a mapping, in the last function of a file and with more than 256 mappings. Proved: the table and the symbol chosen are the closest below the address, and the distance is right."
  },
  {
   "property": "C67",
   "status": "proved",
   "theorems": [
    "Clist.Fragments.C67_store"
   ],
   "note": "On the memory model of the linked list; joining fragments may overflow their array (C21)."
  },
  {
   "property": "C68",
   "status": "partial",
   "theorems": [
    "Htm.C68_stored_partial",
    "Htm.C68_refuted"
   ],
   "note": "For every dump, provided the record that the decoder leaves partly uninitialised has no page-table walk and no guest page size in its memory; refuted for other memory: an assertion fails or the trace has a walk that is not in the dump."
  },
  {
   "property": "C69",
   "status": "partial",
   "theorems": [
    "Htm.C69_partial",
    "Htm.C69_p10",
    "Htm.C69_p9",
    "Htm.C98_contents",
    "Htm.C69_zero_refuted"
   ],
   "note": "Proved for dumps of the two formats without page-table walks, for POWER9 also with real addresses of instructions (C98_contents), with any stamps between the records, and for every dump whose decoded sequence the format can express. Refuted for instruction words 0. Translations in the trace are the subject of C83."
  },
  {
   "property": "C70",
   "status": "partial",
   "theorems": [
    "Htm.Mmu.C70_history_partial",
    "Htm.Mmu.C70_complete",
    "Htm.Mmu.C70_guest_real_refuted",
    "Htm.Mmu.C70_cut_refuted",
    "Htm.Mmu.C70_huge_refuted"
   ],
   "note": "Proved for all page tables and all histories of nested walks and lookups; a walk may also lack its last record. Refuted when a walk without relocation of the same process comes between, and for cut walks to 64 KiB pages of the host whose ending record has level 0. Refuted too for pages of 1 GiB of the guest: a third level is expected. Not covered: walks joined from fragments, entries found only by their host address."
  },
  {
   "property": "C71",
   "status": "partial",
   "theorems": [
    "Htm.Mmu.C71_lookup_partial",
    "Htm.Mmu.C71_processes_refuted"
   ],
   "note": "Proved for all page tables and histories of one process, refuted for two processes that share a page."
  },
  {
   "property": "C72",
   "status": "partial",
   "theorems": [
    "Htm.C72_stamps_partial",
    "Htm.C72_unique",
    "Htm.C72_reserved_refuted"
   ],
   "note": "For all bytes and both formats, when decoding ends without a failed assertion. Refuted: markers with something in their reserved bits end the program (refuted witness)."
  },
  {
   "property": "C73",
   "status": "partial",
   "theorems": [
    "Htm.Guest.C73_guest_partial",
    "Htm.Guest.C73_real_refuted",
    "Htm.Guest.C73_alias_refuted"
   ],
   "note": "For all page tables and all sequences of instructions of one process, POWER10 format, relocation on. The real address is proved where the host's page is not larger than the guest's, and refuted otherwise. Not covered: several processes in a dump (refuted by C71), fragments of walks, a walk for the second of two accesses of one instruction to the same page of 4 kB. Refuted: if two accesses of one instruction are to different pages that are mapped to the same page of real memory, the walk of the first is taken for the second as well, and later records have that wrong translation."
  },
  {
   "property": "C74",
   "status": "partial",
   "theorems": [
    "Ptr.Log.C74_registers_partial",
    "Ptr.Log.C74_big_endian_partial",
    "Ptr.Log.C74_instructions",
    "Ptr.Log.C74_vsr_refuted",
    "Ptr.Log.C74_fpscr_refuted"
   ],
   "note": "For all runs and register contents, from the text of the log (build without the BFD library). Refuted for the upper half of FPSCR, and on little-endian systems for the order of the halves of VSR0 to VSR31."
  },
  {
   "property": "C75",
   "status": "partial",
   "theorems": [
    "Ptr.C75_recorded_partial",
    "Ptr.C75_schedule",
    "Ptr.C75_answered",
    "Ptr.C75_handled_refuted",
    "Ptr.C75_ignored_refuted"
   ],
   "note": "For all schedules in which no signal arrives at the traced thread (other threads may get any). Refuted for signals with and without handler. What an atomic sequence reports is C61."
  },
  {
   "property": "C76",
   "status": "partial",
   "theorems": [
    "Ptr.C76_others_partial",
    "Ptr.C76_traced_partial",
    "Ptr.C76_forward_partial",
    "Ptr.C76_genuine",
    "Ptr.C76_refuted",
    "Ptr.C76_stop_refuted"
   ],
   "note": "Proved outside of the listed cases, each of which is refuted: signals in front of an atomic sequence, SIGILL of other threads, SIGSTKFLT, traps while skipping, job control stops."
  },
  {
   "property": "C77",
   "status": "partial",
   "theorems": [
    "Ptr.C77_table_partial",
    "Ptr.C77_released_partial",
    "Ptr.C77_forward_partial",
    "Ptr.C77_refuted",
    "Ptr.C77_full_refuted"
   ],
   "note": "Proved when the report of a new thread comes before that of its exit and there are at most 30000 threads; refuted otherwise (null pointer while skipping, dead thread in the table)."
  },
  {
   "property": "C78",
   "status": "partial",
   "theorems": [
    "Script.C78_line_partial",
    "Script.C78_word_partial",
    "Script.C78_listing_partial",
    "Script.C78_names_refuted"
   ],
   "note": "For names without blanks and plus signs (all names of C); the names under which functions are reported are not injective, even up to the prefix of a system call."
  },
  {
   "property": "C79",
   "status": "partial",
   "theorems": [
    "Script.C79_agree_partial",
    "Script.C79_agree_refuted",
    "Script.C79_exceptions",
    "Script.C79_shares_partial",
    "Script.C79_shares_refuted",
    "Script.C79_negative_refuted"
   ],
   "note": "Exceptions for all traces; agreement below 0xd000000000000000; shares without firmware. The rest is refuted."
  },
  {
   "property": "C80",
   "status": "partial",
   "theorems": [
    "Script.C80_calls_partial",
    "Script.C80_bound",
    "Script.C80_refuted",
    "Script.C80_raw_refuted"
   ],
   "note": "The bound holds for all listings; the counts for traces whose entries all reach their function; refuted otherwise."
  },
  {
   "property": "C81",
   "status": "proved",
   "theorems": [
    "Hash.C81_lookup",
    "Hash.C81_any",
    "Hash.C81_u32"
   ],
   "note": "All five code paths of hashlittle and hashbig compute lookup3 for every key, address, byte order and previous value; reads are matches on the bytes of the key, so that no read leaves it. The values of the function are checked against the two test values its author publishes."
  },
  {
   "property": "C82",
   "status": "partial",
   "theorems": [
    "Hash.C82_mix",
    "Hash.C82_final",
    "Hash.C82_stable_partial",
    "Hash.C82_every_refuted",
    "Hash.C82_empty_refuted"
   ],
   "note": "Proved: mixing and final mixing are bijections; the stable hashes are the hash of the little-endian memory whenever the number of elements is not a multiple of three (six for 2-byte elements). Refuted: hash64_stable_32 and hash64_stable_64 ignore the last three elements of an array of 3n elements and hash64_stable_16 the last six of 6n (the loop stops at three (six) elements and the switch has no case for three (six)), so that all arrays of three words have the same hash; the hash of an empty array lacks the high word. The tools of this repository use only hash64_any."
  },
  {
   "property": "C83",
   "status": "partial",
   "theorems": [
    "Htm.Guest.C83_guest_partial",
    "Htm.Guest.C83_sizes_refuted",
    "Htm.Guest.C83_next_page_refuted"
   ],
   "note": "From the bytes of the dump to the records read, for all page tables and all sequences of instructions of one process, also prefixed ones, if the dump has walks for the pages of the first instruction, of those jumped to and of all data, and the host's pages are not larger than the guest's. Refuted: when an instruction that accessed data is followed by a jump, the size of the data's host page and that of the target's guest page come back exchanged, so that the real address of the data is wrong too (0xa13000 instead of 0x53000 with 64 kB and 2 MB pages); when control runs into the next page, the trace keeps the walk of the page before."
  },
  {
   "property": "C84",
   "status": "partial",
   "theorems": [
    "Bbv.C84_sweep_partial",
    "Bbv.C84_chosen_partial",
    "Bbv.C84_exact",
    "Bbv.C84_short_refuted",
    "Bbv.C84_period_refuted"
   ],
   "note": "For all traces within the size limits (Fits, Sized), all interval lengths, dimensions and signs, from the records of the trace to the printed tables; memory is assumed (C123 is about its lack). Refuted: a trace shorter than an interval (10 million instructions by default) gives no table and status 1; with -p 0 every line says 0 to -1."
  },
  {
   "property": "C85",
   "status": "partial",
   "theorems": [
    "Ptr.Attach.C85_attach_partial",
    "Ptr.Attach.C85_signals",
    "Ptr.Attach.C85_delivered_partial",
    "Ptr.Attach.C85_no_failure_partial",
    "Ptr.Attach.C85_completes_partial",
    "Ptr.Tasks.C85_tasks",
    "Ptr.Tasks.C85_list",
    "Ptr.Attach.C85_left_stopped_refuted",
    "Ptr.Attach.C85_undisturbed_refuted",
    "Ptr.Attach.C85_other_cont_refuted"
   ],
   "note": "For all programs and all interleavings; C85_completes_partial: from every state reached the tracer can get to the end (no deadlock), though nothing is said about fairness of the scheduler; the behaviour of the kernel (SpecAttach.lean) is an assumption taken from ptrace(2) and signal(7), without SIGKILL, exec and stop signals other than SIGSTOP. Refuted: a failure leaves the program stopped (exit(1) behind kill(SIGSTOP) without SIGCONT), and it occurs when the main thread makes a thread after it was seized (the new thread is traced automatically, so that PTRACE_SEIZE fails) or when a thread exits before it is seized; a program that was stopped before goes on afterwards and gets a SIGCONT nobody sent; when somebody else sends SIGCONT meanwhile, a thread can be missing from the table and run on untraced."
  },
  {
   "property": "C86",
   "status": "partial",
   "theorems": [
    "Ptr.Launch.C86_launch_partial",
    "Ptr.Launch.C86_nothing_executed_partial",
    "Ptr.Launch.C86_failed",
    "Ptr.Launch.C86_outcome_partial",
    "Ptr.Launch.C86_completes",
    "Ptr.Launch.C86_starts",
    "Ptr.Launch.C86_harmless_refuted",
    "Ptr.Launch.C86_cont_refuted"
   ],
   "note": "For all interleavings; the behaviour of the kernel (SpecLaunch.lean) is an assumption taken from ptrace(2), signal(7) and wait(2). Refuted: any signal that reaches the new process between PTRACE_SEIZE and the execution of the program, even one that is ignored by default as SIGWINCH, makes the tracer kill the process and exit(1); with a SIGCONT from elsewhere before PTRACE_SEIZE the program runs any number of instructions untraced, and the tracer may return from the execution of a second program."
  },
  {
   "property": "C87",
   "status": "partial",
   "theorems": [
    "Ptr.Attach.C87_ready_partial",
    "Ptr.Attach.C87_traced",
    "Ptr.Attach.C87_answered",
    "Ptr.Attach.C87_left",
    "Ptr.Attach.C87_status",
    "Ptr.Attach.C87_signals",
    "Ptr.Attach.C87_lost",
    "Ptr.Attach.C87_kept_partial",
    "Ptr.Attach.C87_end_partial",
    "Ptr.Attach.C87_signals_refuted",
    "Ptr.Attach.C87_end_refuted",
    "Ptr.Attach.C87_crash_refuted",
    "Ptr.Attach.C87_table_refuted"
   ],
   "note": "For all interleavings; the behaviour of the kernel (SpecAttach.lean, SpecSession.lean) is an assumption taken from ptrace(2), signal(7) and wait(2); C87_ready_partial joins it to C85. Refuted: release_all_non_tracing_threads continues threads that have stopped and of which the tracer has not been told, which suppresses their signals, hides new threads from the table, and lets exiting threads die so that the main loop gets a status it does not expect and the tracer exits with 1; step_over_atomic and detach_all_threads suppress the signal the thread has stopped for; any signal in an atomic sequence makes the tracer exit with 1; fast_forward uses the null pointer of find_pid when a new thread exits before its creation is reported. Not modelled: forked processes, exec, SIGKILL; the checkpoint is the subject of C97."
  },
  {
   "property": "C88",
   "status": "partial",
   "theorems": [
    "Ptr.C88_file_partial",
    "Ptr.C88_window_partial",
    "Ptr.C88_killed_partial",
    "Ptr.C88_real_partial",
    "Ptr.C88_data_real_partial",
    "Ptr.C88_real_refuted",
    "Ptr.C88_prefixed_refuted",
    "Ptr.C88_abort_refuted"
   ],
   "note": "For all instructions on which the tracer does not abort (Traceable); real addresses for pages that are present, in frames below 2^48 and not in the first 2 MiB (Mapped, see C41), instructions that are reached by a jump into their page. Refuted: an instruction reached from the page before without a jump is reported in the frame of that page; print_insn reads one word, so that the second word of a prefixed instruction is missing and the first is reported as a taken branch; an unknown load or store (lswx, ...) aborts the tracer and the instruction before it is lost too."
  },
  {
   "property": "C89",
   "status": "partial",
   "theorems": [
    "Qtb.C89_rebuilt_partial",
    "Qtb.C89_same_partial",
    "Qtb.C89_refuted",
    "Qtb.C89_interrupt_refuted",
    "Qtb.C89_prefixed_refuted",
    "Qtb.C89_abort_refuted"
   ],
   "note": "For all traces that can be written (Expressible) and are regular (Regular), from the bytes of the first trace file to the records read from the second; C89_rebuilt_partial says exactly what comes back, C89_same_partial when it is the same. The assembler is an assumption (SpecText.lean): an instruction is assembled to the word it was disassembled from, except that the target of a branch, printed as an undefined symbol _dummy_..., leaves an empty field. Refuted: the target of a branch that is not taken is lost; a branch followed by an interrupt gets the address of the interrupt as its target; a prefixed instruction makes qtbuild exit (second word 0, see C43, behind a jump); an unknown load or store aborts it."
  },
  {
   "property": "C90",
   "status": "partial",
   "theorems": [
    "LinkStack.C90_answers_partial",
    "LinkStack.C90_nested_partial",
    "LinkStack.C90_live_partial",
    "LinkStack.C90_exact_partial",
    "LinkStack.C90_live_exact_partial",
    "LinkStack.C90_refused",
    "LinkStack.C90_abort_refuted",
    "LinkStack.C90_interrupt_refuted"
   ],
   "note": "For all expressible traces whose conditional branches are marked (C90_answers_partial) and for everything the live tracer can record (C90_live_partial), without B-form branches that are always taken. C90_exact_partial and C90_live_exact_partial give the answers in full, also for a return that finds the stack empty (an old entry answers). The percentage printed at the end is in C104. Refuted: an always-taken bc, such as bcl 20,31,$+8, fails an assertion in annotate_branch; a return after which an interrupt is taken counts as mispredicted."
  },
  {
   "property": "C91",
   "status": "partial",
   "theorems": [
    "Dis.C91_statistics_partial",
    "Dis.C91_mix_partial",
    "Dis.C91_blocks_partial",
    "Dis.C91_live_partial",
    "Dis.C91_prefixed_refuted"
   ],
   "note": "For all traces that can be written (Expressible) and do not end within an instruction (Complete), and for programs without prefixed instructions traced live (those with: C88_prefixed_refuted); at most 2^30 different addresses for -c. The counters themselves are those of C27, C28 and C29, with what is refuted there. Refuted: disasm gives only the first word to the counters, so that all prefixed instructions are counted as unknown."
  },
  {
   "property": "C92",
   "status": "partial",
   "theorems": [
    "Qt.C92_header_partial",
    "Qt.C92_empty",
    "Qt.C92_walk_refuted"
   ],
   "note": "Proved for every first record that is accepted and does not have entries of a page table (nr_ptes) without a walk (nr_walks 0); refuted for those: the header announces a word that is not there."
  },
  {
   "property": "C93",
   "status": "partial",
   "theorems": [
    "Htm.C93_p10",
    "Htm.C93_p9",
    "Htm.C93_printed",
    "Htm.C93_agree_p10_partial",
    "Htm.C93_agree_p9_partial",
    "Htm.C93_p9_real",
    "Htm.C93_agree_p9_real_partial",
    "Htm.Guest.C93_guest",
    "Htm.Guest.C93_agree_guest_partial",
    "Htm.C93_prefixed_refuted",
    "Htm.C93_second_refuted"
   ],
   "note": "For dumps in the format of C50 (POWER9 with or without real addresses of instructions; with segment information for C93_p9_real and C93_agree_p9_real_partial, which take the format of C98) and, with page-table walk records, that of C73. Agreement with qtdis for dumps without prefixed instructions and without words zero. Refuted: of a prefixed instruction htmdecode counts the second word at the address of the first, qtdis the prefix; without a callback the second pair of data addresses of a POWER10 instruction is left to be read as records, so that an address such as 0x2abcdf00 is counted as an instruction."
  },
  {
   "property": "C94",
   "status": "partial",
   "theorems": [
    "Sym.C94_maps_partial",
    "Sym.C94_names_partial",
    "Sym.C94_anonymous_refuted",
    "Sym.C94_indeterminate_refuted",
    "Sym.C94_space_refuted"
   ],
   "note": "For lines shorter than 2048 characters, with executable mappings that have a name without white space; the table overrun of C66 is an outcome of both sides. fgets and sscanf are modelled as far as this program uses them. Refuted: an executable mapping without a file is looked up under whatever name the uninitialised variable holds, in practice that of an earlier mapping, and if there is no end of a string in it the program reads behind it; a name with a space is cut at the space."
  },
  {
   "property": "C95",
   "status": "partial",
   "theorems": [
    "Dis.C95_own_partial",
    "Dis.C95_next_partial",
    "Dis.C95_walk_refuted",
    "Dis.C95_after_refuted"
   ],
   "note": "For files that do not end within an instruction, with data pages of 4 GiB at most (a larger shift makes the reader lose the upper bits of the page number it printed). The second part for traces that the writer makes. Refuted: the walk printed behind the page of the instruction that is jumped to is that of the instruction that jumps; the record shown for a prefixed instruction is that of its first word, so that the page of an instruction jumped to from its second word is never printed."
  },
  {
   "property": "C96",
   "status": "partial",
   "theorems": [
    "Cmd.C96_ptracer",
    "Cmd.C96_ptracer_output",
    "Cmd.C96_qtdis_partial",
    "Cmd.C96_qtdis_any",
    "Cmd.C96_verbose_refuted",
    "Cmd.C96_htmdecode_partial",
    "Cmd.C96_htmdecode_any",
    "Cmd.C96_name_refuted",
    "Cmd.C96_htmdecode_input",
    "Cmd.C96_bbv",
    "Cmd.C96_malformed"
   ],
   "note": "getopt, strtol, strtoul and atoi of the C library are an assumption (Cmd/Model.lean). C96_qtdis_partial is for fewer than 2^32 options, C96_htmdecode_partial for file names that fit PATH_MAX; C96_qtdis_any and C96_htmdecode_any say what is done for all others, which is not what the property says: 2^32 options -v count as none (C96_verbose_refuted), and a dump whose name has 4093 bytes or more is refused even with -s, -i or -b, which write nothing (C96_name_refuted). C96_malformed: numbers are not checked, -n 10k is taken for -n 10. qtdis is the one built with BFD."
  },
  {
   "property": "C97",
   "status": "partial",
   "theorems": [
    "Ptr.Tasks.C97_partial",
    "Ptr.Tasks.C97_attached",
    "Ptr.Tasks.C97_closed",
    "Ptr.Tasks.C97_other_refuted",
    "Ptr.Tasks.C97_status_refuted"
   ],
   "note": "For ids of at most six digits. Refuted for all ids of seven digits: the text of the id is cut after six, and the process that has that id is dumped, with root privileges; the status is 0 if sudo cannot be started. C97_closed: a trace file that was asked for as well is left unfinished unless the checkpoint cannot be started."
  },
  {
   "property": "C98",
   "status": "partial",
   "theorems": [
    "Htm.C98_decoded",
    "Htm.C98_sound",
    "Htm.C98_contents",
    "Htm.C98_file_partial",
    "Htm.C98_next_refuted",
    "Htm.C98_last_refuted",
    "Htm.C98_cross_refuted",
    "Htm.C98_size_refuted",
    "Htm.C98_segment_refuted"
   ],
   "note": "C98_decoded: what the callback gets, for every dump of the format, with pages that move at any time: the place that the dump had last counts; C98_sound: if pages do not move, what is known of translated instructions is what the page table says; C98_file_partial: what a reader finds in the converted trace. Refuted: a page that comes with an instruction reached from the one before is not remembered (C98_next_refuted), going back to the last page of the address space ends the program (C98_last_refuted), and a page entered from the instruction before is lost in the trace (C98_cross_refuted). If a page becomes part of a larger one the program ends with a failed assertion (C98_size_refuted). The dumps may have segment information, but then the real address of that instruction is not reported although the dump has it (C98_segment_refuted)."
  },
  {
   "property": "C99",
   "status": "partial",
   "theorems": [
    "Htm.C99_records",
    "Htm.C99_consistent_partial",
    "Htm.Guest.C99_incomplete_partial",
    "Htm.C99_power9_partial",
    "Htm.C99_power10_partial",
    "Htm.Guest.C99_guest_partial",
    "Htm.Guest.C99_missing_refuted",
    "Htm.C99_data_pages_refuted",
    "Htm.C99_interrupt_refuted",
    "Htm.C99_branches_refuted",
    "Htm.C99_ira_refuted",
    "Htm.C99_rfid_refuted",
    "Htm.C99_cycles_refuted"
   ],
   "note": "C99_records: the first eight lines, for every dump; C99_consistent_partial: for every dump that is decoded, of any format, the numbers of all 46 lines do not contradict each other (missing: that they are those of the dump); C99_incomplete_partial: incomplete walks, for two dumps only; C99_power9_partial, C99_power10_partial and, with the page-table walks of C73, C99_guest_partial: all 46 lines for every dump of the format. Refuted: data pages of POWER9 dumps are never counted; an interrupt is not counted if the instruction before was itself jumped to; the line for jumps after instructions that are no branches counts those after branches; instructions counted as without a real address may have one in the trace; returns from interrupts are never counted; the cycles wrap at 2^32; instructions before the first walk are counted neither as with nor as without translations. Interrupts are not counted in POWER10 dumps at all (C99_power10_partial). The lines about the cache at the end are those of C101. C99_power9_partial covers dumps with and without segment information."
  }
 ]
}
