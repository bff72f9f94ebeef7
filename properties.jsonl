{"id": "C01", "title": "Writing then reading a trace returns the same instruction stream", "statement": "If a sequence of trace records is written with the writer API (open, one write per record, close) and the resulting file is opened with the reader API, the reader returns exactly as many records as were written, in the same order, each with the same instruction word and instruction address, and then reports end of trace.", "quantifier": "every finite sequence of records the format can express (no zero instruction word outside a prefixed pair, page shifts below 64, page-walk information that the flag words can describe)", "why_tests_cant": "The writer lags one record behind its caller and encodes each record relative to its successor; a test covers a handful of sequences while a single wrong flag bit in any combination desynchronises every later record.", "anchors": ["qtlib/qtwriter.c:qtwriter_write_record", "qtlib/qtwriter.c:qtwriter_close", "qtlib/qtreader.c:qtreader_next_record", "qtlib/qtreader.c:qtreader_initialize"]}
{"id": "C02", "title": "Data addresses survive a write/read round trip", "statement": "In the round trip of C01 every record that was written with a data effective address is read back with that address, and every record written without one is read back without one.", "quantifier": "every expressible finite record sequence", "why_tests_cant": "Optional fields are positional in the byte stream, so the property depends on all combinations of the other optional fields in all records before it.", "anchors": ["qtlib/qtwriter.c:qtwriter_write_record", "qtlib/qtreader.c:qtreader_next_record"]}
{"id": "C03", "title": "Real addresses and page sizes survive a write/read round trip", "statement": "In the round trip of C01 the instruction and data real addresses, page shifts and guest page shifts read back equal those written.", "quantifier": "every expressible record sequence; the code only achieves it when translations change at taken branches, real page numbers fit 32 bits and the guest-instruction and data page shifts are not both present (the two bytes are written in one order and read in the other)", "why_tests_cant": "The failure needs a specific combination of optional fields (guest instruction page size and data page size in the same record) which the repository's tests never combine with an address change.", "anchors": ["qtlib/qtwriter.c:qtwriter_write_record", "qtlib/qtreader.c:qtreader_next_record", "qtlib/qtwriter.c:qtwriter_write_header"]}
{"id": "C04", "title": "Branch information survives a write/read round trip", "statement": "In the round trip of C01 each record reads back with branch_taken true exactly when the record is a marked branch, conditional branch or discontinuity whose successor is not at address+4, and the reported next address equals the address of the next record written.", "quantifier": "every expressible finite record sequence", "why_tests_cant": "Depends on the successor of each record and on the zero record the close call invents; tests check fixed sequences.", "anchors": ["qtlib/qtwriter.c:qtwriter_write_record", "qtlib/qtwriter.c:qtwriter_close", "qtlib/qtreader.c:qtreader_next_record"]}
{"id": "C05", "title": "Radix page walks survive a write/read round trip", "statement": "In the round trip of C01 the page-table entry addresses and real addresses of data and instruction page walks read back equal those written, together with the number of walks and the number of entries per walk.", "quantifier": "every record sequence whose combination of single/nested instruction and data walks the mode bits can describe; the code loses or corrupts the other combinations", "why_tests_cant": "Mode bits of the instruction walk are OR-ed into the data field, so the outcome depends on the pair of walk kinds in neighbouring records.", "anchors": ["qtlib/qtwriter.c:qtwriter_write_record", "qtlib/qtwriter.c:qtwriter_write_header", "qtlib/qtreader.c:parse_radix", "qtlib/qtreader.c:parse_radix_on_radix"]}
{"id": "C06", "title": "The writer never stores outside its mapped output file", "statement": "For every history of write calls, with file growth succeeding or failing at any call, every byte stored by the writer lies inside the currently mapped file, and the file is finally truncated to exactly the bytes stored.", "quantifier": "all histories of write calls, all record contents, all patterns of fallocate/mremap failure; violated if a real address comes with a page shift of 64 or more, where the effect is undefined", "why_tests_cant": "The bound must hold at every buffer-growth boundary for every mix of record sizes; tests write a few records into a fresh 128 KiB mapping.", "anchors": ["qtlib/qtwriter.c:qtwriter_write_record", "qtlib/qtwriter.c:qtwriter_write_header", "qtlib/qtwriter.c:put64"]}
{"id": "C07", "title": "The reader never reads outside the trace bytes it was given", "statement": "For every byte string and any number of read calls, the reader only reads bytes inside the file; malformed or truncated input makes it report failure.", "quantifier": "all byte strings, all numbers of calls; the code violates it at the end of every trace, where the instruction word is fetched before the bounds check", "why_tests_cant": "Needs all malformed inputs; a fuzzer samples them and an over-read of a page-aligned mapping only faults for some file sizes.", "anchors": ["qtlib/qtreader.c:qtreader_next_record", "qtlib/qtreader.c:qtreader_parse_header", "qtlib/qtreader.c:GET8"]}
{"id": "C08", "title": "The reader never stores outside its fixed-size record arrays", "statement": "For every byte string, the register and page-walk arrays of the returned record are only written inside their bounds.", "quantifier": "all byte strings; the code violates it because counts of up to 255 from the file index arrays of 3, 4, 5 and 32 elements", "why_tests_cant": "Requires adversarial counts in otherwise valid traces.", "anchors": ["qtlib/qtreader.c:do_parse_regs", "qtlib/qtreader.c:parse_radix", "qtlib/qtreader.c:parse_radix_on_radix", "qtlib/qtrace_record.h:struct qtrace_radix"]}
{"id": "C09", "title": "Reading always terminates with a bounded number of records", "statement": "Every successful read call consumes at least six bytes of the trace, so a loop that reads until failure ends after at most size/6 records.", "quantifier": "all byte strings", "why_tests_cant": "Non-termination on some crafted input cannot be excluded by running samples.", "anchors": ["qtlib/qtreader.c:qtreader_next_record", "qtlib/qtreader.c:qtreader_parse_header"]}
{"id": "C10", "title": "A trace whose writer died before closing is readable up to the last stored record", "statement": "If the writing process stops after any write call without closing, the file (complete records followed by zero bytes) reads back as exactly the records stored so far and then reports end of trace.", "quantifier": "every expressible record sequence, every crash point between calls, every amount of zero padding; the code returns one phantom zero record when the last stored instruction is a prefix", "why_tests_cant": "Every crash point of every history must be considered.", "anchors": ["qtlib/qtwriter.c:qtwriter_write_record", "qtlib/qtreader.c:qtreader_next_record"]}
{"id": "C11", "title": "Truncating a trace only loses records at the end", "statement": "The records the reader returns from a file cut at any byte are a prefix of the records it returns from the whole file.", "quantifier": "all byte strings and all cut positions", "why_tests_cant": "Quantifies over every byte string and every cut.", "anchors": ["qtlib/qtreader.c:qtreader_next_record", "qtlib/qtreader.c:parse_radix_on_radix"]}
{"id": "C12", "title": "Branch annotation never aborts and classifies calls and returns by the instruction", "statement": "Reading any record leaves a branch type that is determined by the instruction word and termination code as the Power ISA prescribes, without hitting an assertion.", "quantifier": "all instruction words, termination codes and taken/not-taken states; the code aborts for unconditional bc instructions and labels bclr as direct", "why_tests_cant": "2^32 instruction words times termination codes.", "anchors": ["qtlib/qtreader.c:annotate_branch", "qtlib/branch.h:is_unconditional_branch"]}
{"id": "C13", "title": "Every instruction word is exactly one of conditional branch, unconditional branch or non-branch", "statement": "The classification predicates agree with the Power ISA encodings of b, bc, bclr, bcctr, bctar, sc, scv, rfid, hrfid, rfebb, rfscv: a word is a branch iff it is one of these, and never both conditional and unconditional.", "quantifier": "all 2^32 instruction words", "why_tests_cant": "Exhaustive coverage of the space with an independent oracle is needed.", "anchors": ["qtlib/branch.h:is_conditional_branch", "qtlib/branch.h:is_unconditional_branch", "qtlib/branch.h:is_branch"]}
{"id": "C14", "title": "Retargeting a branch makes it branch to the requested address", "statement": "If retargeting a branch instruction at an address succeeds, decoding the new instruction at that address yields the requested target, and opcode, link bit and condition fields are unchanged; it succeeds exactly when the displacement is word-aligned and fits the field.", "quantifier": "all instruction words, addresses and targets; for absolute branches the decode step of the code is wrong (it tests the absolute bit of the address, not of the instruction)", "why_tests_cant": "2^32 x 2^64 x 2^64 cases, with sign-extension boundaries.", "anchors": ["qtlib/branch.h:create_branch", "qtlib/branch.h:create_cond_branch", "qtlib/branch.h:branch_target", "qtlib/branch.h:set_branch_target"]}
{"id": "C15", "title": "The simulated link stack predicts every properly nested return within its depth", "statement": "For any trace of calls and returns in which returns match calls and the nesting depth never exceeds the configured depth, no return is counted as mispredicted, and the prediction count equals the number of returns.", "quantifier": "all properly nested call/return traces of any length and all depths of at least one", "why_tests_cant": "Unbounded traces; the circular buffer wraps in data-dependent ways.", "anchors": ["branch/link_stack.c:push", "branch/link_stack.c:pop"]}
{"id": "C16", "title": "The link stack behaves as a bounded LIFO that forgets its oldest entries", "statement": "After any history of calls and returns, the next returns are predicted with the most recent unreturned call addresses in LIFO order, up to the configured depth; all accesses stay inside the allocated entries.", "quantifier": "all histories, all depths of at least one (depth zero makes the code write outside its zero-sized allocation)", "why_tests_cant": "Unbounded histories.", "anchors": ["branch/link_stack.c:init_link_stack", "branch/link_stack.c:push", "branch/link_stack.c:pop"]}
{"id": "C17", "title": "TLB translations preserve the page offset and reflect the latest mapping", "statement": "After inserting a translation, looking up any address of the same page returns the inserted real page with the offset of the looked-up address, and a miss is reported exactly when no inserted page covers the address.", "quantifier": "all histories of inserts and lookups", "why_tests_cant": "Histories of inserts with mixed page sizes.", "anchors": ["htm/tlb.c:tlb_ra_get", "htm/tlb.c:tlb_ra_set"]}
{"id": "C18", "title": "The TLB never holds two entries covering the same address", "statement": "After any history of insertions that does not abort, no two valid entries cover a common effective address.", "quantifier": "all histories; violated when a large page is inserted over a later smaller page", "why_tests_cant": "Requires specific overlap geometry between pages of different sizes.", "anchors": ["htm/tlb.c:tlb_validate", "htm/tlb.c:tlb_ra_set"]}
{"id": "C19", "title": "The ERAT returns the translation inserted last for that page pair", "statement": "A lookup returns the record most recently inserted for the same effective and real page and page size, with both page sizes as inserted.", "quantifier": "all histories of inserts and lookups; violated for the host page size of a re-inserted entry", "why_tests_cant": "Histories.", "anchors": ["htm/erat.c:erat_insert", "htm/erat.c:erat_get"]}
{"id": "C20", "title": "The page-walk caches only answer for the context they were filled for", "statement": "A translation or page-table walk step cached for one (logical partition, process, hypervisor bit, page) is returned for every address of the same page and context with the right offset, and for no other context.", "quantifier": "all histories of cache insertions and lookups", "why_tests_cant": "Histories over unbounded contexts.", "anchors": ["htm/pwc.c:pwc_tlb_insert", "htm/pwc.c:pwc_tlb_get", "htm/pwc.c:pwc_insert", "htm/pwc.c:pwc_get"]}
{"id": "C21", "title": "Combining partial walks never overflows the walk array and keeps the walk contiguous", "statement": "Merging a stored partial walk with a newer overlapping one yields old steps up to the first common step followed by the new steps, within the fixed capacity.", "quantifier": "all pairs of partial walks; violated when the non-overlapping part of the old walk plus the new walk exceed 38 steps", "why_tests_cant": "Needs long walks which tests do not produce.", "anchors": ["htm/pwc.c:xlate_merge"]}
{"id": "C22", "title": "A decoded translation always fits the trace format", "statement": "Whenever decoding an address translation succeeds, the number of walks and entries per walk are within what the trace writer accepts, so the writer's assertions cannot fire on it; whenever it fails the record is cleared.", "quantifier": "all sequences of hardware page-walk entries and all cache states", "why_tests_cant": "Arbitrary hardware input and cache contents.", "anchors": ["htm/xlate.c:xlate_decode", "htm/xlate.c:decode_nested_radix", "qtlib/qtwriter.c:qtwriter_write_record"]}
{"id": "C23", "title": "HTM field extraction follows the big-endian bit numbering of the hardware", "statement": "Extracting bits a..b of a trace word yields the value whose most significant bit is hardware bit a and least significant is bit b.", "quantifier": "all 64-bit words and all ranges", "why_tests_cant": "2^64 words times 2016 ranges.", "anchors": ["htm/htm.c:htm_bits", "htm/htm.c:htm_bits_32", "htm/htm.c:htm_bit"]}
{"id": "C24", "title": "Recoded HTM branches point at the traced target", "statement": "When the trace hardware supplies the low target bits and a carry mode, the reconstructed I-form or B-form instruction, decoded at its address, has the traced target.", "quantifier": "all opcodes, addresses and carry modes for which the displacement is encodable; violated for the P10 B-form with carry mode 2 and BI bit set", "why_tests_cant": "All displacements and modes.", "anchors": ["htm/htm.c:insn_recode", "htm/htm.c:insn_recode_p10"]}
{"id": "C25", "title": "HTM reading accounts every record once", "statement": "At any point of decoding, the running checksum equals the wrapped sum of the words of all records currently consumed, regardless of how often the decoder stepped back.", "quantifier": "all input files and all interleavings of fetch and step-back", "why_tests_cant": "Arbitrary interleavings.", "anchors": ["htm/htm.c:htm_read", "htm/htm.c:htm_rewind", "htm/htm.c:htm_decode_fetch"]}
{"id": "C26", "title": "HTM decoding ends and invents no records", "statement": "For every finite file decoding terminates and every record handed to the decoder is a record of the file.", "quantifier": "all finite input files; violated at end of file, where one extra record with indeterminate contents is delivered", "why_tests_cant": "All files.", "anchors": ["htm/htm.c:htm_read", "htm/htm.c:htm_decode"]}
{"id": "C27", "title": "Statistics counters partition the instruction stream", "statement": "After any stream of instructions, total = system + opal + user, user = library + binary, and syscall, hcall, opal-call and exception totals equal the sums of their per-kind counters.", "quantifier": "all instruction streams", "why_tests_cant": "All streams.", "anchors": ["qtlib/ppcstats.c:ppcstats_log_inst", "qtlib/ppcstats.c:log_inst_stats"]}
{"id": "C28", "title": "The instruction-mix cache never changes the classification", "statement": "The opcode counter incremented for an instruction is the one a fresh search of the opcode table would give, whatever was classified before; every instruction is counted exactly once.", "quantifier": "all instruction streams and all opcode tables", "why_tests_cant": "Histories of cache contents.", "anchors": ["qtlib/ppcstats.c:imix_log_inst", "qtlib/ppcstats.c:ppcstats_init"]}
{"id": "C29", "title": "Basic-block hit counts equal the number of executions of each address", "statement": "After any stream of logged addresses, each distinct address has one entry whose count is the number of times it was logged and the counts sum to the number of instructions.", "quantifier": "all address streams", "why_tests_cant": "All streams; array growth points.", "anchors": ["qtlib/bb.c:bb_ea_log"]}
{"id": "C30", "title": "Coalescing basic blocks merges only adjacent addresses with close counts", "statement": "Coalescing merges only runs of consecutive instruction addresses whose execution counts differ by less than four, each address ends up in exactly one block and block sizes add up to the number of distinct addresses.", "quantifier": "all sets of entries; violated because the difference is truncated to 32 bits before taking the absolute value", "why_tests_cant": "Requires counts beyond 2^32.", "anchors": ["qtlib/bb.c:bb_coalesce"]}
{"id": "C31", "title": "Matrix resize preserves the common block and zeroes the rest", "statement": "After resizing a matrix, every entry within both the old and new dimensions is unchanged and every other entry is zero.", "quantifier": "all matrices and all dimension pairs whose storage is allocatable", "why_tests_cant": "All shapes; in-place row moves overlap.", "anchors": ["qtrace-bbv/matrix.c:matrix_resize"]}
{"id": "C32", "title": "Matrix multiplication is the matrix product modulo 2^64", "statement": "The product returned equals the mathematical product of the entries modulo 2^64 and mismatched shapes are rejected.", "quantifier": "all matrices", "why_tests_cant": "All sizes and entries.", "anchors": ["qtrace-bbv/matrix.c:matrix_multiply"]}
{"id": "C33", "title": "k-medoids clustering strictly improves until it stops", "statement": "Each clustering iteration that reports progress strictly lowers the total distance, the recorded cost always equals the cost of the current medoids, and iterating until no progress terminates.", "quantifier": "all point sets and all medoid sets", "why_tests_cant": "Termination for all data.", "anchors": ["qtrace-bbv/pam.c:pam_iteration", "qtrace-bbv/pam.c:pam"]}
{"id": "C34", "title": "k-medoids ends in a local optimum with distinct medoids taken from the input", "statement": "When clustering stops, no replacement of one medoid by a non-medoid point lowers the cost; the medoids are k distinct input points.", "quantifier": "all point sets", "why_tests_cant": "All data.", "anchors": ["qtrace-bbv/pam.c:pam_initialise", "qtrace-bbv/pam.c:pam_iteration", "qtrace-bbv/pam.c:is_medoid"]}
{"id": "C35", "title": "Basic-block vectors conserve instruction counts", "statement": "Every traced instruction up to the last completed block is counted in exactly one basic-block counter of exactly one interval.", "quantifier": "all traces, all interval lengths", "why_tests_cant": "All traces and interval boundaries.", "anchors": ["qtrace-bbv/qtrace-bbv.c:add_basic_block", "qtrace-bbv/qtrace-bbv.c:reset_basic_block_vector", "qtrace-bbv/qtrace-bbv.c:parse_qtrace"]}
{"id": "C36", "title": "Basic-block vectors are stored in their own matrix row", "statement": "The counters of an interval are stored in that interval's row and no other entry changes.", "quantifier": "all traces; violated when one interval introduces so many new blocks that doubling the columns once is not enough", "why_tests_cant": "Needs more than twice as many new blocks as columns in one interval.", "anchors": ["qtrace-bbv/qtrace-bbv.c:reset_basic_block_vector"]}
{"id": "C37", "title": "Load/store effective addresses and sizes follow the Power ISA", "statement": "For every load/store instruction handled, the reported address is (RA|0) plus the sign-extended displacement or RB and the size is the access size of the instruction.", "quantifier": "all instruction words and register contents; string and atomic-memory forms abort", "why_tests_cant": "2^32 words times register contents.", "anchors": ["ptracer/ppc_storage.c:is_storage_insn"]}
{"id": "C38", "title": "Stepping over an atomic sequence leaves the program text unchanged", "statement": "After stepping over a larx/stcx sequence every word of the program text is what it was before.", "quantifier": "all program texts and all addresses", "why_tests_cant": "All code sequences including branches whose targets coincide with each other or with the end.", "anchors": ["ptracer/single_step.c:step_over_atomic", "ptracer/single_step.c:insert_breakpoints", "ptracer/single_step.c:remove_breakpoints"]}
{"id": "C39", "title": "Control cannot leave an atomic sequence without hitting a breakpoint", "statement": "Executing from the larx, the thread reaches a breakpoint before executing any instruction outside the sequence.", "quantifier": "all program texts; holds for conditional branches only, other branch instructions inside the sequence are not considered", "why_tests_cant": "All code sequences.", "anchors": ["ptracer/single_step.c:step_over_atomic"]}
{"id": "C40", "title": "The traced-process table behaves as a set of process ids", "statement": "After any history of adds and removes a lookup finds a process exactly if it was added and not removed since, and the table never exceeds its capacity.", "quantifier": "all histories of adds, removes and lookups", "why_tests_cant": "Histories.", "anchors": ["ptracer/pids.c:add_pid", "ptracer/pids.c:find_pid", "ptracer/pids.c:remove_pid"]}
{"id": "C41", "title": "Cached physical addresses are never staler than the refresh interval", "statement": "A cached translation returned for an address was read from the kernel page map at most the configured number of accesses earlier.", "quantifier": "all access histories and all changes of the page map; violated for page zero, where the zero-initialised cache matches", "why_tests_cant": "Histories and mapping changes.", "anchors": ["ptracer/pagemap.c:ea_to_pa"]}
{"id": "C42", "title": "Symbol lookup returns the closest preceding symbol", "statement": "Looking up an address returns the symbol with the greatest start address not above it, and nothing when the address is outside the symbol range.", "quantifier": "all sorted symbol tables and all addresses", "why_tests_cant": "All tables.", "anchors": ["qtdis/qtdis.c:symfind"]}
{"id": "C43", "title": "Prefixed instructions are disassembled from both of their own words", "statement": "The disassembler prints each prefixed instruction from its prefix and its own suffix word.", "quantifier": "all traces; violated: the suffix printed is the one of the previous prefixed instruction", "why_tests_cant": "All traces.", "anchors": ["qtdis/qtdis.c:read_qt", "qtdis/qtdis.c:print_qt_record"]}
{"id": "C44", "title": "The hash table finds exactly the elements added and not deleted", "statement": "After any history of additions and deletions every call has ended without a memory error; each deletion has told whether the pointer was there; walking the matches of a hash visits every present element with that hash as often as it is present and nothing that is not present; looking up a key finds an element exactly if one is present; iterating visits exactly the present elements.", "quantifier": "all histories, all hash functions, all sets of pointers", "why_tests_cant": "Histories with collisions, growth and tombstones.", "anchors": ["qtrace-bbv/ccan/htable/htable.c:htable_add", "qtrace-bbv/ccan/htable/htable.c:htable_del", "qtrace-bbv/ccan/htable/htable.c:htable_firstval"]}
{"id": "C45", "title": "Traces built from maps follow the recorded control flow", "statement": "A trace built from instruction and load/store maps contains the mapped instructions in order with consecutive addresses between taken branches and with branches re-encoded to reach the next recorded address.", "quantifier": "all instruction and load/store maps", "why_tests_cant": "All maps.", "anchors": ["qtbuild/qtbuild.c:build"]}
{"id": "C46", "title": "Skip and count options select exactly the requested window", "statement": "With skip s and limit n the live tracer emits exactly instructions s+1 to s+n of the executed stream.", "quantifier": "all streams and all s, n", "why_tests_cant": "All streams and window sizes.", "anchors": ["ptracer/main.c:print_insn"]}
{"id": "C47", "title": "Hex and base32 text coding are inverse to decoding", "statement": "Decoding the text produced by encoding a byte string yields that byte string, and malformed text is rejected.", "quantifier": "all byte strings and all texts", "why_tests_cant": "All strings.", "anchors": ["qtrace-bbv/ccan/str/hex/hex.c:hex_decode", "qtrace-bbv/ccan/str/base32/base32.c:base32_encode"]}
{"id": "C48", "title": "Linked-list operations keep a well-formed circular list with the expected elements", "statement": "After any history of add, add_tail and del operations on a list, forward and backward traversal visit the expected sequence of elements.", "quantifier": "all histories", "why_tests_cant": "Pointer manipulations over all histories.", "anchors": ["qtrace-bbv/ccan/list/list.h:list_add_", "qtrace-bbv/ccan/list/list.h:list_del_"]}
{"id": "C49", "title": "Register dumps are parsed with exactly the bytes they occupy", "statement": "Parsing the register section of a record consumes exactly the bytes announced by its counts, so later fields are read from their own position.", "quantifier": "all counts and bytes", "why_tests_cant": "256^7 count combinations.", "anchors": ["qtlib/qtreader.c:do_parse_regs"]}
{"id": "C50", "title": "HTM instruction addresses are reconstructed from cache line and offset", "statement": "The effective address of a decoded instruction is the last cache-line address with the offset bits of the instruction record.", "quantifier": "all HTM records", "why_tests_cant": "All words.", "anchors": ["htm/htm.c:htm_decode_insn_p10", "htm/htm.c:htm_decode_insn"]}
{"id": "C51", "title": "A page-table walk in an HTM trace cannot stop the decoder", "statement": "For every sequence of page-table walks, modes and addresses found in an HTM trace, decoding a translation returns success or failure; it neither ends the program nor writes outside its arrays.", "quantifier": "all histories of walks, modes and addresses", "why_tests_cant": "The sequences of walks are unbounded, and the failing ones are rare on real hardware.", "anchors": ["htm/xlate.c:xlate_decode", "htm/xlate.c:xlate_fixup", "htm/pwc.c:xlate_merge"]}
{"id": "C52", "title": "A translation that was decoded is found again for its page", "statement": "After a translation was decoded with success, looking up any address of the same page gives the same page tables and page sizes, with the offset of the address looked up; a decode that failed leaves nothing to be found.", "quantifier": "all histories of calls, all addresses of the page", "why_tests_cant": "Depends on all earlier translations of the same and of larger pages.", "anchors": ["htm/xlate.c:xlate_lookup", "htm/xlate.c:xlate_decode", "htm/erat.c:erat_insert"]}
{"id": "C53", "title": "The guard against stepping back forever never fires", "statement": "Whatever the file contains, the decoder never asks to step back a second time over the same record, so its guard against that (an assertion) never ends the program.", "quantifier": "all input files", "why_tests_cant": "Needs every interleaving of the decoding functions, over all files.", "anchors": ["htm/htm.c:htm_rewind", "htm/htm.c:htm_decode_insn", "htm/htm.c:htm_decode_insn_p10"]}
{"id": "C54", "title": "Stamps do not change the decoded instructions", "statement": "Inserting time stamps and other known stamps anywhere in an HTM trace, also between the records of one instruction, changes neither the instructions handed to the callback nor the statistics about them.", "quantifier": "all traces, all sets of places and contents of the stamps", "why_tests_cant": "Unboundedly many insertions at every place.", "anchors": ["htm/htm.c:htm_decode_fetch", "htm/htm.c:htm_decode_stamp", "htm/htm.c:htm_decode_one"]}
{"id": "C55", "title": "Printed medoids and weights describe the clustering", "statement": "Every interval is counted in the weight of exactly one printed interval, the weights add up to the number of intervals, and every printed interval has the basic-block vector of its medoid.", "quantifier": "all point sets and all sets of medoids", "why_tests_cant": "All data; the position printed is taken from the last point seen, which has to exist.", "anchors": ["qtrace-bbv/pam.c:print_medoids"]}
{"id": "C56", "title": "Context switches counted", "statement": "The number of context switches in the statistics is the number of instructions in the kernel that read the VRSAVE register, into whichever general register.", "quantifier": "all traces, all target registers", "why_tests_cant": "Unbounded traces; every encoding of the instruction has to be covered by the mask.", "anchors": ["qtlib/ppcstats.c:ppcstats_log_inst_stats"]}
{"id": "C57", "title": "Every instruction of the opcode table can be counted", "statement": "An instruction word that matches an entry of the opcode table is counted under the first entry that it matches and never as unknown.", "quantifier": "all instruction words", "why_tests_cant": "All 2^32 words against a table of 3408 entries.", "anchors": ["qtlib/ppcstats.c:ppcstats_init", "qtlib/ppcstats.c:ppcstats_log_inst_imix", "qtlib/ppc-opc.c:powerpc_opcodes_qt"]}
{"id": "C58", "title": "Printed tables of calls and instructions are complete and ordered", "statement": "Every system call, hypervisor call, firmware call, exception and opcode whose counter is not zero is printed exactly once with its counter, the largest first.", "quantifier": "all values of the counters", "why_tests_cant": "Violated only by counters that differ by 2^31 or more.", "anchors": ["qtlib/ppcstats.c:ppcstats_print_stats", "qtlib/ppcstats.c:ppcstats_print_imix", "qtlib/ppcstats.c:call_compare", "qtlib/ppcstats.c:insn_compare"]}
{"id": "C59", "title": "Idle instructions are system instructions", "statement": "The number of idle instructions never exceeds the number of system instructions, of which it is printed as a percentage.", "quantifier": "all traces", "why_tests_cant": "All interleavings of the two idle markers with other code.", "anchors": ["qtlib/ppcstats.c:ppcstats_log_inst_stats"]}
{"id": "C60", "title": "Shares of the printed blocks add up", "statement": "The number of instructions a printed block accounts for (its size times its counter) is the number of instructions executed in it, so that the printed shares add up to all instructions.", "quantifier": "all traces", "why_tests_cant": "Depends on how often each address of every block was executed.", "anchors": ["qtlib/bb.c:bb_instruction_num", "qtlib/bb.c:bb_coalesce", "qtlib/bb.c:bb_print"]}
{"id": "C61", "title": "Instructions recorded for an atomic sequence are those executed", "statement": "When the live tracer runs a thread through a load-reserve/store-conditional sequence, the instructions it records for it are the ones the thread executed, in order.", "quantifier": "all program texts and all paths through the sequence", "why_tests_cant": "Every layout of branches inside the sequence and every outcome of them.", "anchors": ["ptracer/single_step.c:step_over_atomic", "ptracer/main.c:print_insn"]}
{"id": "C62", "title": "Recorded data addresses are the addresses accessed", "statement": "The data address the live tracer records for a load or store is the address the instruction accessed when it was executed.", "quantifier": "all load and store instructions, all register contents, all atomic sequences", "why_tests_cant": "Depends on register values at two moments, for every instruction and every sequence.", "anchors": ["ptracer/main.c:print_insn", "ptracer/single_step.c:step_over_atomic", "ptracer/ppc_storage.c:is_storage_insn"]}
{"id": "C63", "title": "The listing shows each instruction at its own address", "statement": "In the disassembly of a trace every line carries the address of the instruction on it.", "quantifier": "all traces; violated behind a header record in the middle of a trace", "why_tests_cant": "All traces.", "anchors": ["qtdis/qtdis.c:read_qt", "qtlib/qtreader.c:qtreader_next_record"]}
{"id": "C64", "title": "The access dump shows the accesses of each instruction", "statement": "The dump of fetch, load and store addresses shows for each instruction the effective and real address it was fetched from, and those of its data access.", "quantifier": "all traces; violated: the real address of a fetch is that of the following instruction, frame numbers are taken for those of 4 KiB pages", "why_tests_cant": "All traces and page sizes.", "anchors": ["qtdis/qtdis.c:print_qt_record"]}
{"id": "C65", "title": "The listing has exactly the instructions of the trace", "statement": "Disassembling a trace gives one line for each instruction in it, in order, and no others.", "quantifier": "all byte strings; violated for traces cut off between the words of a prefixed instruction", "why_tests_cant": "All traces and all cut points.", "anchors": ["qtdis/qtdis.c:read_qt"]}
{"id": "C66", "title": "Names printed for traced addresses are those of the code mapped there", "statement": "The name and distance printed for an address are those of the closest preceding symbol of the file mapped at that address.", "quantifier": "all memory maps and symbol tables, all addresses; violated: the end of a mapping is ignored, the last function of a file is never named, more than 256 mappings overrun a table", "why_tests_cant": "All memory maps.", "anchors": ["ptracer/ascii.c:symfind", "ptracer/ascii.c:initialise_mem_map", "ptracer/ascii.c:__print_address"]}
{"id": "C67", "title": "The store of interrupted page walks hands out the oldest fitting fragment and touches no freed memory", "statement": "For any series of insertions and lookups of interrupted page walks, each lookup returns the oldest stored fragment that fits, a fragment handed out is gone, the others stay in their order, and no memory is used after it was freed.", "quantifier": "all series of insertions and lookups, all addresses returned by the allocator", "why_tests_cant": "All histories and heap layouts; use after free shows only by chance.", "anchors": ["htm/pwc.c:pwc_partial_insert", "htm/pwc.c:pwc_partial_lookup", "htm/pwc.c:pwc_address_lookup", "qtrace-bbv/ccan/list/list.h:list_del_"]}
{"id": "C68", "title": "Converting an HTM dump never fails inside the trace writer", "statement": "Whatever bytes the dump consists of, the sequence of records the decoder hands to the trace writer never makes an assertion of the writer fail and never makes it shift by 64 or more; the conversion ends with a closed trace or because the decoder stopped.", "quantifier": "all dumps, all outcomes of reading them, all contents of the uninitialised memory", "why_tests_cant": "All dumps, well-formed or not, with every state of the translation caches.", "anchors": ["htm/htmdecoder.c:print_record", "htm/htm.c:htm_decode", "qtlib/qtwriter.c:qtwriter_write_record"]}
{"id": "C69", "title": "The trace converted from an HTM dump contains the instructions of the dump", "statement": "Reading back the trace that was converted from a dump gives the instructions of the dump, in order and no others: their addresses, the addresses of their data, their instruction words where the dump has them, and where control went from each.", "quantifier": "all lists of instructions, all data addresses, all stamps between the records, all bytes in memory behind the trace", "why_tests_cant": "Unbounded traces through decoder, writer and reader together.", "anchors": ["htm/htmdecoder.c:main", "htm/htm.c:htm_decode_insn", "qtlib/qtwriter.c:qtwriter_write_record", "qtlib/qtreader.c:qtreader_next_record"]}
{"id": "C70", "title": "Page walks are completed from the walks before", "statement": "The processor does not write the steps of a page-table walk that it had cached. Every nested walk of a guest process is decoded to all entries of the guest's and the host's tables that translate the address, if each step missing from it is one that an address decoded before used too.", "quantifier": "all page tables of all partitions and processes with 4 KiB, 64 KiB, 2 MiB and 1 GiB pages, all histories of translations and lookups, all choices of the steps left out; violated if guest real mode walks of the process are interleaved, or if a cut walk goes to a 64 KiB page of the host", "why_tests_cant": "All page tables, all histories of the caches.", "anchors": ["htm/xlate.c:xlate_decode", "htm/xlate.c:xlate_decode_process_pte", "htm/xlate.c:xlate_decode_partition_pte", "htm/pwc.c:pwc_insert", "htm/pwc.c:pwc_get"]}
{"id": "C71", "title": "An address without walk gets the walk of its page", "statement": "An instruction or data address that comes without page-table walk is found if and only if an address of the same effective and real page was decoded before, and it then gets the walk that the page tables give for it, with its own guest real address.", "quantifier": "all page tables, all histories of translations, all addresses; violated with several processes that share a page", "why_tests_cant": "All page tables, all histories.", "anchors": ["htm/xlate.c:xlate_lookup", "htm/erat.c:erat_insert", "htm/erat.c:erat_get"]}
{"id": "C72", "title": "Every stamp of an HTM trace is reported once, in order, with its contents", "statement": "When a dump has been decoded, the callback was given every record that is a stamp (start, end, pause, synchronisation, marker, time), wherever it lies between the other records, once, in the order of the dump and with the contents of the record; the cycles counted are those of the time stamps with a time, and the time stamps are counted with and without a callback.", "quantifier": "all dumps, all positions of the stamps, all outcomes of reading; violated: a marker with something in its reserved bits ends the program", "why_tests_cant": "All dumps; stamps may lie between any two records.", "anchors": ["htm/htm.c:htm_decode_stamp", "htm/htm.c:htm_decode_fetch"]}
{"id": "C73", "title": "The records of a guest's dump have the translations of the walks in it", "statement": "When the dump of a process of a guest is decoded, each instruction is reported once and in order, with its address, data address and word; it has the real address, the page sizes and the page table entries of the translation of its address exactly if a walk for that page was in the dump by then, and the same holds for the address of its data; entries and page sizes are those of the page tables, whatever steps the processor has left out of the walks, and the real address is the one the address is translated to.", "quantifier": "all page tables, all sequences of instructions with lines, walks, prefixes and up to two data accesses; violated: the real address is wrong where the guest's page is smaller than the host's", "why_tests_cant": "What a record contains depends on all walks of the dump before it and on the page tables.", "anchors": ["htm/htm.c:htm_decode_insn_p10", "htm/htm.c:htm_decode_insn_xlate", "htm/htm.c:htm_select_dside_xlate", "htm/xlate.c:xlate_decode", "htm/xlate.c:xlate_lookup", "htm/erat.c"]}
{"id": "C74", "title": "The register log of the live tracer gives the registers before every instruction", "statement": "The log with register dump lists only registers that changed. Reading it from the beginning, with all registers zero before the first line, gives for every recorded instruction its address, its word and the values of all registers just before it.", "quantifier": "all runs of any length, all register contents, all skip counts and limits, both byte orders; violated: of FPSCR only the lower half is logged, and on little-endian systems the halves of the vector-scalar registers are exchanged", "why_tests_cant": "Must hold for every history of register changes; a register missed once is wrong until it changes again.", "anchors": ["ptracer/main.c:print_state", "ptracer/main.c:get_state", "ptracer/main.c:print_insn", "ptracer/ascii.c:ascii_add_record"]}
{"id": "C75", "title": "The live tracer records each instruction the traced thread executes once", "statement": "Whatever the other threads of the program do and whenever their stops are reported, the tracer records exactly the instructions that the traced thread executes, in order; every stop of another thread is answered with one request that lets it go on.", "quantifier": "all schedules of stops of any number of threads, all lives of the traced thread; violated when a signal arrives at the traced thread: the instruction it is stopped at is recorded again", "why_tests_cant": "All interleavings of the stops of all threads.", "anchors": ["ptracer/main.c:main", "ptracer/main.c:print_insn", "ptracer/single_step.c:step_over_atomic"]}
{"id": "C76", "title": "Signals reach the traced program", "statement": "A signal for any thread of the program is passed on to it once, and no signal is delivered that did not arrive; stops by job control are kept.", "quantifier": "all stops, all signals, in the main loop and while skipping; violated: signals in front of an atomic sequence, SIGILL of other threads, SIGSTKFLT, traps while skipping, job control", "why_tests_cant": "Depends on where in the program a signal arrives.", "anchors": ["ptracer/main.c:main", "ptracer/perf_events.c:fast_forward"]}
{"id": "C77", "title": "The tracer's table has exactly the living threads", "statement": "After any history of new and exiting threads the table of the tracer has exactly the threads that live, all of them are released when the limit is reached, and no null pointer is used.", "quantifier": "all histories of reports; violated when the exit of a new thread is reported before the stop of its parent, and beyond 30000 threads", "why_tests_cant": "The order of reports of parent and child is a race.", "anchors": ["ptracer/main.c:main", "ptracer/perf_events.c:fast_forward", "ptracer/pids.c:add_pid", "ptracer/pids.c:remove_pid", "ptracer/ptrace.c:detach_all_threads"]}
{"id": "C78", "title": "The statistics script reads every line of a listing", "statement": "The statistics script accepts every listing that qtdis prints and reads each line as the address, the text of the instruction and the function it was printed with, so that every instruction is counted once.", "quantifier": "all addresses, symbols with names without blanks and plus signs, offsets and texts of one line", "why_tests_cant": "The script is a pair of regular expressions applied to free text; a sample listing does not show for which names and texts it goes wrong.", "anchors": ["tools/qtrace_statistics.py", "qtdis/qtdis.c:__print_address", "qtdis/qtdis.c:print_qt_record"]}
{"id": "C79", "title": "The shares of the script add up and agree with qtdis -s", "statement": "The shares reported for a listing add up to 100 % of its instructions, and the script and qtdis -s report the same numbers of kernel, firmware and program instructions and the same number of every exception.", "quantifier": "all traces; violated for traces with firmware instructions (shares), addresses from 0xd000000000000000 on (agreement) and idle loops in real mode (negative share)", "why_tests_cant": "Two independent implementations of the same classification; agreement must hold for every address.", "anchors": ["tools/qtrace_statistics.py:parse_one", "tools/qtrace_statistics.py:print_statistics", "qtlib/ppcstats.c:ppcstats_log_inst_stats"]}
{"id": "C80", "title": "The script counts every system call under the function that serves it", "statement": "The number reported for a system call is the number of times it was made, and no more system calls are reported than there were entries for them.", "quantifier": "all traces; violated when an entry does not reach a function pointer call, or other ones come before, and for listings with raw words", "why_tests_cant": "The count comes from a small state machine over the whole trace that any interleaving interrupt disturbs.", "anchors": ["tools/qtrace_statistics.py:parse_one", "tools/qtrace_statistics.py:is_exception_entry"]}
{"id": "C81", "title": "Hash values depend on the bytes of a key only", "statement": "The hash of a key is the published function lookup3 of its bytes and of the previous value: it is the same wherever the key lies in memory (the functions have separate code for keys aligned to 4 bytes, to 2 bytes, and not at all, and for the two byte orders), for every length, and no byte outside of the key takes part. The variant for arrays of words gives the hash of the array's memory on machines of both byte orders.", "quantifier": "all keys of all lengths, all addresses, both byte orders, all previous values", "why_tests_cant": "There are five copies of the code with thirteen cases for the last block each; a lookup that hashes a key at another alignment than the insertion did fails only for some lengths and contents.", "anchors": ["qtrace-bbv/ccan/hash/hash.c:hashlittle", "qtrace-bbv/ccan/hash/hash.c:hashbig", "qtrace-bbv/ccan/hash/hash.c:hash_u32", "qtrace-bbv/ccan/hash/hash.c:hash64_any", "qtrace-bbv/ccan/hash/hash.c:hash_any"]}
{"id": "C82", "title": "Every element of an array counts in its stable hash", "statement": "The hashes for external use give the same value on all machines, that of the array's memory on a little-endian machine, and every element takes part in it. Mixing the state between blocks is reversible, so that nothing that went in is lost.", "quantifier": "all arrays of 1, 2, 4 and 8 byte numbers of all lengths, all previous values, all states", "why_tests_cant": "Whether an element takes part depends on the number of elements modulo three or six; hash values look random, so that a test cannot see that two of them are equal by mistake unless it tries just that length.", "anchors": ["qtrace-bbv/ccan/hash/hash.c:hash64_stable_64", "qtrace-bbv/ccan/hash/hash.c:hash64_stable_32", "qtrace-bbv/ccan/hash/hash.c:hash64_stable_16", "qtrace-bbv/ccan/hash/hash.c:hash64_stable_8", "qtrace-bbv/ccan/hash/hash.c:mix"]}
{"id": "C83", "title": "The trace converted from a guest's dump has the translations of the walks in the dump", "statement": "Converting the dump of a guest process and reading the trace gives every instruction of the dump, in order, with the real address, the sizes of the guest's and the host's page and the page table entries of the walk of its page, and the same for the address of its data.", "quantifier": "all page tables, all sequences of instructions with walks for all pages they use; violated: the sizes of the data's host page and of the guest page of an instruction jumped to come back exchanged, and an instruction reached from the one before it in another page has the walk of that page", "why_tests_cant": "What a record of the trace says about a page depends on all walks of the dump before it, on the page tables, and on whether the neighbouring instructions jump.", "anchors": ["htm/htmdecoder.c", "htm/htm.c:htm_decode_insn_p10", "qtlib/qtwriter.c:qtwriter_write_record", "qtlib/qtreader.c:qtreader_next_record"]}
{"id": "C84", "title": "The summary of a trace covers it", "statement": "For a trace with at least one complete interval, qtrace-bbv tries one representative interval, then two, and so on, prints a table for each number, and ends with success after as many as there are different intervals, or 32. In every table the representatives are different intervals, no exchange of one for another interval brings the intervals nearer to their representatives, the printed cost is the sum of the distances, every line has the first and the last instruction of its interval, the weight of a line is the number of intervals nearest to it, and the weights add up to the number of intervals. The cost is 0 exactly when there is a representative for every different interval. With -k, one such table is printed, or none and the program fails when there are fewer different intervals.", "quantifier": "all traces, interval lengths, numbers of dimensions and random signs, within the sizes of 64 bit numbers; violated: a trace shorter than an interval is not summarised at all, and with an interval length of 0 all lines are the same", "why_tests_cant": "The table is the end of a chain (blocks, matrix, random projection, local search, weights) that must hold for every trace and every choice of signs; a run shows one.", "anchors": ["qtrace-bbv/qtrace-bbv.c:do_pam", "qtrace-bbv/qtrace-bbv.c:do_one_pam", "qtrace-bbv/pam.c:random_projection", "qtrace-bbv/matrix.c:matrix_random_ones", "qtrace-bbv/pam.c:print_medoids"]}
{"id": "C85", "title": "Attaching captures every thread of a program and loses none of its signals", "statement": "When the tracer has attached to a running program, every thread of the program is traced and stopped, and is in the tracer's table exactly once, whatever the threads did meanwhile: threads may be made and may exit, signals may arrive for the program and for single threads. No signal is lost or delivered twice by the tracer. The tracer never waits for something that cannot come. If attaching fails, the program goes on as if nothing had happened.", "quantifier": "all programs with any number of threads, all signals that wait, all interleavings of the threads, of signals from elsewhere, and of the requests of the tracer; violated: a failure leaves the program stopped, and it happens when the main thread makes a thread or another thread exits at the wrong moment; a program that was stopped is continued; with a SIGCONT from elsewhere a thread can escape", "why_tests_cant": "The outcome depends on the order in which the kernel schedules the threads of the program between any two requests of the tracer; a test runs one order and cannot choose it.", "anchors": ["ptracer/ptrace.c:capture_all_threads", "ptracer/ptrace.c:wait_for_group_stop"]}
{"id": "C86", "title": "A program started under the tracer is traced from its first instruction", "statement": "When the tracer has started a program, the new process is traced, stopped, and has not executed a single instruction of the program; it is the only process in the tracer's table. If the program cannot be started, no process is left behind. Starting never hangs, and signals that would not disturb the program do not disturb its start.", "quantifier": "all interleavings of the new process, the requests of the tracer and signals from elsewhere, programs that can and cannot be executed; violated: a signal without any effect (a resized window) that arrives before the program is executed makes the tracer kill it; with a SIGCONT from elsewhere the program can run without being traced", "why_tests_cant": "The outcome depends on the order in which the kernel runs the new process, the tracer, and others that send signals; a test cannot choose it.", "anchors": ["ptracer/ptrace.c:do_exec"]}
{"id": "C87", "title": "A traced program keeps its threads and its signals to the end", "statement": "From attaching or starting to the end of the tracer: every thread of the program, also a new one, is traced while the tracer is there; whenever the tracer waits, no thread is left stopped by it, and every stop it is told of is answered; the thread that is being traced is alive; however the tracer ends, all threads run on untraced. Every signal sent to the program reaches it, and the tracer does not end before it has traced enough or the traced thread exits.", "quantifier": "all interleavings of the threads, signals from elsewhere, and the requests of the tracer while it skips instructions, releases the other threads, traces, steps over atomic sequences and detaches; any number of threads; violated: signals are suppressed when a thread is chosen for tracing, at an atomic sequence, and when the tracer detaches; the tracer fails when a thread exits while another is chosen, or when a signal arrives in an atomic sequence, and uses a null pointer when a new thread exits before the tracer is told of it", "why_tests_cant": "What goes wrong depends on a thread stopping in the instant between two requests of the tracer; tests cannot place it there.", "anchors": ["ptracer/main.c:main", "ptracer/perf_events.c:fast_forward", "ptracer/ptrace.c:release_all_non_tracing_threads", "ptracer/ptrace.c:detach_all_threads", "ptracer/single_step.c:step_over_atomic"]}
{"id": "C88", "title": "A live trace, read back, describes the execution", "statement": "The trace file that the live tracer leaves, read back, has a record for every instruction of the window asked for, in order and nothing else: its address, its word, the data address that the architecture gives for the registers, where control went next, and whether it is a branch. With translation, the real addresses of the instruction and of its data are those the kernel gave for their pages at most a refresh interval before. If the tracer is killed, all but the last instruction are there.", "quantifier": "all instruction sequences, register contents, page maps (also changing ones) and windows; any number of instructions; violated: an instruction reached from the page before without a jump is reported in the frame of that page; of a prefixed instruction the second word is missing and it is reported as a taken branch; on some loads and stores the tracer aborts", "why_tests_cant": "It joins the tracer, its cache of page maps, the trace format, which leaves out what can be inferred, and the reader, over arbitrarily long executions.", "anchors": ["ptracer/main.c:print_insn", "ptracer/pagemap.c:ea_to_pa", "ptracer/ppc_storage.c:is_storage_insn", "qtlib/qtwriter.c:qtwriter_write_record", "qtlib/qtreader.c:qtreader_next_record"]}
{"id": "C89", "title": "A trace turned into assembler text and back is the same trace", "statement": "The text that qtdis -b prints for a trace, assembled and given to qtbuild, gives a trace that, read back, has the same instructions in the same order, with the same addresses, words and data addresses (the documented way of editing a trace, qtbuild.c).", "quantifier": "all traces of any length (regular ones: loads and stores with data addresses, taken branches that go to their targets); violated: a branch that is not taken loses its target, a branch followed by an interrupt is changed into a branch to the interrupt, a prefixed instruction or an unknown load or store makes qtbuild fail", "why_tests_cant": "It joins the reader, the printed text, the assembler's sections, qtbuild and the writer over arbitrary traces; tests run two examples the other way.", "anchors": ["qtdis/qtdis.c:print_qt_record", "qtbuild/qtb.h:branch_to_abs", "qtbuild/qtbuild.c:build"]}
{"id": "C90", "title": "The link stack program judges the returns of the traced program", "statement": "Run on a trace file, the link stack program counts every return that the traced program made, and says of each whether it goes where a stack of return addresses of the given depth would have predicted. If calls and returns of the program are nested within the depth, none is counted as mispredicted. It does not fail on a trace that the tracer or the writer produced, and refuses files that are no traces.", "quantifier": "all traced instruction sequences of any length, depths from 1 to 2^64-1; violated: an always-taken branch in B form makes it abort; a return followed by an interrupt counts as mispredicted", "why_tests_cant": "It joins the writer's inference of branches, the reader's annotation of them and the simulator, over all executions.", "anchors": ["branch/link_stack.c:main", "qtlib/qtreader.c:annotate_branch", "qtlib/qtwriter.c:qtwriter_write_record"]}
{"id": "C91", "title": "The numbers printed by qtdis are those of the traced program", "statement": "Run on a trace file, qtdis -s prints the numbers of instructions in the kernel, the firmware, libraries and binaries, of system calls, hypervisor calls and exceptions of the program the trace was made of; qtdis -i counts every instruction under its name; qtdis -c counts every address as often as it was executed.", "quantifier": "all traces of any length that can be written and do not end within an instruction, and all programs traced live; violated: prefixed instructions are counted as unknown", "why_tests_cant": "It joins the live tracer, the format, the reader, the loop of qtdis and the counters over arbitrary executions.", "anchors": ["qtdis/qtdis.c:disasm", "qtdis/qtdis.c:read_qt", "qtlib/ppcstats.c:ppcstats_log_inst", "qtlib/bb.c:bb_ea_log"]}
{"id": "C92", "title": "The header tells the magic number, the version and the first address", "statement": "A reader that opens the file of a writer, closed, still open or left behind by a crash, accepts the header as soon as one record has been accepted and reports the magic number the writer was opened with (also zero), version 7.1.0.0 of the format and the address of the first instruction accepted.", "quantifier": "all histories of write calls with any of them failing, all magic numbers, everything that may follow the header", "why_tests_cant": "Whatever is in the first record decides the layout of the header; histories and what follows the header are unbounded.", "anchors": ["qtlib/qtwriter.c:qtwriter_open", "qtlib/qtwriter.c:qtwriter_write_header", "qtlib/qtreader.c:qtreader_initialize"]}
{"id": "C93", "title": "The numbers of htmdecode are those of the instructions in the dump", "statement": "With -s, -i and -b htmdecode, which then decodes without a callback and writes no trace, counts exactly the instructions that it would convert: each once, in order, with its address and word; and for dumps without prefixed instructions it prints the same numbers as qtdis -s, -i and -c for the converted trace.", "quantifier": "all POWER10 and POWER9 dumps in the format of C50, C73 or C98, of any length, with any stamps between the records; violated: of a prefixed instruction htmdecode counts the second word and qtdis the prefix; a second data address that looks like an instruction record is counted as an instruction", "why_tests_cant": "Two different paths through the decoder have to consume the same records for every sequence of instructions.", "anchors": ["htm/htmdecoder.c:main", "htm/htm.c:htm_decode_insn", "htm/htm.c:htm_decode_insn_p10", "qtlib/ppcstats.c:ppcstats_log_inst", "qtlib/bb.c:bb_ea_log"]}
{"id": "C94", "title": "Executable mappings of a traced process are read from /proc/pid/maps as they are", "statement": "The text form of the tracer takes from the maps file of a process exactly its executable mappings, each with its start address and the symbols of its file, whatever the memory of the tracer held before; so that a printed name belongs to a file mapped at or before the address.", "quantifier": "all lists of mappings in the format of the operating system, all file contents, all earlier contents of the program's variables; violated: executable memory without a file, names with white space, lines of 2048 characters and more", "why_tests_cant": "The result must not depend on uninitialised memory, for any number of mappings and any addresses and names.", "anchors": ["ptracer/ascii.c:initialise_mem_map", "ptracer/ascii.c:syminit"]}
{"id": "C95", "title": "The verbose listing of qtdis says what the trace says", "statement": "With -v, qtdis prints behind every instruction the address of its data, the number and the size of the data page, every entry of the page-table walk, the node and the termination code of its record, and nothing else of that kind; and the number and the size of the page of the next instruction exactly if it is jumped to and the trace has them. The remarks are announced by a # exactly if there are any.", "quantifier": "all trace files that do not end within an instruction with data pages up to 4 GiB, and for the next instruction all traces that can be written; violated: the walk printed is that of the instruction itself, and behind a prefixed instruction nothing is said of the next one", "why_tests_cant": "The translations of the next instruction are carried by the reader from one record to the next, over traces of any length.", "anchors": ["qtdis/qtdis.c:print_qt_record", "qtdis/qtdis.c:print_radix_on_radix", "qtdis/qtdis.c:read_qt", "qtlib/qtreader.c:qtreader_next_record"]}
{"id": "C96", "title": "The programs do what their options say, however they are written", "statement": "Options may be written one by one or several in a word, with the argument attached or as the next word; the last option about a setting decides. ptracer passes everything from the name of the program on to it unchanged, even if it looks like an option, and ends with status 1 if there is both or neither of a process and a program; qtdis, htmdecode and qtrace-bbv take options also behind the file; qtdis and qtrace-bbv want exactly one file; htmdecode writes to the file given, or to the name of the dump with .qt appended and never to the dump itself, and nothing with -s, -i or -b, which it refuses together with -o.", "quantifier": "all command lines made of the documented options in any order and style, with any arguments and operands, numbers in decimal within the range of the setting; violated by 2^32 options -v of qtdis and by names of dumps of 4093 bytes or more with -s, -i or -b of htmdecode", "why_tests_cant": "The number of options, operands and ways to write them is unbounded.", "anchors": ["ptracer/main.c:main", "qtdis/qtdis.c:main", "htm/htmdecoder.c:main", "qtrace-bbv/qtrace-bbv.c:main"]}
{"id": "C97", "title": "A checkpoint is taken of the traced process", "statement": "With -c, the process at which the instructions to skip have ended, and no other, is released and handed over to criu, with the directory given. If that cannot be done, the status says so.", "quantifier": "all process ids and directories; violated: ids of seven digits; if criu cannot be started the status is 0", "why_tests_cant": "Ids that long occur only on systems with a raised limit.", "anchors": ["ptracer/main.c:do_checkpoint"]}
{"id": "C98", "title": "Real addresses of instructions in POWER9 dumps are remembered", "statement": "A POWER9 dump gives the real page of an instruction only when it is first fetched from. The decoder delivers each instruction with its real address and page size, if the dump has them there, if it had the page before with an instruction whose address is in the dump, or if addresses are not translated; and data with theirs. If a page moves, the place that the dump had last counts. What is delivered is what the machine had, and in the converted trace every instruction has it, also those that are only reached from the one before.", "quantifier": "all POWER9 dumps, of any length, all page tables with pages of 4 kB, 64 kB and 16 MB, which may change as long as the sizes of pages do not; for the trace: all dumps in which no page is entered from the instruction before and page numbers have at most 32 bits; violated: the real page comes with segment information; the size of pages changes; a page that came with an instruction reached from the one before is not remembered; going back to the last page of the address space ends the program; a page entered from the instruction before is lost in the trace", "why_tests_cant": "What is known of an instruction depends on all pages seen so far, and the lookup must find the right one among any number of pages of different sizes.", "anchors": ["htm/htm.c:htm_decode_insn", "htm/htm.c:htm_decode_insn_ira", "htm/tlb.c:tlb_ra_get", "htm/tlb.c:tlb_ra_set", "qtlib/qtwriter.c:qtwriter_write_record"]}
{"id": "C99", "title": "The summary of htmdecode counts what was decoded", "statement": "The numbers htmdecode prints at the end are those of the dump: the records of each kind, the cycles of the times, the instructions, those with addresses of each kind, the jumps and interrupts, and the pages of each size that came with instructions.", "quantifier": "all dumps that are decoded for the records; all POWER9 dumps and all POWER10 dumps, without page-table walks or of one guest process with them, for the instructions; up to 2^32 of anything; violated: cycles beyond 2^32, pages of data on POWER9, an interrupt where a jump has just gone to, instructions before the first walk, returns from interrupts, interrupts on POWER10", "why_tests_cant": "The counts depend on the whole dump, which may have any length.", "anchors": ["htm/htmdecoder.c:main", "htm/htmdecoder.c:print_stat", "htm/htm.c:htm_decode", "htm/htm.c:htm_decode_insn"]}
{"id": "C100", "title": "The listing of htmdecode shows what is decoded", "statement": "With -d or -D htmdecode prints a line for every instruction it writes to the trace, in order, with its word, its address and what is known of its real address, its page and its data; with -D also one for every stamp of the dump, in order, with what it says, and a stamp is listed before an instruction exactly if it comes before the last record of that instruction. Without them it prints no listing.", "quantifier": "all dumps that are decoded; for the agreement of listing, dump and trace all POWER9 dumps; violated: time stamps with several reasons are listed like those with none", "why_tests_cant": "Every combination of known and unknown addresses must come out in a form that can be told apart, for dumps of any length.", "anchors": ["htm/htmdecoder.c:print_record", "htm/htmdecoder.c:print_record_insn", "htm/htmdecoder.c:print_record_time"]}
{"id": "C101", "title": "The report about the translation cache tells which pages a dump had and how they were used", "statement": "After decoding a dump with `htmdecode -d`, the last lines list every page that the dump gave for translated instructions, in ascending order, with the number of its uses and of its repetitions since it was last moved; then how many of the instructions whose page had to be remembered were in no page seen before, and how often a page had moved. Keeping these counts does not change any translation.", "quantifier": "every history of insertions and lookups; every POWER9 and POWER10 dump, with any stamps between the records", "why_tests_cant": "The numbers depend on the whole order of insertions, replacements and lookups; a counter that is reset or incremented in the wrong branch shows up only for particular histories", "anchors": ["htm/tlb.c: tlb_ra_get", "htm/tlb.c: tlb_ra_set", "htm/tlb.c: tlb_dump", "htm/tlb.c: tlb_print", "htm/htmdecoder.c: print_stat"]}
{"id": "C102", "title": "Whatever a dump contains, htmdecode decodes it to the end", "statement": "Records of a dump that cannot be understood are skipped; none of them ends the program with a failed assertion or makes it read or write outside its arrays.", "quantifier": "all files and modes; violated by page-table walks of a system without a hypervisor below it (such as the project's own test dumps 04, 07, 08 and 09), by a third walk before an instruction, by marks with reserved bits set, by POWER9 dumps with different page sizes at the same place or instructions in the last page, and by 102 errors in a row", "why_tests_cant": "Needs every sequence of records; the dumps of the tests have at most a few instructions.", "anchors": ["htm/htm.c:htm_decode", "htm/htm.c:htm_decode_one", "htm/htm.c:htm_decode_insn_p10", "htm/htm.c:htm_decode_mark", "htm/xlate.c:xlate_decode", "htm/tlb.c:tlb_ra_set"]}
{"id": "C103", "title": "A hash table survives clearing, copying, deletion during a walk and lack of memory", "statement": "After any calls the table holds what was added and not deleted. An addition is refused only if memory is lacking, and then changes nothing. Clearing leaves an empty table; a copy has the same elements; deleting by key takes one element with the key; a walk that deletes elements as it meets them meets every element once and leaves the others; walking back gives the elements of the walk in the opposite order. A table made for a number of elements needs no more memory for that many additions, and one for which there was no memory is still usable.", "quantifier": "all histories of calls with any of the allocations failing, all hash functions, all pointers of the same magnitude; violated: a table whose creation with a size failed is read outside its memory, more than 3*2^28 elements, walking back after having gone on past the end", "why_tests_cant": "Every interleaving of growth, deletions, refused additions and walks would have to be tried, and allocations fail only under pressure.", "anchors": ["qtrace-bbv/ccan/htable/htable.c:htable_init_sized", "qtrace-bbv/ccan/htable/htable.c:htable_add", "qtrace-bbv/ccan/htable/htable.c:htable_copy", "qtrace-bbv/ccan/htable/htable.c:htable_clear", "qtrace-bbv/ccan/htable/htable.c:htable_delval", "qtrace-bbv/ccan/htable/htable.c:htable_next", "qtrace-bbv/ccan/htable/htable.c:htable_prev", "qtrace-bbv/ccan/htable/htable_type.h:HTABLE_DEFINE_TYPE"]}
{"id": "C104", "title": "Printed percentages are the shares of the counts, rounded to two decimals", "statement": "Every percentage that the link stack program, qtdis -s, qtdis -i, qtdis -c and the statistics script print is the quotient of the two counts it stands for, rounded to the nearest hundredth of a percent: everything is 100.00, nothing is 0.00, and a value is never off by more than half a hundredth. The warning about context switches appears exactly if more than a tenth of them were at another address than the first.", "quantifier": "all traces and all values of the counters; violated: without instructions or returns the programs print nan, qtdis -c rounds through single precision and gets the last digit wrong, and so does double precision for totals above 2^54", "why_tests_cant": "Rounding happens in binary floating point; errors show only for particular pairs of counts among 2^128.", "anchors": ["branch/link_stack.c:print_stats", "qtlib/ppcstats.c:ppcstats_print_stats", "qtlib/ppcstats.c:ppcstats_print_imix", "qtlib/bb.c:bb_print", "tools/qtrace_statistics.py:print_statistics"]}
{"id": "C105", "title": "The report of a test program tells its results, and its exit status whether they are good", "statement": "For a test program that reports with the test library of the project (plan, ok, skip, todo blocks, exit_status): a harness that reads the printed report finds the announced number of tests and every test that was made, in order and numbered from one, with its result, its name and the reason why it is to do or skipped; and the exit status is zero exactly if the report is acceptable: as many tests as planned, and none failed outside a todo block. The test program of the decoder passes a record exactly if all compared fields are as expected, and its exit status tells whether all records passed.", "quantifier": "all sequences of calls of the library, all names, messages and numbers of tests", "why_tests_cant": "tests of a test library are a few call sequences with tame names; a name with special characters, a miscounted plan or a status that wraps to zero hides failures of everything else that is tested", "anchors": ["qtrace-bbv/ccan/tap/tap.c:_gen_result", "qtrace-bbv/ccan/tap/tap.c:_cleanup", "qtrace-bbv/ccan/tap/tap.c:exit_status", "qtrace-bbv/ccan/tap/tap.c:skip", "htm/tests/radixtest.c:test_record", "htm/tests/radixtest.c:main"]}
{"id": "C106", "title": "What is inserted as an operand of an instruction is extracted again", "statement": "For every operand of the operand table and every legal value in its range: inserting it into an instruction whose bits for the operand are free gives no error message, and extracting the operand from the resulting word gives the value and accepts the word.", "quantifier": "all 185 operands of the table, all instruction words, all dialects, all values in range; violated for thirteen operands: byte counts and OIMM5 for the value 0, predicted branch displacements from version 2 on whose BO has no hint bits, negated immediates and masks (never accepted), scaled immediates and masks (sign of the upper half)", "why_tests_cant": "There are 2^64 words and 2^64 dialects for each operand, and values go through split, shifted and sign extended fields; a table of examples checks a few of them.", "anchors": ["qtlib/ppc-opc.c:powerpc_operands_qt", "qtlib/ppc-opc.c:insert_bdm", "qtlib/ppc-opc.c:extract_bdm", "qtlib/ppc-opc.c:insert_fxm", "qtlib/ppc-opc.c:insert_mbe", "qtlib/ppc-opc.c:extract_nsi", "qtlib/ppc-opc.c:insert_sci8", "qtlib/ppc.h:powerpc_operand_qt"]}
{"id": "C107", "title": "Inserting an operand touches only its bits, and reports exactly the illegal values; operands left out have their defaults", "statement": "An insertion never clears a bit and never changes a bit outside the operand's field and the documented hint bits, whatever the value. For a value in the operand's range the insertion is defined, and it reports an error exactly if the value is illegal in that instruction and dialect (base register among the loaded ones, decrementing branch to the count register, several registers for mfocrf, a mask that is not one run, \u2026). An optional operand that is left out has its documented default, and the default is accepted.", "quantifier": "all operands of the table, all instruction words, dialects and values", "why_tests_cant": "An error check that misses one combination of fields assembles an invalid instruction; the combinations of field, instruction and dialect are too many to try.", "anchors": ["qtlib/ppc-opc.c:powerpc_operands_qt", "qtlib/ppc-opc.c:insert_bo", "qtlib/ppc-opc.c:valid_bo", "qtlib/ppc-opc.c:insert_nbi", "qtlib/ppc-opc.c:insert_ram", "qtlib/ppc-opc.c:insert_mbe", "qtlib/ppc-opc.c:insert_sprg", "qtlib/ppc-opc.c:extract_fxm", "qtlib/ppc-opc.c:extract_tbr"]}
{"id": "C108", "title": "What is extracted from a recognised word can be inserted again", "statement": "If a word is accepted by the extraction of an operand, inserting the extracted value into the word with the operand's bits cleared gives the same word, without an error message.", "quantifier": "all operands of the table, all instruction words, all dialects; violated for branch options (decrementing branches to the count register), BOE (prediction bit), FXM (mtcrf becomes mtocrf), NBI (overlapping registers), scaled immediates (several encodings), SPRG (two numbers of a register)", "why_tests_cant": "Words are 2^32 for each operand and dialect, and the error shows only if both directions are compared.", "anchors": ["qtlib/ppc-opc.c:powerpc_operands_qt", "qtlib/ppc-opc.c:extract_bo", "qtlib/ppc-opc.c:extract_sprg", "qtlib/ppc-opc.c:extract_nb", "qtlib/ppc-opc.c:extract_bdp", "qtlib/ppc-opc.c:extract_sci8"]}
{"id": "C109", "title": "An instruction assembled from a table entry belongs to the entry and has its operands", "statement": "Putting the values of its operands, each in its range, into the opcode of an entry gives a 32-bit word that matches the entry's opcode under its mask; if no insertion function reports an error, the disassembler's extraction gives every operand its value back.", "quantifier": "all 5084 entries of the three opcode tables, all values of their operands, all dialects; violated for mtcrf and mfcr of one register on Power4 and for the operands of C106 that do not come back", "why_tests_cant": "The number of operand values of a single entry is up to 2^26; that fields of an entry do not overlap each other, its mask or the bits another extraction looks at is a property of the whole table.", "anchors": ["qtlib/ppc-opc.c:powerpc_opcodes_qt", "qtlib/ppc-opc.c:vle_opcodes_qt", "qtlib/ppc-opc.c:spe2_opcodes_qt", "qtlib/ppc-opc.c:powerpc_operands_qt", "qtlib/ppc.h:powerpc_opcode_qt"]}
{"id": "C110", "title": "Matrices obey the laws of algebra, and the self-test of matrix.c passes", "statement": "Multiplying three matrices gives equal results whichever product is made first; multiplying with an identity matrix from either side gives an equal matrix; enlarging a matrix and shrinking it back gives an equal one. A random matrix takes the numbers of the generator in their order, each once. The self-test program of matrix.c never fails an assertion if memory suffices.", "quantifier": "all shapes that fit in memory, all entries, all results of random(), all contents of new memory", "why_tests_cant": "The project's test makes one run with one sequence of random numbers, and does not compare the results of its associativity test.", "anchors": ["qtrace-bbv/matrix.c:matrix_multiply", "qtrace-bbv/matrix.c:matrix_resize", "qtrace-bbv/matrix.c:matrix_compare", "qtrace-bbv/matrix.c:matrix_copy", "qtrace-bbv/matrix.c:matrix_random", "qtrace-bbv/matrix.c:identity_multiplication", "qtrace-bbv/matrix.c:associative_multiplication", "qtrace-bbv/matrix.c:main"]}
{"id": "C111", "title": "What qtrace-bbv prints can be read back", "statement": "Reading the printed text line by line gives the clusterings: the number of medoids, the cost, and for every medoid the first and last instruction of its interval and its weight, also if the program ends with an error after some tables. The matrix shown with -v is read back row by row; -v also shows the basic blocks of the trace in their order, each with its address and length, and before every table the costs of the search, which go down to the cost of the table, and changes nothing else.", "quantifier": "all traces, interval lengths, numbers of medoids and projections, with and without -v; all matrices; violated for instruction numbers from 2^63 on, which appear as negative numbers", "why_tests_cant": "Texts are unbounded; a column that runs into the next one or a sign is seen only for some numbers.", "anchors": ["qtrace-bbv/qtrace-bbv.c:do_one_pam", "qtrace-bbv/qtrace-bbv.c:do_pam", "qtrace-bbv/pam.c:print_medoids", "qtrace-bbv/matrix.c:matrix_print"]}
{"id": "C112", "title": "An instruction taken apart with a table entry is put together again from its operands", "statement": "If a 32-bit word matches an entry of the opcode tables and the extraction of every operand of the entry accepts it, then putting the extracted values one after the other into the opcode of the entry gives the same word. Entries determine, with their operands, all bits of the word but listed ones of no account.", "quantifier": "all 5084 entries of the three opcode tables, all 32-bit words, all dialects; violated for the listed bits of no account, which are lost, for mtcrf of one register on Power4, for SPRG4 to 7 read by the privileged numbers and for scaled immediates with several encodings", "why_tests_cant": "There are 2^32 words for each entry and 2^64 dialects; a field forgotten in one of five thousand entries, or an operand inserted before the register it is compared with, shows only for words that use it.", "anchors": ["qtlib/ppc-opc.c:powerpc_opcodes_qt", "qtlib/ppc-opc.c:vle_opcodes_qt", "qtlib/ppc-opc.c:spe2_opcodes_qt", "qtlib/ppc-opc.c:powerpc_operands_qt", "qtlib/ppc.h:powerpc_opcode_qt"]}
{"id": "C113", "title": "A copy of a trace has the same records", "statement": "Reading a trace record by record and writing each record to a new trace, as the project's copying test does, ends normally, and the new trace reads back with the same records: instructions, addresses, data addresses, branches, real addresses, page sizes and walks. If the program ends normally the copy is complete. Copying the copy changes nothing any more.", "quantifier": "all contents of the trace file, whoever made them, and all points at which the output file cannot be grown; violated for walks of instructions of a single kind (abort), page sizes at jumps (exchanged), the magic number and the stored reasons (lost), at jumps that are not branches (the second copy differs), and when growing fails while closing (last record lost)", "why_tests_cant": "The file to be copied is arbitrary; what goes wrong depends on which optional fields meet in two consecutive records.", "anchors": ["qtlib/tests/test3.c:main", "qtlib/qtreader.c:qtreader_next_record", "qtlib/qtwriter.c:qtwriter_write_record", "qtlib/qtwriter.c:qtwriter_close"]}
{"id": "C114", "title": "The string helpers answer what they say for every string", "statement": "For every two C strings: streq says whether they are the same, strstarts whether the first begins with the second, strends whether it ends with it, and strcount returns the largest number of occurrences of the second in the first that do not overlap. STR_MAX_CHARS of a type is enough room for every number of the type in decimal with a sign and in hexadecimal with 0x. The character tests never pass a value the C library is not defined for.", "quantifier": "all strings of any length and contents, whatever follows them in memory, all sizes of types and all their values, all characters; violated for strcount of an empty string, which never returns", "why_tests_cant": "Occurrences that overlap each other in different ways decide whether taking the first one is best; tests use a few words.", "anchors": ["qtrace-bbv/ccan/str/str.h:strends", "qtrace-bbv/ccan/str/str.c:strcount", "qtrace-bbv/ccan/str/str.h:STR_MAX_CHARS", "qtrace-bbv/ccan/str/debug.c:str_isalnum"]}
{"id": "C115", "title": "Readers and writers of traces give back what they took", "statement": "Closing a trace that was opened for writing gives back its file descriptor and its mapping, also after the file was grown or could not be grown, and destroying a reader gives back the mapping and the descriptor it was made with; nothing of the rest of the program is closed or unmapped, and no write goes to a null pointer. Opening for writing succeeds exactly if the file could be opened, enlarged and mapped, and a record that needs a larger file is refused without any change if the file cannot be enlarged or mapped. A call that opens and fails leaves nothing behind.", "quantifier": "All histories of opening, writing and closing with any answers of the system (allocation, truncation, mapping, moved mappings), all that the rest of the program does with its own files in between, and all readers of files and memory.", "why_tests_cant": "The system calls that fail, and mappings that move when they grow, depend on the file system and the memory; tests see one system and successful calls.", "anchors": ["qtlib/qtwriter.c:qtwriter_open", "qtlib/qtwriter.c:fallocate_or_ftruncate", "qtlib/qtwriter.c:qtwriter_write_record", "qtlib/qtwriter.c:qtwriter_close", "qtlib/qtreader.c:qtreader_initialize", "qtlib/qtreader.c:qtreader_initialize_fd", "qtlib/qtreader.c:qtreader_destroy", "ptracer/main.c:main"]}
{"id": "C116", "title": "Skipping instructions opens one counter per living thread and gives all of them back", "statement": "While the live tracer skips instructions, exactly the living threads have a performance counter of its making, one each, that counts this thread, stops this thread and does so after the instructions to be skipped less 200. When a thread is chosen all of these counters are closed, no other descriptor of the tracer is touched, and the number still to be skipped is the number asked for less what the counter of the chosen thread says.", "quantifier": "All numbers to skip, all threads at the beginning, all sequences of stops reported by the system (new threads, exits, signals), all descriptors the system may return.", "why_tests_cant": "Which threads start and exit while instructions are skipped depends on the schedule; descriptors are used again by the system after they are closed.", "anchors": ["ptracer/perf_events.c:fast_forward", "ptracer/perf_events.c:setup_insn_counter", "ptracer/perf_events.c:setup_sigio", "ptracer/perf_events.c:destroy_insn_counter", "ptracer/pids.c:add_pid", "ptracer/pids.c:remove_pid"]}
{"id": "C117", "title": "The live tracer raises its limit of open files as far as it needs and may", "statement": "At its start the live tracer sets its limit of open files so that every thread its table has room for can have a counter, or to the largest value the system allows; it never lowers the limit.", "quantifier": "All soft and hard limits, and all limits of the system.", "why_tests_cant": "The limits of a process are set by its surroundings; a test runs with those of one system.", "anchors": ["ptracer/main.c:setrlimit_open_files"]}
{"id": "C118", "title": "A program started by the live tracer starts in the surroundings of the tracer", "statement": "A program that the live tracer starts finds what it would find if it were started directly: the same signals ignored, the same limits of open files, and the same files open.", "quantifier": "All actions of signals, limits and open files of the process that starts the tracer, all combinations of trace and log files, opened or not.", "why_tests_cant": "What is inherited shows only in programs that depend on it (waiting for children, closing all descriptors), in surroundings a test does not have.", "anchors": ["ptracer/main.c:main", "ptracer/main.c:ignore_sigchld", "ptracer/main.c:setrlimit_open_files", "ptracer/ptrace.c:do_exec", "ptracer/ascii.c:ascii_open", "qtlib/qtwriter.c:qtwriter_open"]}
{"id": "C119", "title": "Stepping over an atomic sequence leaves the tracer's own signal actions as they were", "statement": "While the live tracer steps over an atomic sequence it ignores every signal it can ignore, except SIGTRAP; when it goes on, the action of every signal is what it was before.", "quantifier": "All actions before, all sets of signals for which the system refuses a change, all contents of the array in which the actions are kept (earlier sequences).", "why_tests_cant": "The system refuses changes for some signals, and which ones depends on the system; the array keeps values of earlier sequences.", "anchors": ["ptracer/single_step.c:ignore_signals", "ptracer/single_step.c:dont_ignore_signals", "ptracer/single_step.c:step_over_atomic"]}
{"id": "C120", "title": "Hashes of strings and pointers", "statement": "The hash of a string is the X31 hash of its characters up to the end of the string, modulo 2^32, so that two strings that differ in one character never have the same hash. The hash of a pointer is the hash of the memory that holds it.", "quantifier": "All strings without a zero, whatever is behind their end, machines with signed and with unsigned characters; all pointers, previous values and addresses, both byte orders.", "why_tests_cant": "There are too many strings; a collision of two strings that differ in one character would look like any other collision.", "anchors": ["qtrace-bbv/ccan/hash/hash.h:hash_string", "qtrace-bbv/ccan/hash/hash.h:hash_pointer"]}
{"id": "C121", "title": "Lists of points and medoids of a clustering", "statement": "The list of points gives for every interval of the trace, in order, the number of its nearest medoid, the first one if several are equally near, and a medoid is listed as often as the printed table of weights says. The list of medoids gives every coordinate of every medoid.", "quantifier": "All points, medoids and coordinates.", "why_tests_cant": "The nearest medoid is looked for by a second copy of the loop that gives the weights; whether both agree on ties and extreme distances needs all points. The numbers are unsigned and printed as signed ones.", "anchors": ["qtrace-bbv/pam.c:dump_pam", "qtrace-bbv/pam.c:print_raw_medoids", "qtrace-bbv/pam.c:print_point", "qtrace-bbv/pam.c:print_medoids"]}
{"id": "C122", "title": "The check of a list ends and tells sound lists from corrupt ones", "statement": "For a list head in memory, whatever the links of the objects are, list_check ends. It returns the list exactly if the links are right all around; then the elements are distinct and both traversals end. Otherwise it reports the first node, going forward, whose link back is wrong, with its number: by a message and abort if a text is given, else by returning NULL. It accesses memory outside the objects only if a link forward leads there before any wrong link back.", "quantifier": "All memories with finitely many objects and arbitrary links, all heads, with and without a text.", "why_tests_cant": "A corrupt list can have any shape, for instance a circle that does not come back to the head, on which a traversal never ends.", "anchors": ["qtrace-bbv/ccan/list/list.c:list_check", "qtrace-bbv/ccan/list/list.c:list_check_node", "qtrace-bbv/ccan/list/list.c:corrupt"]}
{"id": "C123", "title": "Without enough memory qtrace-bbv stops with status 1 and never shows a wrong table", "statement": "If the system refuses memory to qtrace-bbv at any point, then the program ends with status 1, and what it has printed up to there is the beginning of what it prints with enough memory; if no refusal matters it prints the same and ends in the same way. It never shows an incomplete or a different table.", "quantifier": "All traces, options and signs, and all sequences of answers of the system to requests for memory, with and without -v.", "why_tests_cant": "Each of the many requests can be refused at any moment of a run; tests run with memory for everything.", "anchors": ["qtrace-bbv/qtrace-bbv.c:add_basic_block", "qtrace-bbv/qtrace-bbv.c:initialize", "qtrace-bbv/qtrace-bbv.c:reset_basic_block_vector", "qtrace-bbv/qtrace-bbv.c:do_one_pam", "qtrace-bbv/pam.c:pam_initialise", "qtrace-bbv/pam.c:print_medoids", "qtrace-bbv/pam.c:random_projection", "qtrace-bbv/matrix.c:matrix_create", "qtrace-bbv/matrix.c:matrix_resize"]}
{"id": "C124", "title": "The live tracer uses the page sizes it is told, and only on a machine with such pages", "statement": "The translation of addresses is set up for a process and two page sizes. It goes on exactly if the page map of that process and the flags of the frames can be opened and the machine's page size is the first of the sizes; otherwise the tracer ends with status 1. After that every address belongs to the page number address / size, for both sizes.", "quantifier": "All process numbers, page sizes, addresses, page sizes of the machine and answers of the system.", "why_tests_cant": "The size of a page goes through a bit search on a narrower type; tests run on one machine with one pair of sizes.", "anchors": ["ptracer/pagemap.c:init_pagemaps", "ptracer/pagemap.c:ea_to_pa", "ptracer/main.c:main"]}
{"id": "C125", "title": "Formatted text comes whole, in memory of its size, or not at all", "statement": "asprintf, vasprintf and afmt give the whole formatted text with a terminating zero in new memory of exactly that size, and the first two its length. If the text cannot be made or there is no memory, -1 is returned, by afmt a null pointer. Nothing is stored outside the new memory.", "quantifier": "All texts that a format and its arguments can stand for, including failing conversions, and all answers to the request for memory.", "why_tests_cant": "The size is measured by one call and used by another; the largest texts and lack of memory are not met in tests.", "anchors": ["qtrace-bbv/ccan/asprintf/asprintf.c:afmt", "qtrace-bbv/ccan/asprintf/asprintf.c:vasprintf", "qtrace-bbv/ccan/asprintf/asprintf.c:asprintf"]}
{"id": "C126", "title": "The programs test1 and test2 list the records of a trace", "statement": "test1 and test2 print one line for each record that the reader returns, in order. The lines can be read back: those of test1 give the instruction words, those of test2 the word, the addresses, real addresses and page sizes of instruction and data, and the three branch flags. They end with status 0 if reading ends regularly; for a file that is no trace nothing is printed and the status is not 0. For a trace made by the trace writer the lines show the instructions that were written.", "quantifier": "All files that can be opened and mapped, all traces of the writer within the format (C01).", "why_tests_cant": "Every field has its own format and position; tests compare a few traces with stored lists.", "anchors": ["qtlib/tests/test1.c:main", "qtlib/tests/test2.c:main"]}
{"id": "C127", "title": "Traces joined one behind the other are read as all their records", "statement": "The files of several traces put one behind the other are read to the end as the records of the first, then those of the second, and so on, each with what it tells in its own trace: instructions, addresses, data addresses, branches, real addresses, page sizes and page-table walks; the instruction mix is the sum of those of the traces; and the last record of one trace tells where the next one begins.", "quantifier": "all numbers of traces, all magic numbers, all records the format can express, whatever lies in memory behind the file; violated if a trace ends with the first word of a prefixed instruction (the next header is taken for instructions), if the translation of a later trace is not known (that of an earlier one is reported), and for the jump from one trace to the next (not reported)", "why_tests_cant": "What the reader keeps from one trace when it meets the header of the next depends on which optional fields both have; tests read one trace with one header.", "anchors": ["qtlib/qtreader.c:qtreader_next_record", "qtlib/qtreader.c:parse_header", "qtlib/qtwriter.c:qtwriter_write_header"]}
{"id": "C128", "title": "The instruction mix counts an instruction under a form of what it is", "statement": "An instruction of an entry of the opcode table that is for the processors the statistics know is counted under this entry or under an earlier one of which it also is an instruction and which is a synonym or a special form of the entry; the entry it is counted under also takes its operands, as a disassembler requires, and every kind of instruction can be counted under its name.", "quantifier": "all 3407 entries searched of the main opcode table, all 32-bit instruction words; violated for or, nor, cror and vor, counted as mr, not, crmove and vmr whatever their operands, for branches such as beq, counted as beq-, for mfspr, all of whose instructions are counted as mftb or another entry before it, for mfpvr, counted as mfsprg, and for the other pairs of entries listed, of which the earlier is not a form of the later", "why_tests_cant": "Whether a general entry hides a special one depends on the order and the masks of all pairs of the 2040 entries for these processors, and on all words they have in common; tests count a few instructions.", "anchors": ["qtlib/ppcstats.c:DIALECT", "qtlib/ppc-opc.c:powerpc_opcodes_qt"]}
