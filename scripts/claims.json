{
 "C01": [
  "proved",
  ""
 ],
 "C02": [
  "proved",
  ""
 ],
 "C03": [
  "proved",
  ""
 ],
 "C04": [
  "proved",
  ""
 ],
 "C05": [
  "proved",
  "all nine writer/reader combinations including the dispatching ones on every CPU; out may alias in"
 ],
 "C06": [
  "proved",
  "all nine combinations, every base"
 ],
 "C07": [
  "proved",
  ""
 ],
 "C08": [
  "proved",
  ""
 ],
 "C09": [
  "proved",
  ""
 ],
 "C10": [
  "proved",
  ""
 ],
 "C11": [
  "proved",
  ""
 ],
 "C12": [
  "proved",
  ""
 ],
 "C13": [
  "partial",
  "false of the code as stated: C13_false_* give counterexamples (load past the end of the stream when count % 4 != 0); the *_partial theorems give the exact bounds that do hold, C13_*Scalar_loads the claim for the scalar readers"
 ],
 "C14": [
  "proved",
  ""
 ],
 "C15": [
  "proved",
  ""
 ],
 "C16": [
  "proved",
  ""
 ],
 "C17": [
  "proved",
  "the agreement theorems assume in and out do not overlap (the scalar encoder reads in again after writing)"
 ],
 "C18": [
  "proved",
  ""
 ],
 "C19": [
  "proved",
  ""
 ],
 "C20": [
  "proved",
  ""
 ],
 "C21": [
  "proved",
  ""
 ],
 "C22": [
  "proved",
  ""
 ],
 "C23": [
  "proved",
  ""
 ],
 "C24": [
  "proved",
  ""
 ],
 "C25": [
  "proved",
  ""
 ],
 "C26": [
  "proved",
  "streams, blocks, exchange of streams between CPUs, and absence of stub calls; C26_observable_bad_arguments shows two calls outside the quantifier that tell the CPUs apart"
 ],
 "C27": [
  "proved",
  ""
 ],
 "C28": [
  "proved",
  ""
 ],
 "C29": [
  "proved",
  "interleavings of single memory accesses (byte granular, sequentially consistent); outputs private, inputs and tables shared"
 ],
 "C30": [
  "proved",
  ""
 ],
 "C31": [
  "partial",
  "the overflow part is proved for all four readers, and count = 0 for every path; the no-op part is false of the scalar readers (C31_false_*: ReadAllScalar(-1) writes three numbers) and of the fast ones for the six smallest int64 (C31_*_min); the remaining theorems classify every negative count completely; C31_*_negative_partial gives the outcome for -1, -2, -3, -5, -6 in terms of the format"
 ],
 "C32": [
  "proved",
  ""
 ],
 "C33": [
  "proved",
  "the loop's fuel is len(out)+1 and is never exhausted; the *_result theorems say exactly when the call returns"
 ],
 "C34": [
  "proved",
  ""
 ],
 "C35": [
  "partial",
  "the first half is false of the code: the generators' ranges include the upper limit, so 256, 65536 and 2^24 come out of the 1-, 2- and 3-byte generators (C35_false); C35_length_partial proves these are the only exceptions; the second half (reachability) is proved"
 ],
 "C36": [
  "proved",
  ""
 ],
 "C37": [
  "proved",
  ""
 ],
 "C38": [
  "proved",
  ""
 ],
 "C39": [
  "proved",
  ""
 ],
 "C40": [
  "partial",
  "proved for the scalar readers; false of the fast ones (C40_false_*: stores outside out before the panic); the *_partial theorems show the panic and bound the stores by 32 bytes"
 ],
 "C41": [
  "partial",
  "false of the code in general: the end sentinel is searched from the start of the file, so a code block before the section duplicates text (C41_false), and a benchmark line ending in three backquotes breaks the fixpoint (C41_false_fixpoint); proved for READMEs without an earlier end sentinel (true of the repository's README) and benchmark lines not ending in a fence; C41_ends, C41_written and C41_lines describe the program on every input"
 ],
 "C42": [
  "proved",
  ""
 ],
 "C43": [
  "proved",
  "via a definite-initialisation check over the whole instruction list, lifted by an agreement relation on states"
 ],
 "C44": [
  "proved",
  "avo itself is not modelled; its register choice is checked, its parameter layout is computed from the signature"
 ],
 "C45": [
  "proved",
  "the writers for len(in) < 2^60, beyond which their buffer cannot be allocated"
 ],
 "C46": [
  "proved",
  "stated for the return values of the two calls"
 ],
 "C47": [
  "proved",
  "interference may change any byte outside the tables at any moment, also between two loads of the same address; the writers for len(in) < 2^60"
 ],
 "C48": [
  "proved",
  "readings are per byte; C48_writeDelta_neighbour exhibits an unchanged number that decodes wrongly from a delta stream"
 ],
 "C49": [
  "proved",
  "covers the buffer up to its capacity"
 ],
 "C50": [
  "proved",
  "unconditional for the scalar readers; for the vector readers with unchanging control bytes, and a counterexample (_mixed) without that condition"
 ],
 "C51": [
  "proved",
  "any stream that holds the numbers, also foreign ones; canonicity as a predicate on byte lists"
 ],
 "C52": [
  "proved",
  "positions computed from the control bytes; scalar groups of up to 4 numbers, 8 numbers in every variant, plain and delta"
 ],
 "C53": [
  "proved",
  "plain and delta readers, any two variants; shift property for the delta readers"
 ],
 "C54": [
  "proved",
  "The exact state for the two scalar readers; for the vector readers all complete numbers and a bound of eight further words; C54_fast_leak shows that the further words can hold bytes from behind the stream."
 ],
 "C55": [
  "proved",
  "The texts of the files are part of the model (Model/Sources, compared with /repo by scripts/gen_sources.py check); gofmt and the printer of avo are modelled as far as these files need them."
 ],
 "C56": [
  "proved",
  "Equality of programs (loads, stores, results, panics), so every other theorem carries over to the text. Slices shorter than 2^60 (streams 5*2^60); the bound on rounds of loops is any number large enough."
 ],
 "C57": [
  "partial",
  "false of the code as stated: off amd64 three functions are rejected (C57_full_false, C57_other, C57_other_where, C57_other_why) and small corrections are enough (C57_repaired); C57_partial: the build for amd64 compiles and does not go wrong; C57_sound: for every accepted program. Calls of functions without a Go body require arguments of exactly the declared types, a divisor must be a constant (the checker accepts a little less than Go)."
 ],
 "C58": [
  "proved",
  "C58_tables, C58_encode, C58_decode: the programs, run from their texts with the command lines of the gen.go files, write the checked-in files; C58_tables_run/_fail/_flags: every path, package name and failure of gentables.go; C58_model: the avo programs ask for the instructions of Gen.lean. The register allocation of avo is a parameter (one assignment gives the files); library functions are those of ScriptSem."
 ],
 "C59": [
  "proved",
  "C59_bench: the text of the benchmark tool, with and without -w, for every README, input and way of writing to end, does what rewrite (C41) says; C59_bench_fail: it cannot read; C59_replace: the README of the expected shape; C59_lost: failing while writing loses the old README. C59_rand, C59_gen, C59_reachable: RandUint32 and GenUint32 from their texts (C35). SortUint32 is not covered."
 ],
 "C60": [
  "proved",
  "C60_never_fails: each of the 23 tests, run from the text of its file, for every CPU and every outcome of the random numbers; C60_all_tests: these are all tests; C60_deepEqual_bytes, C60_deepEqual_words, C60_fatal: the comparisons do find differences. The benchmarks of the test files are not covered."
 ],
 "C61": [
  "proved",
  "C61_length, C61_min, C61_one_two, C61_three, C61_four: the README's steps for one number, for all 2^32 numbers; C61_registers: they are what the assembly does to each of the eight numbers. C61_four_lower: one sentence of the README is not exact (both top bits of 4-byte numbers); C61_saturation: what saturation is needed for."
 ],
 "C62": [
  "proved",
  "C62_all_benchmarks: the table lists every benchmark. C62_measures: each, run from its text, ends without panic or failure; it is skipped exactly if it has to be, reports the right number of bytes, and leaves the right result in its variable. For the stream benchmarks the result is stated for the last and largest stream (10^7 numbers)."
 ],
 "C63": [
  "proved",
  "C63_sorts: for every program sort.Slice may be that keeps its documented promise, SortUint32 (run from its text) leaves the same numbers in ascending unsigned order and changes nothing else; C63_result: the result is unique; C63_moves: without the promise it is still a permutation; C63_insertion: the promise can be kept; C63_delta_not_longer: sorting and delta coding never lengthens the stream."
 ],
 "C64": [
  "proved",
  "Both scripts are parsed from their texts and run by the interpreter of Shell.lean. C64_check: generate_and_check.sh for any commands git/sha1sum/make; C64_pass: it succeeds exactly if no tracked file has changed and no listed file appeared or vanished (unless hashes collide); C64_repo: it succeeds on the checked-in files, from the texts of Makefile, gen.go files and generators; C64_stale: it fails on other contents and writes the right ones; what it does not see: C64_untracked, C64_git_broken, C64_not_phony; C64_no_sum. C64_update: update_bench.sh; C64_update_replace: only the benchmark section changes, even if go test fails; C64_update_fail, C64_update_lost, C64_no_temp: the ways it fails."
 ],
 "C65": [
  "proved",
  "C65_same_format: the encoding is Group Varint with the control bytes moved to the front; C65_size: same size, one byte for every four numbers; C65_groupVarint: round trip of that format. README.md:250-287 is modelled in ReadmeCode.lean: C65_decodeOne, C65_decodeOne_panic for every size and slice, C65_program_cap/C65_program/C65_program_roundtrip for every control byte and data, with the same numbers as Get4uint32Scalar; C65_decodeOne_same; C65_decodeOne_differ: on a slice shorter than the number the README's function reads behind the slice and the library's panics. C65_pack, C65_unpack: one shuffle by the row of the table packs and unpacks any four numbers."
 ],
 "C66": [
  "proved",
  "Two runs in step (Proofs/Lock*.lean). C66_read, C66_readDelta: equal traces and endings for two memories that agree on the control bytes, for any data bytes, complete, damaged or cut short, and any prev; out in another block than the stream. C66_write, C66_writeDelta: equal traces and results for inputs whose numbers (differences) have the same byte lengths. C66_get8, C66_get8Delta, C66_put8, C66_put8Delta, C66_get4, C66_put4, C66_put4Delta: the block functions. An example shows that the lengths do show in the trace."
 ],
 "C67": [
  "proved",
  "A caller that goes through the numbers with any mix of the block functions (Model/Client.lean: plan bs with Covers bs n). C67_encode, C67_encodeDelta: the stream of the format; C67_encode_writeAll, C67_encodeDelta_writeAllDelta: same slice and same final memory as WriteAll(Delta), every variant; C67_encode_bounds: no access outside in, tables and buffer. C67_decode, C67_decodeDelta, C67_decode_readAll, C67_decodeDelta_readAllDelta: complete streams, same numbers and final memory as ReadAll(Delta), stream and out not overlapping; the vector decoders may load past the stream (C13). C67_roundtrip, C67_roundtrip_delta: different choices on the two sides."
 ],
 "C68": [
  "proved",
  "C68_write: shifted numbers and prev give the same stream, all variants; C68_write_iff: nothing else does (same number of numbers); C68_prev_matters: another prev gives another stream unless there are no numbers. C68_read: on every stream (also too short ones) a reader started from prev + d delivers every number plus d and panics exactly when the other does; stream and out do not overlap. C68_wrong_prev: written with one prev and read with another, every number is off by the difference. C68_put8, C68_get8: the same for eight numbers."
 ],
 "C69": [
  "proved",
  "C69_refines_put8, _put8Delta, _get8, _get8Delta: for any slices, any layout of the touched bytes at distinct 64-bit addresses and any register contents, the flat machine's memory and result are the model's. C69_put8, C69_put8Delta, C69_get8, C69_get8Delta: the results in terms of the flat machine alone. The buffers, the constants and the arguments are assumed not to overlap."
 ],
 "C70": [
  "proved",
  "C70_sound: every execution of any program of the model on flat memory ends as the model says. C70_runs, C70_runs_block, C70_roundtrip_runs: there are executions, whatever the arguments. C70_write, C70_writeDelta, C70_read, C70_readDelta, C70_roundtrip, C70_roundtrip_delta: the results in terms of bytes and words at addresses. The touched bytes (also those a fast reader reads after the stream) are assumed to lie at distinct addresses off the stack frames; slices that share an allocation are covered, since the layout is arbitrary."
 ],
 "C71": [
  "proved",
  "C71_accesses, C71_accesses_all: the addresses touched on flat memory are the stack and exactly the addresses of the bytes the model touches. C71_write, C71_writeDelta, C71_readScalar, C71_readDeltaScalar, C71_read, C71_readDelta, C71_read_any, C71_readDelta_any, C71_roundtrip, C71_roundtrip_delta: no access faults; C71_away: the bytes after the stream matter only near the end of a page. C71_read_fault: a fast reader does fault on a complete stream at the end of a page. Instruction fetch and the frames Go itself pushes are not modelled."
 ],
 "C72": [
  "proved",
  "C72_perm, C72_mono, C72_sublist, C72_append, C72_change for the plain writers; C72_delta_change, C72_delta_prev, C72_delta_append for the delta writers. All of them relate two or three calls of any writers in any memories. Examples show that the bounds are reached."
 ],
 "C73": [
  "proved",
  "Any overlap: C73_put8Fast, C73_put8DeltaFast, C73_get8Fast, C73_get8DeltaFast, C73_put4, C73_put4Delta, and in place C73_inplace_roundtrip(_delta). Some overlaps: C73_put8Scalar (output not after the numbers), C73_get4Scalar (output not before the bytes). The other scalar functions fail on concrete overlaps: C73_put8Scalar_wrong, C73_put8DeltaScalar_wrong, C73_putDeltaScalar_wrong, C73_getScalar_wrong; so the result of the exported functions depends on the CPU there: C73_depends_on_cpu. Go programs reach this only with unsafe."
 ],
 "C74": [
  "proved",
  "C74_put8_reads/_writes/_memory, C74_put8Delta_*, C74_get8_*, C74_get8Delta_* for every state of the flat machine, without hypotheses; C74_reach_tight; C74_registers_before, C74_upper, C74_registers_kept. The bounds are found by a check of the text that is proved sound for every routine (Proofs/FlatReach)."
 ],
 "C75": [
  "proved",
  "C75_timed: the parsed text of every benchmark has, behind b.ResetTimer(), a loop to b.N around one call, of the function named; C75_all_benchmarks (the same list as in C62), C75_not_redeclared."
 ],
 "C76": [
  "proved",
  "The scalar stream functions transcribed with 32-bit int (Model/Word32.lean). C76_write_same and C76_read_same: equal, access by access, to the 64-bit functions, for inputs up to maxWords32 and counts below 2^31-3; C76_write_overflow, C76_read_overflow: beyond that they panic; C76_write, C76_writeDelta, C76_read, C76_readDelta, C76_across, C76_roundtrip: the format on such a platform. Package util with 32-bit int (Model/Word32Util.lean): C76_util_same, C76_varint_across. The published _base.go files lack the delta stubs (DESIGN.md, finding on other targets), so this is about the functions, not about a build that succeeds."
 ],
 "C77": [
  "proved",
  "Counts single-byte loads and stores, as C45 does. C77_read_impl, C77_read, C77_readDelta, C77_hostile_count: the bound in the room of out, for any stream and count, from invariants of the loops and not from the fuel of the model; C77_putVarint: nine and thirteen per number, both reached; C77_rounds: concurrent calls with private outputs have finished with the right results after Call.turns rounds."
 ],
 "C78": [
  "proved",
  "C78_put, C78_get, C78_delta: package util on any slices, also overlapping ones; C78_raced: the same while others change them; C78_foot: footprint of every block function and every function of util on any arguments; C78_as_if_alone: concurrent calls of all functions (Job), with the number of turns from the sizes. RandUint32, GenUint32 and SortUint32 touch no memory of the caller except SortUint32, which is C63."
 ],
 "C79": [
  "proved",
  "C79_putVarint, C79_putDeltaVarint, C79_getVarint, C79_getDeltaVarint: the result of C32 whenever nothing is overwritten before it is read, with the _inplace corollaries; C79_delta_before; C79_delta_inplace gives the exact result of Delta(in, in) and C79_delta_inplace_right when it is the differences. The _wrong theorems are concrete overlaps where the result is wrong."
 ],
 "C80": [
  "proved",
  "C80_format, C80_length, C80_most: the bytes of a number; C80_decode, C80_shortest: the README's decoder for any width; C80_prefix, C80_injective: sequences; C80_putUvarint, C80_uvarint, C80_uvarint_all, C80_getVarint, C80_getDeltaVarint: the code. putUvarint and uvarint are the two functions of encoding/binary that package util calls."
 ],
 "C81": [
  "proved",
  "C81_little: with little-endian the functions of Model/Endian are those of the rest of the model; C81_streams, C81_put, C81_get, C81_util: with big-endian they do the same with the bytes of every number reversed; C81_write, C81_writeDelta, C81_read, C81_readDelta: result on every machine in terms of the numbers as that machine sees them; C81_portable, C81_portable_delta: written on one machine, read on another. Non-amd64 builds do not compile as published (C57), so on other machines this is about the scalar functions, to which WriteAll and ReadAll would dispatch."
 ],
 "C82": [
  "proved",
  "C82_place: where the bytes of a number are; C82_exchange, C82_exchange_delta: what exchanged numbers change; C82_overwrite: same byte length; C82_patch, C82_patch_delta: overwriting a number inside a stream, then reading."
 ],
 "C83": [
  "proved",
  "C83_differences, C83_differences_all: encoder; C83_sums, C83_sums_all, C83_order: decoder; C83_pack, C83_unpack, C83_unpack_pack: shuffles."
 ],
 "C84": [
  "proved",
  "C84_size: where a stream ends; C84_read: reading all of them; C84_touched: memory touched."
 ],
 "C85": [
  "proved",
  "C85_pieces: every schedule, any pieces; C85_whole: pieces that cover the stream give what the reader gives."
 ],
 "C86": [
  "proved",
  "C86_chunks: every schedule, any chunks; C86_as_one: the bytes WriteAll or WriteAllDelta returns; C86_bad_cut: why chunks must begin at multiples of four."
 ],
 "C87": [
  "proved",
  "C87_extract and C87_extract_delta: any groups of the encoding of any numbers; C87_read: reading the piece; C87_rejoin: cutting and joining."
 ],
 "C88": [
  "proved",
  "C88_append: any stream of any count, any new numbers, any reader and writer."
 ],
 "C89": [
  "proved",
  "C89_replace, C89_replace_delta: the result is the encoding with the new group; C89_larger: a group that does not fit; C89_fast_zeros, C89_fast_spoils: why the vector encoder must not be used."
 ],
 "C90": [
  "proved",
  "C90_seek: the place is found in any decodable stream of sorted numbers; seekAt_unique: there is only one such place; C90_member, C90_written: consequences; C90_unsorted: sortedness is needed."
 ]
}