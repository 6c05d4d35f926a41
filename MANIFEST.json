{
 "claims": [
  {
   "property": "C01",
   "status": "proved",
   "theorems": [
    "SVB.Props.C01_writeAllScalar"
   ],
   "note": ""
  },
  {
   "property": "C02",
   "status": "proved",
   "theorems": [
    "SVB.Props.C02_writeAllFast"
   ],
   "note": ""
  },
  {
   "property": "C03",
   "status": "proved",
   "theorems": [
    "SVB.Props.C03_writeAllDeltaScalar"
   ],
   "note": ""
  },
  {
   "property": "C04",
   "status": "proved",
   "theorems": [
    "SVB.Props.C04_writeAllDeltaFast"
   ],
   "note": ""
  },
  {
   "property": "C05",
   "status": "proved",
   "theorems": [
    "SVB.Props.C05_roundtrip"
   ],
   "note": "all nine writer/reader combinations including the dispatching ones on every CPU; out may alias in"
  },
  {
   "property": "C06",
   "status": "proved",
   "theorems": [
    "SVB.Props.C06_roundtrip_delta"
   ],
   "note": "all nine combinations, every base"
  },
  {
   "property": "C07",
   "status": "proved",
   "theorems": [
    "SVB.Props.C07_readAllScalar",
    "SVB.Props.C07_readAllDeltaScalar"
   ],
   "note": ""
  },
  {
   "property": "C08",
   "status": "proved",
   "theorems": [
    "SVB.Props.C08_readAllFast",
    "SVB.Props.C08_readAllDeltaFast"
   ],
   "note": ""
  },
  {
   "property": "C09",
   "status": "proved",
   "theorems": [
    "SVB.Props.C09_readAllScalar_panic_iff",
    "SVB.Props.C09_readAllDeltaScalar_panic_iff"
   ],
   "note": ""
  },
  {
   "property": "C10",
   "status": "proved",
   "theorems": [
    "SVB.Props.C10_readAllFast_panic_iff",
    "SVB.Props.C10_readAllDeltaFast_panic_iff",
    "SVB.Props.C10_panic_kind",
    "SVB.Props.C10_delta_panic_kind"
   ],
   "note": ""
  },
  {
   "property": "C11",
   "status": "proved",
   "theorems": [
    "SVB.Props.C11_stores",
    "SVB.Props.C11_delta_stores",
    "SVB.Props.C11_frame",
    "SVB.Props.C11_delta_frame"
   ],
   "note": ""
  },
  {
   "property": "C12",
   "status": "proved",
   "theorems": [
    "SVB.Props.C12_readAllScalar",
    "SVB.Props.C12_readAllDeltaScalar",
    "SVB.Props.C12_get4",
    "SVB.Props.C12_get4Delta",
    "SVB.Props.C12_get8",
    "SVB.Props.C12_get8Delta",
    "SVB.Props.C12_getUint32",
    "SVB.Props.C12_getUint32Delta",
    "SVB.Props.C12_put4",
    "SVB.Props.C12_put4Delta",
    "SVB.Props.C12_put8",
    "SVB.Props.C12_put8Delta",
    "SVB.Props.C12_putUint32",
    "SVB.Props.C12_putUint32Delta",
    "SVB.Props.C12_writeAllScalar",
    "SVB.Props.C12_writeAllDeltaScalar"
   ],
   "note": ""
  },
  {
   "property": "C13",
   "status": "partial",
   "theorems": [
    "SVB.Props.C13_false_readAllFast",
    "SVB.Props.C13_false_readAllDeltaFast",
    "SVB.Props.C13_readAllFast_mult4_partial",
    "SVB.Props.C13_readAllDeltaFast_mult4_partial",
    "SVB.Props.C13_readAllFast_partial",
    "SVB.Props.C13_readAllDeltaFast_partial",
    "SVB.Props.C13_readAllFast_any_stream_partial",
    "SVB.Props.C13_readAllDeltaFast_any_stream_partial",
    "SVB.Props.C13_readAllScalar_loads",
    "SVB.Props.C13_readAllDeltaScalar_loads"
   ],
   "note": "false of the code as stated: C13_false_* give counterexamples (load past the end of the stream when count % 4 != 0); the *_partial theorems give the exact bounds that do hold, C13_*Scalar_loads the claim for the scalar readers"
  },
  {
   "property": "C14",
   "status": "proved",
   "theorems": [
    "SVB.Props.C14_read",
    "SVB.Props.C14_readDelta"
   ],
   "note": ""
  },
  {
   "property": "C15",
   "status": "proved",
   "theorems": [
    "SVB.Props.C15_writeAllFast_bounds",
    "SVB.Props.C15_writeAllDeltaFast_bounds"
   ],
   "note": ""
  },
  {
   "property": "C16",
   "status": "proved",
   "theorems": [
    "SVB.Props.C16_reader_loads",
    "SVB.Props.C16_delta_reader_loads"
   ],
   "note": ""
  },
  {
   "property": "C17",
   "status": "proved",
   "theorems": [
    "SVB.Props.C17_put8",
    "SVB.Props.C17_put8Delta",
    "SVB.Props.C17_put8_agree",
    "SVB.Props.C17_put8Delta_agree"
   ],
   "note": "the agreement theorems assume in and out do not overlap (the scalar encoder reads in again after writing)"
  },
  {
   "property": "C18",
   "status": "proved",
   "theorems": [
    "SVB.Props.C18_get8",
    "SVB.Props.C18_get8Delta",
    "SVB.Props.C18_get8_agree",
    "SVB.Props.C18_get8Delta_agree"
   ],
   "note": ""
  },
  {
   "property": "C19",
   "status": "proved",
   "theorems": [
    "SVB.Props.C19_roundtrip8",
    "SVB.Props.C19_roundtrip8Delta",
    "SVB.Props.C19_roundtrip4",
    "SVB.Props.C19_roundtrip4Delta"
   ],
   "note": ""
  },
  {
   "property": "C20",
   "status": "proved",
   "theorems": [
    "SVB.Props.C20_put",
    "SVB.Props.C20_putDelta",
    "SVB.Props.C20_roundtrip",
    "SVB.Props.C20_roundtripDelta",
    "SVB.Props.C20_get",
    "SVB.Props.C20_getDelta"
   ],
   "note": ""
  },
  {
   "property": "C21",
   "status": "proved",
   "theorems": [
    "SVB.Props.C21_put4",
    "SVB.Props.C21_put4Delta",
    "SVB.Props.C21_put8",
    "SVB.Props.C21_put8Delta",
    "SVB.Props.C21_putUint32",
    "SVB.Props.C21_putUint32Delta",
    "SVB.Props.C21_get4",
    "SVB.Props.C21_get4Delta",
    "SVB.Props.C21_get8",
    "SVB.Props.C21_get8Delta",
    "SVB.Props.C21_put8_value",
    "SVB.Props.C21_put8Delta_value",
    "SVB.Props.C21_get8_value",
    "SVB.Props.C21_get8Delta_value"
   ],
   "note": ""
  },
  {
   "property": "C22",
   "status": "proved",
   "theorems": [
    "SVB.Props.C22_write_size",
    "SVB.Props.C22_writeDelta_size"
   ],
   "note": ""
  },
  {
   "property": "C23",
   "status": "proved",
   "theorems": [
    "SVB.Props.C23_minimal",
    "SVB.Props.C23_minimal_delta",
    "SVB.Props.C23_byteLen_least"
   ],
   "note": ""
  },
  {
   "property": "C24",
   "status": "proved",
   "theorems": [
    "SVB.Props.C24_prefix_free",
    "SVB.Props.C24_prefix_free_delta"
   ],
   "note": ""
  },
  {
   "property": "C25",
   "status": "proved",
   "theorems": [
    "SVB.Props.C25_perNumLen",
    "SVB.Props.C25_perControlLen",
    "SVB.Props.C25_encodeShuffle",
    "SVB.Props.C25_decodeShuffle",
    "SVB.Props.C25_numLen_format",
    "SVB.Props.C25_ctrlLen_format",
    "SVB.Props.C25_encShuf_format",
    "SVB.Props.C25_decShuf_format",
    "SVB.Props.C25_rows"
   ],
   "note": ""
  },
  {
   "property": "C26",
   "status": "proved",
   "theorems": [
    "SVB.Props.C26_put8",
    "SVB.Props.C26_put8Delta",
    "SVB.Props.C26_get8",
    "SVB.Props.C26_get8Delta",
    "SVB.Props.C26_no_stub",
    "SVB.Props.C26_writeAll",
    "SVB.Props.C26_writeAllDelta",
    "SVB.Props.C26_readAll",
    "SVB.Props.C26_readAllDelta",
    "SVB.Props.C26_across",
    "SVB.Props.C26_observable_bad_arguments"
   ],
   "note": "streams, blocks, exchange of streams between CPUs, and absence of stub calls; C26_observable_bad_arguments shows two calls outside the quantifier that tell the CPUs apart"
  },
  {
   "property": "C27",
   "status": "proved",
   "theorems": [
    "SVB.Props.C27_concat"
   ],
   "note": ""
  },
  {
   "property": "C28",
   "status": "proved",
   "theorems": [
    "SVB.Props.C28_read_chain",
    "SVB.Props.C28_write_chain"
   ],
   "note": ""
  },
  {
   "property": "C29",
   "status": "proved",
   "theorems": [
    "SVB.Props.C29_as_if_alone",
    "SVB.Props.C29_correct",
    "SVB.Props.C29_private_of_own_blocks"
   ],
   "note": "interleavings of single memory accesses (byte granular, sequentially consistent); outputs private, inputs and tables shared"
  },
  {
   "property": "C30",
   "status": "proved",
   "theorems": [
    "SVB.Props.C30_writers_frame",
    "SVB.Props.C30_delta_writers_frame",
    "SVB.Props.C30_result_fresh",
    "SVB.Props.C30_delta_result_fresh"
   ],
   "note": ""
  },
  {
   "property": "C31",
   "status": "partial",
   "theorems": [
    "SVB.Props.C31_zero",
    "SVB.Props.C31_overflow_readAllScalar",
    "SVB.Props.C31_overflow_readAllDeltaScalar",
    "SVB.Props.C31_overflow_readAllFast",
    "SVB.Props.C31_overflow_readAllDeltaFast",
    "SVB.Props.C31_readAllFast_nonpos",
    "SVB.Props.C31_readAllFast_min",
    "SVB.Props.C31_readAllDeltaFast_nonpos",
    "SVB.Props.C31_readAllDeltaFast_min",
    "SVB.Props.C31_false_readAllScalar",
    "SVB.Props.C31_false_readAllDeltaScalar",
    "SVB.Props.C31_readAllScalar_partial",
    "SVB.Props.C31_readAllDeltaScalar_partial",
    "SVB.Props.C31_readAllScalar_negative_partial",
    "SVB.Props.C31_readAllDeltaScalar_negative_partial"
   ],
   "note": "the overflow part is proved for all four readers, and count = 0 for every path; the no-op part is false of the scalar readers (C31_false_*: ReadAllScalar(-1) writes three numbers) and of the fast ones for the six smallest int64 (C31_*_min); the remaining theorems classify every negative count completely; C31_*_negative_partial gives the outcome for -1, -2, -3, -5, -6 in terms of the format"
  },
  {
   "property": "C32",
   "status": "proved",
   "theorems": [
    "SVB.Props.C32_putVarint",
    "SVB.Props.C32_putDeltaVarint",
    "SVB.Props.C32_room",
    "SVB.Props.C32_getVarint",
    "SVB.Props.C32_getDeltaVarint",
    "SVB.Props.C32_roundtrip",
    "SVB.Props.C32_roundtrip_delta"
   ],
   "note": ""
  },
  {
   "property": "C33",
   "status": "proved",
   "theorems": [
    "SVB.Props.C33_getVarint",
    "SVB.Props.C33_getDeltaVarint",
    "SVB.Props.C33_getVarint_result",
    "SVB.Props.C33_getDeltaVarint_result"
   ],
   "note": "the loop's fuel is len(out)+1 and is never exhausted; the *_result theorems say exactly when the call returns"
  },
  {
   "property": "C34",
   "status": "proved",
   "theorems": [
    "SVB.Props.C34_delta",
    "SVB.Props.C34_write"
   ],
   "note": ""
  },
  {
   "property": "C35",
   "status": "partial",
   "theorems": [
    "SVB.Props.C35_false",
    "SVB.Props.C35_length_partial",
    "SVB.Props.C35_reachable",
    "SVB.Props.C35_gen"
   ],
   "note": "the first half is false of the code: the generators' ranges include the upper limit, so 256, 65536 and 2^24 come out of the 1-, 2- and 3-byte generators (C35_false); C35_length_partial proves these are the only exceptions; the second half (reachability) is proved"
  },
  {
   "property": "C36",
   "status": "proved",
   "theorems": [
    "SVB.Props.C36_extra_bytes",
    "SVB.Props.C36_extra_bytes_delta",
    "SVB.Props.C36_fewer",
    "SVB.Props.C36_fewer_delta"
   ],
   "note": ""
  },
  {
   "property": "C37",
   "status": "proved",
   "theorems": [
    "SVB.Props.C37_size",
    "SVB.Props.C37_sizeTwo"
   ],
   "note": ""
  },
  {
   "property": "C38",
   "status": "proved",
   "theorems": [
    "SVB.Props.C38_read",
    "SVB.Props.C38_readDelta",
    "SVB.Props.C38_get8Fast",
    "SVB.Props.C38_get8DeltaFast",
    "SVB.Props.C38_put8Fast",
    "SVB.Props.C38_put8DeltaFast",
    "SVB.Props.C38_get8",
    "SVB.Props.C38_get8Delta",
    "SVB.Props.C38_put8",
    "SVB.Props.C38_put8Delta",
    "SVB.Props.C38_write"
   ],
   "note": ""
  },
  {
   "property": "C39",
   "status": "proved",
   "theorems": [
    "SVB.Props.C39_sorted_not_longer"
   ],
   "note": ""
  },
  {
   "property": "C40",
   "status": "partial",
   "theorems": [
    "SVB.Props.C40_readAllScalar",
    "SVB.Props.C40_readAllDeltaScalar",
    "SVB.Props.C40_scalar_return",
    "SVB.Props.C40_false_readAllFast",
    "SVB.Props.C40_false_readAllDeltaFast",
    "SVB.Props.C40_readAllFast_partial",
    "SVB.Props.C40_readAllDeltaFast_partial",
    "SVB.Props.C40_fast_footprint"
   ],
   "note": "proved for the scalar readers; false of the fast ones (C40_false_*: stores outside out before the panic); the *_partial theorems show the panic and bound the stores by 32 bytes"
  },
  {
   "property": "C41",
   "status": "partial",
   "theorems": [
    "SVB.Props.C41_replace_partial",
    "SVB.Props.C41_ends",
    "SVB.Props.C41_written",
    "SVB.Props.C41_shape",
    "SVB.Props.C41_twice_partial",
    "SVB.Props.C41_fixpoint_partial",
    "SVB.Props.C41_lines",
    "SVB.Props.C41_scan",
    "SVB.Props.C41_scan_crlf",
    "SVB.Props.C41_false",
    "SVB.Props.C41_false_fixpoint_clean",
    "SVB.Props.C41_false_fixpoint",
    "SVB.Props.C41_exShape"
   ],
   "note": "false of the code in general: the end sentinel is searched from the start of the file, so a code block before the section duplicates text (C41_false), and a benchmark line ending in three backquotes breaks the fixpoint (C41_false_fixpoint); proved for READMEs without an earlier end sentinel (true of the repository's README) and benchmark lines not ending in a fence; C41_ends, C41_written and C41_lines describe the program on every input"
  },
  {
   "property": "C42",
   "status": "proved",
   "theorems": [
    "SVB.Props.C42_encode",
    "SVB.Props.C42_decode",
    "SVB.Props.C42_encode_needs_avx2",
    "SVB.Props.C42_entry_encode",
    "SVB.Props.C42_entry_decode",
    "SVB.Props.C42_fast_used"
   ],
   "note": ""
  },
  {
   "property": "C43",
   "status": "proved",
   "theorems": [
    "SVB.Props.C43_put8uint32Fast",
    "SVB.Props.C43_put8uint32DeltaFast",
    "SVB.Props.C43_get8uint32Fast",
    "SVB.Props.C43_get8uint32DeltaFast"
   ],
   "note": "via a definite-initialisation check over the whole instruction list, lifted by an agreement relation on states"
  },
  {
   "property": "C44",
   "status": "proved",
   "theorems": [
    "SVB.Props.C44_text",
    "SVB.Props.C44_frames",
    "SVB.Props.C44_put8uint32Fast",
    "SVB.Props.C44_put8uint32DeltaFast",
    "SVB.Props.C44_get8uint32Fast",
    "SVB.Props.C44_get8uint32DeltaFast"
   ],
   "note": "avo itself is not modelled; its register choice is checked, its parameter layout is computed from the signature"
  },
  {
   "property": "C45",
   "status": "proved",
   "theorems": [
    "SVB.Props.C45_write",
    "SVB.Props.C45_writeDelta",
    "SVB.Props.C45_read",
    "SVB.Props.C45_readDelta",
    "SVB.Props.C45_read_stream",
    "SVB.Props.C45_readDelta_stream",
    "SVB.Props.C45_small",
    "SVB.Props.C45_eight",
    "SVB.Props.C45_util"
   ],
   "note": "the writers for len(in) < 2^60, beyond which their buffer cannot be allocated"
  },
  {
   "property": "C46",
   "status": "proved",
   "theorems": [
    "SVB.Props.C46_write",
    "SVB.Props.C46_writeDelta"
   ],
   "note": "stated for the return values of the two calls"
  },
  {
   "property": "C47",
   "status": "proved",
   "theorems": [
    "SVB.Props.C47_threads",
    "SVB.Props.C47_turns",
    "SVB.Props.C47_write",
    "SVB.Props.C47_writeDelta",
    "SVB.Props.C47_readAllScalar",
    "SVB.Props.C47_readAllDeltaScalar",
    "SVB.Props.C47_readAllFast",
    "SVB.Props.C47_readAllDeltaFast",
    "SVB.Props.C47_readAll",
    "SVB.Props.C47_put",
    "SVB.Props.C47_get",
    "SVB.Props.C47_asm",
    "SVB.Props.C47_spares"
   ],
   "note": "interference may change any byte outside the tables at any moment, also between two loads of the same address; the writers for len(in) < 2^60"
  },
  {
   "property": "C48",
   "status": "proved",
   "theorems": [
    "SVB.Props.C48_write",
    "SVB.Props.C48_writeDelta",
    "SVB.Props.C48_write_unchanged",
    "SVB.Props.C48_writeDelta_unchanged",
    "SVB.Props.C48_write_threads",
    "SVB.Props.C48_writeDelta_threads",
    "SVB.Props.C48_writeDelta_neighbour"
   ],
   "note": "readings are per byte; C48_writeDelta_neighbour exhibits an unchanged number that decodes wrongly from a delta stream"
  },
  {
   "property": "C49",
   "status": "proved",
   "theorems": [
    "SVB.Props.C49_spare_zero",
    "SVB.Props.C49_spare_zero_delta",
    "SVB.Props.C49_same_effect",
    "SVB.Props.C49_same_effect_delta",
    "SVB.Props.C49_no_leak"
   ],
   "note": "covers the buffer up to its capacity"
  },
  {
   "property": "C50",
   "status": "proved",
   "theorems": [
    "SVB.Props.C50_readScalar",
    "SVB.Props.C50_readDeltaScalar",
    "SVB.Props.C50_read",
    "SVB.Props.C50_readDelta",
    "SVB.Props.C50_read_unchanged",
    "SVB.Props.C50_readDelta_unchanged",
    "SVB.Props.C50_readScalar_threads",
    "SVB.Props.C50_readDeltaScalar_threads",
    "SVB.Props.C50_read_threads",
    "SVB.Props.C50_readDelta_threads",
    "SVB.Props.C50_readFast_mixed",
    "SVB.Props.C50_readDeltaFast_mixed"
   ],
   "note": "unconditional for the scalar readers; for the vector readers with unchanging control bytes, and a counterexample (_mixed) without that condition"
  },
  {
   "property": "C51",
   "status": "proved",
   "theorems": [
    "SVB.Props.C51_reencode",
    "SVB.Props.C51_reencodeDelta"
   ],
   "note": "any stream that holds the numbers, also foreign ones; canonicity as a predicate on byte lists"
  },
  {
   "property": "C52",
   "status": "proved",
   "theorems": [
    "SVB.Props.C52_seek",
    "SVB.Props.C52_group",
    "SVB.Props.C52_groupDelta",
    "SVB.Props.C52_two_groups",
    "SVB.Props.C52_two_groupsDelta"
   ],
   "note": "positions computed from the control bytes; scalar groups of up to 4 numbers, 8 numbers in every variant, plain and delta"
  },
  {
   "property": "C53",
   "status": "proved",
   "theorems": [
    "SVB.Props.C53_number",
    "SVB.Props.C53_delta_prefix",
    "SVB.Props.C53_delta_shift"
   ],
   "note": "plain and delta readers, any two variants; shift property for the delta readers"
  },
  {
   "property": "C54",
   "status": "proved",
   "theorems": [
    "SVB.Props.C54_scalar",
    "SVB.Props.C54_deltaScalar",
    "SVB.Props.C54_fast",
    "SVB.Props.C54_deltaFast",
    "SVB.Props.C54_any",
    "SVB.Props.C54_delta_any",
    "SVB.Props.C54_scalar_example",
    "SVB.Props.C54_deltaScalar_example",
    "SVB.Props.C54_fast_leak"
   ],
   "note": "The exact state for the two scalar readers; for the vector readers all complete numbers and a bound of eight further words; C54_fast_leak shows that the further words can hold bytes from behind the stream."
  },
  {
   "property": "C55",
   "status": "proved",
   "theorems": [
    "SVB.Props.C55_tables_generated",
    "SVB.Props.C55_tables_text",
    "SVB.Props.C55_encode_text",
    "SVB.Props.C55_decode_text",
    "SVB.Props.C55_encode_documented",
    "SVB.Props.C55_decode_documented",
    "SVB.Props.C55_asm_generated",
    "SVB.Props.C55_memory"
   ],
   "note": "The texts of the files are part of the model (Model/Sources, compared with /repo by scripts/gen_sources.py check); gofmt and the printer of avo are modelled as far as these files need them."
  },
  {
   "property": "C56",
   "status": "proved",
   "theorems": [
    "SVB.Props.C56_text",
    "SVB.Props.C56_start",
    "SVB.Props.C56_started",
    "SVB.Props.C56_encode_getMode",
    "SVB.Props.C56_decode_getMode",
    "SVB.Props.C56_controlByteToSize",
    "SVB.Props.C56_controlByteToSizeTwo",
    "SVB.Props.C56_encodeOne",
    "SVB.Props.C56_put4uint32Scalar",
    "SVB.Props.C56_put8uint32Scalar",
    "SVB.Props.C56_putUint32Scalar",
    "SVB.Props.C56_put8uint32Fast",
    "SVB.Props.C56_put8uint32",
    "SVB.Props.C56_put4uint32DeltaScalar",
    "SVB.Props.C56_put8uint32DeltaScalar",
    "SVB.Props.C56_putUint32DeltaScalar",
    "SVB.Props.C56_put8uint32DeltaFast",
    "SVB.Props.C56_put8uint32Delta",
    "SVB.Props.C56_decodeOne",
    "SVB.Props.C56_get4uint32Scalar",
    "SVB.Props.C56_get8uint32Scalar",
    "SVB.Props.C56_getUint32Scalar",
    "SVB.Props.C56_get8uint32Fast",
    "SVB.Props.C56_get8uint32",
    "SVB.Props.C56_get4uint32DeltaScalar",
    "SVB.Props.C56_get8uint32DeltaScalar",
    "SVB.Props.C56_getUint32DeltaScalar",
    "SVB.Props.C56_get8uint32DeltaFast",
    "SVB.Props.C56_get8uint32Delta",
    "SVB.Props.C56_writeAllScalar",
    "SVB.Props.C56_writeAllFast",
    "SVB.Props.C56_writeAll",
    "SVB.Props.C56_writeAllDeltaScalar",
    "SVB.Props.C56_writeAllDeltaFast",
    "SVB.Props.C56_writeAllDelta",
    "SVB.Props.C56_readAllScalar",
    "SVB.Props.C56_readAllFast",
    "SVB.Props.C56_readAll",
    "SVB.Props.C56_readAllDeltaScalar",
    "SVB.Props.C56_readAllDeltaFast",
    "SVB.Props.C56_readAllDelta",
    "SVB.Props.C56_putVarint",
    "SVB.Props.C56_getVarint",
    "SVB.Props.C56_putDeltaVarint",
    "SVB.Props.C56_getDeltaVarint",
    "SVB.Props.C56_delta",
    "SVB.Props.C56_roundtrip",
    "SVB.Props.C56_roundtrip_delta"
   ],
   "note": "Equality of programs (loads, stores, results, panics), so every other theorem carries over to the text. Slices shorter than 2^60 (streams 5*2^60); the bound on rounds of loops is any number large enough."
  },
  {
   "property": "C57",
   "status": "partial",
   "theorems": [
    "SVB.Props.C57_amd64",
    "SVB.Props.C57_other",
    "SVB.Props.C57_full_false",
    "SVB.Props.C57_other_where",
    "SVB.Props.C57_other_why",
    "SVB.Props.C57_repaired",
    "SVB.Props.C57_sound",
    "SVB.Props.C57_library",
    "SVB.Props.C57_partial"
   ],
   "note": "false of the code as stated: off amd64 three functions are rejected (C57_full_false, C57_other, C57_other_where, C57_other_why) and small corrections are enough (C57_repaired); C57_partial: the build for amd64 compiles and does not go wrong; C57_sound: for every accepted program. Calls of functions without a Go body require arguments of exactly the declared types, a divisor must be a constant (the checker accepts a little less than Go)."
  },
  {
   "property": "C58",
   "status": "proved",
   "theorems": [
    "SVB.Props.C58_commands",
    "SVB.Props.C58_tables_run",
    "SVB.Props.C58_tables_fail",
    "SVB.Props.C58_tables_flags",
    "SVB.Props.C58_tables",
    "SVB.Props.C58_encode",
    "SVB.Props.C58_decode",
    "SVB.Props.C58_model"
   ],
   "note": "C58_tables, C58_encode, C58_decode: the programs, run from their texts with the command lines of the gen.go files, write the checked-in files; C58_tables_run/_fail/_flags: every path, package name and failure of gentables.go; C58_model: the avo programs ask for the instructions of Gen.lean. The register allocation of avo is a parameter (one assignment gives the files); library functions are those of ScriptSem."
  },
  {
   "property": "C59",
   "status": "proved",
   "theorems": [
    "SVB.Props.C59_bench",
    "SVB.Props.C59_bench_fail",
    "SVB.Props.C59_sentinels",
    "SVB.Props.C59_flags",
    "SVB.Props.C59_replace",
    "SVB.Props.C59_lost",
    "SVB.Props.C59_rand",
    "SVB.Props.C59_gen",
    "SVB.Props.C59_reachable"
   ],
   "note": "C59_bench: the text of the benchmark tool, with and without -w, for every README, input and way of writing to end, does what rewrite (C41) says; C59_bench_fail: it cannot read; C59_replace: the README of the expected shape; C59_lost: failing while writing loses the old README. C59_rand, C59_gen, C59_reachable: RandUint32 and GenUint32 from their texts (C35). SortUint32 is not covered."
  },
  {
   "property": "C60",
   "status": "proved",
   "theorems": [
    "SVB.Props.C60_all_tests",
    "SVB.Props.C60_never_fails",
    "SVB.Props.C60_deepEqual_bytes",
    "SVB.Props.C60_deepEqual_words",
    "SVB.Props.C60_fatal"
   ],
   "note": "C60_never_fails: each of the 23 tests, run from the text of its file, for every CPU and every outcome of the random numbers; C60_all_tests: these are all tests; C60_deepEqual_bytes, C60_deepEqual_words, C60_fatal: the comparisons do find differences. The benchmarks of the test files are not covered."
  },
  {
   "property": "C61",
   "status": "proved",
   "theorems": [
    "SVB.Props.C61_min",
    "SVB.Props.C61_length",
    "SVB.Props.C61_three",
    "SVB.Props.C61_one_two",
    "SVB.Props.C61_four",
    "SVB.Props.C61_four_lower",
    "SVB.Props.C61_saturation",
    "SVB.Props.C61_where",
    "SVB.Props.C61_registers"
   ],
   "note": "C61_length, C61_min, C61_one_two, C61_three, C61_four: the README's steps for one number, for all 2^32 numbers; C61_registers: they are what the assembly does to each of the eight numbers. C61_four_lower: one sentence of the README is not exact (both top bits of 4-byte numbers); C61_saturation: what saturation is needed for."
  },
  {
   "property": "C62",
   "status": "proved",
   "theorems": [
    "SVB.Props.C62_all_benchmarks",
    "SVB.Props.C62_measures"
   ],
   "note": "C62_all_benchmarks: the table lists every benchmark. C62_measures: each, run from its text, ends without panic or failure; it is skipped exactly if it has to be, reports the right number of bytes, and leaves the right result in its variable. For the stream benchmarks the result is stated for the last and largest stream (10^7 numbers)."
  },
  {
   "property": "C63",
   "status": "proved",
   "theorems": [
    "SVB.Props.C63_sorts",
    "SVB.Props.C63_result",
    "SVB.Props.C63_moves",
    "SVB.Props.C63_insertion",
    "SVB.Props.C63_delta_not_longer"
   ],
   "note": "C63_sorts: for every program sort.Slice may be that keeps its documented promise, SortUint32 (run from its text) leaves the same numbers in ascending unsigned order and changes nothing else; C63_result: the result is unique; C63_moves: without the promise it is still a permutation; C63_insertion: the promise can be kept; C63_delta_not_longer: sorting and delta coding never lengthens the stream."
  },
  {
   "property": "C64",
   "status": "proved",
   "theorems": [
    "SVB.Props.C64_check",
    "SVB.Props.C64_no_sum",
    "SVB.Props.C64_git_broken",
    "SVB.Props.C64_pass",
    "SVB.Props.C64_untracked",
    "SVB.Props.C64_repo",
    "SVB.Props.C64_stale",
    "SVB.Props.C64_not_phony",
    "SVB.Props.C64_update",
    "SVB.Props.C64_update_replace",
    "SVB.Props.C64_update_fail",
    "SVB.Props.C64_update_lost",
    "SVB.Props.C64_no_temp"
   ],
   "note": "Both scripts are parsed from their texts and run by the interpreter of Shell.lean. C64_check: generate_and_check.sh for any commands git/sha1sum/make; C64_pass: it succeeds exactly if no tracked file has changed and no listed file appeared or vanished (unless hashes collide); C64_repo: it succeeds on the checked-in files, from the texts of Makefile, gen.go files and generators; C64_stale: it fails on other contents and writes the right ones; what it does not see: C64_untracked, C64_git_broken, C64_not_phony; C64_no_sum. C64_update: update_bench.sh; C64_update_replace: only the benchmark section changes, even if go test fails; C64_update_fail, C64_update_lost, C64_no_temp: the ways it fails."
  },
  {
   "property": "C65",
   "status": "proved",
   "theorems": [
    "SVB.Props.C65_same_format",
    "SVB.Props.C65_size",
    "SVB.Props.C65_groupVarint",
    "SVB.Props.C65_decodeOne",
    "SVB.Props.C65_decodeOne_panic",
    "SVB.Props.C65_decodeOne_same",
    "SVB.Props.C65_program_cap",
    "SVB.Props.C65_program",
    "SVB.Props.C65_program_roundtrip",
    "SVB.Props.C65_pack",
    "SVB.Props.C65_unpack",
    "SVB.Props.C65_decodeOne_differ"
   ],
   "note": "C65_same_format: the encoding is Group Varint with the control bytes moved to the front; C65_size: same size, one byte for every four numbers; C65_groupVarint: round trip of that format. README.md:250-287 is modelled in ReadmeCode.lean: C65_decodeOne, C65_decodeOne_panic for every size and slice, C65_program_cap/C65_program/C65_program_roundtrip for every control byte and data, with the same numbers as Get4uint32Scalar; C65_decodeOne_same; C65_decodeOne_differ: on a slice shorter than the number the README's function reads behind the slice and the library's panics. C65_pack, C65_unpack: one shuffle by the row of the table packs and unpacks any four numbers."
  },
  {
   "property": "C66",
   "status": "proved",
   "theorems": [
    "SVB.Props.C66_read",
    "SVB.Props.C66_readDelta",
    "SVB.Props.C66_write",
    "SVB.Props.C66_writeDelta",
    "SVB.Props.C66_get8",
    "SVB.Props.C66_get8Delta",
    "SVB.Props.C66_put8",
    "SVB.Props.C66_put8Delta",
    "SVB.Props.C66_get4",
    "SVB.Props.C66_put4",
    "SVB.Props.C66_put4Delta"
   ],
   "note": "Two runs in step (Proofs/Lock*.lean). C66_read, C66_readDelta: equal traces and endings for two memories that agree on the control bytes, for any data bytes, complete, damaged or cut short, and any prev; out in another block than the stream. C66_write, C66_writeDelta: equal traces and results for inputs whose numbers (differences) have the same byte lengths. C66_get8, C66_get8Delta, C66_put8, C66_put8Delta, C66_get4, C66_put4, C66_put4Delta: the block functions. An example shows that the lengths do show in the trace."
  },
  {
   "property": "C67",
   "status": "proved",
   "theorems": [
    "SVB.Props.C67_encode",
    "SVB.Props.C67_encode_writeAll",
    "SVB.Props.C67_encodeDelta",
    "SVB.Props.C67_encodeDelta_writeAllDelta",
    "SVB.Props.C67_encode_bounds",
    "SVB.Props.C67_decode",
    "SVB.Props.C67_decode_readAll",
    "SVB.Props.C67_decodeDelta",
    "SVB.Props.C67_decodeDelta_readAllDelta",
    "SVB.Props.C67_roundtrip",
    "SVB.Props.C67_roundtrip_delta"
   ],
   "note": "A caller that goes through the numbers with any mix of the block functions (Model/Client.lean: plan bs with Covers bs n). C67_encode, C67_encodeDelta: the stream of the format; C67_encode_writeAll, C67_encodeDelta_writeAllDelta: same slice and same final memory as WriteAll(Delta), every variant; C67_encode_bounds: no access outside in, tables and buffer. C67_decode, C67_decodeDelta, C67_decode_readAll, C67_decodeDelta_readAllDelta: complete streams, same numbers and final memory as ReadAll(Delta), stream and out not overlapping; the vector decoders may load past the stream (C13). C67_roundtrip, C67_roundtrip_delta: different choices on the two sides."
  },
  {
   "property": "C68",
   "status": "proved",
   "theorems": [
    "SVB.Props.C68_write",
    "SVB.Props.C68_write_iff",
    "SVB.Props.C68_prev_matters",
    "SVB.Props.C68_read",
    "SVB.Props.C68_wrong_prev",
    "SVB.Props.C68_put8",
    "SVB.Props.C68_get8"
   ],
   "note": "C68_write: shifted numbers and prev give the same stream, all variants; C68_write_iff: nothing else does (same number of numbers); C68_prev_matters: another prev gives another stream unless there are no numbers. C68_read: on every stream (also too short ones) a reader started from prev + d delivers every number plus d and panics exactly when the other does; stream and out do not overlap. C68_wrong_prev: written with one prev and read with another, every number is off by the difference. C68_put8, C68_get8: the same for eight numbers."
  },
  {
   "property": "C69",
   "status": "proved",
   "theorems": [
    "SVB.Props.C69_refines_put8",
    "SVB.Props.C69_refines_put8Delta",
    "SVB.Props.C69_refines_get8",
    "SVB.Props.C69_refines_get8Delta",
    "SVB.Props.C69_put8",
    "SVB.Props.C69_put8Delta",
    "SVB.Props.C69_get8",
    "SVB.Props.C69_get8Delta"
   ],
   "note": "C69_refines_put8, _put8Delta, _get8, _get8Delta: for any slices, any layout of the touched bytes at distinct 64-bit addresses and any register contents, the flat machine's memory and result are the model's. C69_put8, C69_put8Delta, C69_get8, C69_get8Delta: the results in terms of the flat machine alone. The buffers, the constants and the arguments are assumed not to overlap."
  },
  {
   "property": "C70",
   "status": "proved",
   "theorems": [
    "SVB.Props.C70_sound",
    "SVB.Props.C70_runs",
    "SVB.Props.C70_runs_block",
    "SVB.Props.C70_write",
    "SVB.Props.C70_writeDelta",
    "SVB.Props.C70_read",
    "SVB.Props.C70_readDelta",
    "SVB.Props.C70_roundtrip",
    "SVB.Props.C70_roundtrip_delta",
    "SVB.Props.C70_roundtrip_runs"
   ],
   "note": "C70_sound: every execution of any program of the model on flat memory ends as the model says. C70_runs, C70_runs_block, C70_roundtrip_runs: there are executions, whatever the arguments. C70_write, C70_writeDelta, C70_read, C70_readDelta, C70_roundtrip, C70_roundtrip_delta: the results in terms of bytes and words at addresses. The touched bytes (also those a fast reader reads after the stream) are assumed to lie at distinct addresses off the stack frames; slices that share an allocation are covered, since the layout is arbitrary."
  },
  {
   "property": "C71",
   "status": "proved",
   "theorems": [
    "SVB.Props.C71_accesses",
    "SVB.Props.C71_accesses_all",
    "SVB.Props.C71_write",
    "SVB.Props.C71_writeDelta",
    "SVB.Props.C71_readScalar",
    "SVB.Props.C71_readDeltaScalar",
    "SVB.Props.C71_away",
    "SVB.Props.C71_read",
    "SVB.Props.C71_read_any",
    "SVB.Props.C71_readDelta",
    "SVB.Props.C71_readDelta_any",
    "SVB.Props.C71_roundtrip",
    "SVB.Props.C71_roundtrip_delta",
    "SVB.Props.C71_read_fault"
   ],
   "note": "C71_accesses, C71_accesses_all: the addresses touched on flat memory are the stack and exactly the addresses of the bytes the model touches. C71_write, C71_writeDelta, C71_readScalar, C71_readDeltaScalar, C71_read, C71_readDelta, C71_read_any, C71_readDelta_any, C71_roundtrip, C71_roundtrip_delta: no access faults; C71_away: the bytes after the stream matter only near the end of a page. C71_read_fault: a fast reader does fault on a complete stream at the end of a page. Instruction fetch and the frames Go itself pushes are not modelled."
  },
  {
   "property": "C72",
   "status": "proved",
   "theorems": [
    "SVB.Props.C72_perm",
    "SVB.Props.C72_mono",
    "SVB.Props.C72_sublist",
    "SVB.Props.C72_append",
    "SVB.Props.C72_change",
    "SVB.Props.C72_delta_change",
    "SVB.Props.C72_delta_prev",
    "SVB.Props.C72_delta_append"
   ],
   "note": "C72_perm, C72_mono, C72_sublist, C72_append, C72_change for the plain writers; C72_delta_change, C72_delta_prev, C72_delta_append for the delta writers. All of them relate two or three calls of any writers in any memories. Examples show that the bounds are reached."
  },
  {
   "property": "C73",
   "status": "proved",
   "theorems": [
    "SVB.Props.C73_put8Fast",
    "SVB.Props.C73_put8DeltaFast",
    "SVB.Props.C73_get8Fast",
    "SVB.Props.C73_get8DeltaFast",
    "SVB.Props.C73_put4",
    "SVB.Props.C73_put4Delta",
    "SVB.Props.C73_inplace_roundtrip",
    "SVB.Props.C73_inplace_roundtrip_delta",
    "SVB.Props.C73_put8Scalar",
    "SVB.Props.C73_get4Scalar",
    "SVB.Props.C73_put8Scalar_wrong",
    "SVB.Props.C73_put8DeltaScalar_wrong",
    "SVB.Props.C73_putDeltaScalar_wrong",
    "SVB.Props.C73_getScalar_wrong",
    "SVB.Props.C73_depends_on_cpu"
   ],
   "note": "Any overlap: C73_put8Fast, C73_put8DeltaFast, C73_get8Fast, C73_get8DeltaFast, C73_put4, C73_put4Delta, and in place C73_inplace_roundtrip(_delta). Some overlaps: C73_put8Scalar (output not after the numbers), C73_get4Scalar (output not before the bytes). The other scalar functions fail on concrete overlaps: C73_put8Scalar_wrong, C73_put8DeltaScalar_wrong, C73_putDeltaScalar_wrong, C73_getScalar_wrong; so the result of the exported functions depends on the CPU there: C73_depends_on_cpu. Go programs reach this only with unsafe."
  },
  {
   "property": "C74",
   "status": "proved",
   "theorems": [
    "SVB.Props.C74_put8_reads",
    "SVB.Props.C74_put8_writes",
    "SVB.Props.C74_put8Delta_reads",
    "SVB.Props.C74_put8Delta_writes",
    "SVB.Props.C74_get8_reads",
    "SVB.Props.C74_get8_writes",
    "SVB.Props.C74_get8Delta_reads",
    "SVB.Props.C74_get8Delta_writes",
    "SVB.Props.C74_put8_memory",
    "SVB.Props.C74_put8Delta_memory",
    "SVB.Props.C74_get8_memory",
    "SVB.Props.C74_get8Delta_memory",
    "SVB.Props.C74_reach_tight",
    "SVB.Props.C74_registers_before",
    "SVB.Props.C74_upper",
    "SVB.Props.C74_registers_kept"
   ],
   "note": "C74_put8_reads/_writes/_memory, C74_put8Delta_*, C74_get8_*, C74_get8Delta_* for every state of the flat machine, without hypotheses; C74_reach_tight; C74_registers_before, C74_upper, C74_registers_kept. The bounds are found by a check of the text that is proved sound for every routine (Proofs/FlatReach)."
  },
  {
   "property": "C75",
   "status": "proved",
   "theorems": [
    "SVB.Props.C75_timed",
    "SVB.Props.C75_all_benchmarks",
    "SVB.Props.C75_not_redeclared"
   ],
   "note": "C75_timed: the parsed text of every benchmark has, behind b.ResetTimer(), a loop to b.N around one call, of the function named; C75_all_benchmarks (the same list as in C62), C75_not_redeclared."
  },
  {
   "property": "C76",
   "status": "proved",
   "theorems": [
    "SVB.Props.C76_maxWords32",
    "SVB.Props.C76_write_same",
    "SVB.Props.C76_write",
    "SVB.Props.C76_writeDelta",
    "SVB.Props.C76_write_overflow",
    "SVB.Props.C76_read_same",
    "SVB.Props.C76_read_overflow",
    "SVB.Props.C76_read",
    "SVB.Props.C76_readDelta",
    "SVB.Props.C76_across",
    "SVB.Props.C76_roundtrip",
    "SVB.Props.C76_util_same",
    "SVB.Props.C76_varint_across"
   ],
   "note": "The scalar stream functions transcribed with 32-bit int (Model/Word32.lean). C76_write_same and C76_read_same: equal, access by access, to the 64-bit functions, for inputs up to maxWords32 and counts below 2^31-3; C76_write_overflow, C76_read_overflow: beyond that they panic; C76_write, C76_writeDelta, C76_read, C76_readDelta, C76_across, C76_roundtrip: the format on such a platform. Package util with 32-bit int (Model/Word32Util.lean): C76_util_same, C76_varint_across. The published _base.go files lack the delta stubs (DESIGN.md, finding on other targets), so this is about the functions, not about a build that succeeds."
  },
  {
   "property": "C77",
   "status": "proved",
   "theorems": [
    "SVB.Props.C77_read_impl",
    "SVB.Props.C77_read",
    "SVB.Props.C77_readDelta",
    "SVB.Props.C77_hostile_count",
    "SVB.Props.C77_putVarint",
    "SVB.Props.C77_rounds"
   ],
   "note": "Counts single-byte loads and stores, as C45 does. C77_read_impl, C77_read, C77_readDelta, C77_hostile_count: the bound in the room of out, for any stream and count, from invariants of the loops and not from the fuel of the model; C77_putVarint: nine and thirteen per number, both reached; C77_rounds: concurrent calls with private outputs have finished with the right results after Call.turns rounds."
  },
  {
   "property": "C78",
   "status": "proved",
   "theorems": [
    "SVB.Props.C78_put",
    "SVB.Props.C78_get",
    "SVB.Props.C78_delta",
    "SVB.Props.C78_raced",
    "SVB.Props.C78_foot",
    "SVB.Props.C78_as_if_alone"
   ],
   "note": "C78_put, C78_get, C78_delta: package util on any slices, also overlapping ones; C78_raced: the same while others change them; C78_foot: footprint of every block function and every function of util on any arguments; C78_as_if_alone: concurrent calls of all functions (Job), with the number of turns from the sizes. RandUint32, GenUint32 and SortUint32 touch no memory of the caller except SortUint32, which is C63."
  },
  {
   "property": "C79",
   "status": "proved",
   "theorems": [
    "SVB.Props.C79_putVarint",
    "SVB.Props.C79_putDeltaVarint",
    "SVB.Props.C79_putVarint_inplace",
    "SVB.Props.C79_putDeltaVarint_inplace",
    "SVB.Props.C79_putVarint_inplace_wrong",
    "SVB.Props.C79_putDeltaVarint_inplace_wrong",
    "SVB.Props.C79_getVarint",
    "SVB.Props.C79_getDeltaVarint",
    "SVB.Props.C79_getVarint_inplace",
    "SVB.Props.C79_getDeltaVarint_inplace",
    "SVB.Props.C79_getVarint_inplace_wrong",
    "SVB.Props.C79_delta_before",
    "SVB.Props.C79_delta_inplace",
    "SVB.Props.C79_delta_inplace_right",
    "SVB.Props.C79_delta_after_wrong"
   ],
   "note": "C79_putVarint, C79_putDeltaVarint, C79_getVarint, C79_getDeltaVarint: the result of C32 whenever nothing is overwritten before it is read, with the _inplace corollaries; C79_delta_before; C79_delta_inplace gives the exact result of Delta(in, in) and C79_delta_inplace_right when it is the differences. The _wrong theorems are concrete overlaps where the result is wrong."
  },
  {
   "property": "C80",
   "status": "proved",
   "theorems": [
    "SVB.Props.C80_format",
    "SVB.Props.C80_length",
    "SVB.Props.C80_most",
    "SVB.Props.C80_decode",
    "SVB.Props.C80_shortest",
    "SVB.Props.C80_prefix",
    "SVB.Props.C80_injective",
    "SVB.Props.C80_putUvarint",
    "SVB.Props.C80_uvarint",
    "SVB.Props.C80_uvarint_all",
    "SVB.Props.C80_getVarint",
    "SVB.Props.C80_getDeltaVarint"
   ],
   "note": "C80_format, C80_length, C80_most: the bytes of a number; C80_decode, C80_shortest: the README's decoder for any width; C80_prefix, C80_injective: sequences; C80_putUvarint, C80_uvarint, C80_uvarint_all, C80_getVarint, C80_getDeltaVarint: the code. putUvarint and uvarint are the two functions of encoding/binary that package util calls."
  },
  {
   "property": "C81",
   "status": "proved",
   "theorems": [
    "SVB.Props.C81_little",
    "SVB.Props.C81_streams",
    "SVB.Props.C81_put",
    "SVB.Props.C81_get",
    "SVB.Props.C81_util",
    "SVB.Props.C81_write",
    "SVB.Props.C81_writeDelta",
    "SVB.Props.C81_read",
    "SVB.Props.C81_readDelta",
    "SVB.Props.C81_portable",
    "SVB.Props.C81_portable_delta"
   ],
   "note": "C81_little: with little-endian the functions of Model/Endian are those of the rest of the model; C81_streams, C81_put, C81_get, C81_util: with big-endian they do the same with the bytes of every number reversed; C81_write, C81_writeDelta, C81_read, C81_readDelta: result on every machine in terms of the numbers as that machine sees them; C81_portable, C81_portable_delta: written on one machine, read on another. Non-amd64 builds do not compile as published (C57), so on other machines this is about the scalar functions, to which WriteAll and ReadAll would dispatch."
  },
  {
   "property": "C82",
   "status": "proved",
   "theorems": [
    "SVB.Props.C82_place",
    "SVB.Props.C82_exchange",
    "SVB.Props.C82_exchange_delta",
    "SVB.Props.C82_overwrite",
    "SVB.Props.C82_patch",
    "SVB.Props.C82_patch_delta"
   ],
   "note": "C82_place: where the bytes of a number are; C82_exchange, C82_exchange_delta: what exchanged numbers change; C82_overwrite: same byte length; C82_patch, C82_patch_delta: overwriting a number inside a stream, then reading."
  },
  {
   "property": "C83",
   "status": "proved",
   "theorems": [
    "SVB.Props.C83_differences",
    "SVB.Props.C83_differences_all",
    "SVB.Props.C83_sums",
    "SVB.Props.C83_sums_second",
    "SVB.Props.C83_sums_all",
    "SVB.Props.C83_order",
    "SVB.Props.C83_pack",
    "SVB.Props.C83_unpack",
    "SVB.Props.C83_unpack_pack"
   ],
   "note": "C83_differences, C83_differences_all: encoder; C83_sums, C83_sums_all, C83_order: decoder; C83_pack, C83_unpack, C83_unpack_pack: shuffles."
  },
  {
   "property": "C84",
   "status": "proved",
   "theorems": [
    "SVB.Props.C84_size",
    "SVB.Props.C84_read",
    "SVB.Props.C84_touched"
   ],
   "note": "C84_size: where a stream ends; C84_read: reading all of them; C84_touched: memory touched."
  },
  {
   "property": "C85",
   "status": "proved",
   "theorems": [
    "SVB.Props.C85_pieces",
    "SVB.Props.C85_whole"
   ],
   "note": "C85_pieces: every schedule, any pieces; C85_whole: pieces that cover the stream give what the reader gives."
  },
  {
   "property": "C86",
   "status": "proved",
   "theorems": [
    "SVB.Props.C86_chunks",
    "SVB.Props.C86_as_one",
    "SVB.Props.C86_bad_cut"
   ],
   "note": "C86_chunks: every schedule, any chunks; C86_as_one: the bytes WriteAll or WriteAllDelta returns; C86_bad_cut: why chunks must begin at multiples of four."
  },
  {
   "property": "C87",
   "status": "proved",
   "theorems": [
    "SVB.Props.C87_extract",
    "SVB.Props.C87_extract_delta",
    "SVB.Props.C87_read",
    "SVB.Props.C87_read_delta",
    "SVB.Props.C87_rejoin"
   ],
   "note": "C87_extract and C87_extract_delta: any groups of the encoding of any numbers; C87_read: reading the piece; C87_rejoin: cutting and joining."
  },
  {
   "property": "C88",
   "status": "proved",
   "theorems": [
    "SVB.Props.C88_append",
    "SVB.Props.C88_append_delta"
   ],
   "note": "C88_append: any stream of any count, any new numbers, any reader and writer."
  },
  {
   "property": "C89",
   "status": "proved",
   "theorems": [
    "SVB.Props.C89_replace",
    "SVB.Props.C89_larger",
    "SVB.Props.C89_replace_delta",
    "SVB.Props.C89_fast_zeros",
    "SVB.Props.C89_fast_zeros_delta",
    "SVB.Props.C89_fast_spoils"
   ],
   "note": "C89_replace, C89_replace_delta: the result is the encoding with the new group; C89_larger: a group that does not fit; C89_fast_zeros, C89_fast_spoils: why the vector encoder must not be used."
  },
  {
   "property": "C90",
   "status": "proved",
   "theorems": [
    "SVB.Props.C90_seek",
    "SVB.Props.C90_member",
    "SVB.Props.C90_written",
    "SVB.Props.C90_unsorted"
   ],
   "note": "C90_seek: the place is found in any decodable stream of sorted numbers; seekAt_unique: there is only one such place; C90_member, C90_written: consequences; C90_unsorted: sortedness is needed."
  }
 ]
}