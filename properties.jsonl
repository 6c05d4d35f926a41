{"id": "C01", "title": "WriteAllScalar emits exactly the Stream VByte format", "statement": "WriteAllScalar(in) never panics and returns ceil(n/4) control bytes followed by the minimal little-endian bytes of every number in order, where the two bits 2*(i%4) of control byte i/4 are (byte length of in[i]) - 1 and unused control bits are 0.", "quantifier": "every input slice of every length and content", "why_tests_cant": "unbounded lengths and 2^32 values per element; tests sample a handful of random arrays", "anchors": ["pkg/stream/writer/writer.go:WriteAllScalar", "pkg/encode/encode.go:Put4uint32Scalar", "pkg/encode/encode.go:PutUint32Scalar", "pkg/encode/encode.go:encodeOne"]}
{"id": "C02", "title": "WriteAllFast emits exactly the Stream VByte format", "statement": "WriteAllFast(in) (AVX2 assembly path) never panics and returns byte for byte the stream defined in C01.", "quantifier": "every input slice of every length and content", "why_tests_cant": "the 32/8/1-group loop boundaries and the 16-byte overlapping stores interact with every combination of lengths; only a proof covers all", "anchors": ["pkg/stream/writer/writer_amd64.go:WriteAllFast", "pkg/encode/encode_amd64.s:Put8uint32FastAsm"]}
{"id": "C03", "title": "WriteAllDeltaScalar encodes successive differences modulo 2^32", "statement": "WriteAllDeltaScalar(in, prev) never panics and returns the C01 stream of in[0]-prev, in[1]-in[0], in[2]-in[1], ... (mod 2^32), sorted or not.", "quantifier": "every input slice and every prev", "why_tests_cant": "prev must be threaded correctly across every 16/4/tail boundary for all lengths", "anchors": ["pkg/stream/writer/writer.go:WriteAllDeltaScalar", "pkg/encode/encode.go:Put4uint32DeltaScalar", "pkg/encode/encode.go:PutUint32DeltaScalar"]}
{"id": "C04", "title": "WriteAllDeltaFast encodes successive differences modulo 2^32", "statement": "WriteAllDeltaFast(in, prev) never panics and returns the same stream as defined in C03.", "quantifier": "every input slice and every prev", "why_tests_cant": "as C03, on the assembly path", "anchors": ["pkg/stream/writer/writer_amd64.go:WriteAllDeltaFast", "pkg/encode/encode_amd64.s:Put8uint32DeltaFastAsm"]}
{"id": "C05", "title": "Round trip of plain streams for every writer/reader pair", "statement": "For W in {WriteAll, WriteAllScalar, WriteAllFast} and R in {ReadAll, ReadAllScalar, ReadAllFast}: after s := W(in); R(len(in), s, out) with len(out) >= len(in), out[:len(in)] equals in and nothing panics.", "quantifier": "every input slice, every writer/reader combination, every CPU mode", "why_tests_cant": "unbounded inputs", "anchors": ["pkg/stream/writer/writer.go", "pkg/stream/writer/writer_amd64.go", "pkg/stream/reader/reader.go", "pkg/stream/reader/reader_amd64.go"]}
{"id": "C06", "title": "Round trip of delta streams for every writer/reader pair", "statement": "For every delta writer/reader pair, reading the stream written with base prev using the same prev gives back the input, including unsorted inputs (differences wrap) and any prev.", "quantifier": "every input slice, every prev, every combination", "why_tests_cant": "unbounded inputs; tests use only sorted input and prev = 0", "anchors": ["pkg/stream/writer/writer.go", "pkg/stream/writer/writer_amd64.go", "pkg/stream/reader/reader.go", "pkg/stream/reader/reader_amd64.go"]}
{"id": "C07", "title": "Scalar readers decode every well-sized stream", "statement": "For every byte stream (not only those a writer produced) holding at least the bytes its control section implies for count numbers, ReadAllScalar/ReadAllDeltaScalar do not panic and put in out[i] the little-endian value of the i-th variable-length field (resp. prev plus the sum of fields 0..i mod 2^32).", "quantifier": "every count >= 0, every stream with enough bytes, every out with len >= count", "why_tests_cant": "streams come from disk or other implementations; non-minimal encodings are legal", "anchors": ["pkg/stream/reader/reader.go", "pkg/decode/decode.go"]}
{"id": "C08", "title": "Fast readers decode every well-sized stream", "statement": "As C07 for ReadAllFast and ReadAllDeltaFast.", "quantifier": "every count >= 0, every stream with enough bytes, every out with len >= count", "why_tests_cant": "as C07 on the assembly path", "anchors": ["pkg/stream/reader/reader_amd64.go", "pkg/decode/decode_amd64.s"]}
{"id": "C09", "title": "Scalar readers detect truncation exactly", "statement": "With len(out) >= count, ReadAllScalar/ReadAllDeltaScalar panic if and only if len(stream) is smaller than ceil(count/4) plus the sum of the lengths announced by the control bytes.", "quantifier": "every count >= 0, every stream, every out with len >= count", "why_tests_cant": "all truncation points of all streams", "anchors": ["pkg/stream/reader/reader.go", "pkg/decode/decode.go"]}
{"id": "C10", "title": "Fast readers detect truncation exactly", "statement": "With len(out) >= count, ReadAllFast/ReadAllDeltaFast panic exactly when the scalar readers do, although the assembly itself performs no bounds check.", "quantifier": "every count >= 0, every stream, every out with len >= count", "why_tests_cant": "all truncation points of all streams", "anchors": ["pkg/stream/reader/reader_amd64.go", "pkg/decode/decode_amd64.s"]}
{"id": "C11", "title": "Readers write only out[0:count]", "statement": "With len(out) >= count every reader, whether it returns or panics, writes nothing outside out[0:count]: not the stream, not the rest of out, not the lookup tables.", "quantifier": "every count >= 0, every stream, every out with len >= count", "why_tests_cant": "absence of stray writes is a statement about all addresses and all inputs", "anchors": ["pkg/stream/reader/reader.go", "pkg/stream/reader/reader_amd64.go", "pkg/decode/decode.go", "pkg/decode/decode_amd64.s"]}
{"id": "C12", "title": "Scalar code never leaves its slices", "statement": "For any arguments whatsoever (any lengths, capacities, counts, controls), the scalar readers, writers and block functions read and write only bytes inside the capacity of the slices they were given, the fresh result buffer and the lookup tables, and they stop either normally or with one of Go's bounds panics.", "quantifier": "every argument combination, including undersized slices and negative counts", "why_tests_cant": "memory safety over all argument combinations", "anchors": ["pkg/stream/reader/reader.go", "pkg/stream/writer/writer.go", "pkg/encode/encode.go", "pkg/decode/decode.go"]}
{"id": "C13", "title": "Fast readers load only bytes of the stream", "statement": "On a stream with enough bytes ReadAllFast/ReadAllDeltaFast never load a byte at or beyond stream[len(stream)] (the comment on lowest32 claims exactly this).", "quantifier": "every count >= 0 and every stream with enough bytes", "why_tests_cant": "an over-read of a few bytes is invisible to tests unless the slice ends at an unmapped page", "anchors": ["pkg/stream/reader/reader_amd64.go:ReadAllFast", "pkg/stream/reader/reader_amd64.go:ReadAllDeltaFast", "pkg/decode/decode_amd64.s"]}
{"id": "C14", "title": "Fast readers' results do not depend on memory beyond the stream", "statement": "The content of out after ReadAllFast/ReadAllDeltaFast is determined by the first ceil(count/4)+data bytes of the stream alone; any other memory may be changed without changing the result.", "quantifier": "every count, stream and pair of memories agreeing on the stream", "why_tests_cant": "non-interference over all memory contents", "anchors": ["pkg/stream/reader/reader_amd64.go", "pkg/decode/decode_amd64.s"]}
{"id": "C15", "title": "Fast writers' vector loads and stores stay in bounds", "statement": "During WriteAllFast/WriteAllDeltaFast every 16-byte load lies inside in[0:len(in)] and every 16-byte store lies inside the buffer the function allocated.", "quantifier": "every input slice", "why_tests_cant": "overlapping over-long stores near the end of the buffer depend on all lengths of all earlier numbers", "anchors": ["pkg/stream/writer/writer_amd64.go", "pkg/encode/encode_amd64.s"]}
{"id": "C16", "title": "A stream returned by a writer is safe to read with the fast reader", "statement": "Every fast reader call on a stream returned by any of the writers (with the matching count) loads only bytes inside the writer's allocation.", "quantifier": "every input slice, every writer, every reader", "why_tests_cant": "needs the interaction of slack capacity and over-read for all inputs", "anchors": ["pkg/stream/writer/writer_amd64.go", "pkg/stream/reader/reader_amd64.go"]}
{"id": "C17", "title": "Put8uint32Fast and Put8uint32DeltaFast agree with the scalar block encoders", "statement": "With 8 readable inputs and 32 writable output bytes the fast block encoders return the same 16-bit control and the same first ControlByteToSizeTwo(ctrl) bytes as the scalar ones, and write at most output bytes 0..31.", "quantifier": "all 2^256 inputs, all prev, all prior output contents", "why_tests_cant": "2^256 inputs", "anchors": ["pkg/encode/encode_amd64.s", "pkg/encode/encode.go:Put8uint32Scalar", "pkg/encode/encode.go:Put8uint32DeltaScalar"]}
{"id": "C18", "title": "Get8uint32Fast and Get8uint32DeltaFast agree with the scalar block decoders", "statement": "With 32 readable input bytes and 8 writable outputs the fast block decoders leave the same 8 numbers in out as the scalar ones for every control value and write nothing else.", "quantifier": "all 2^16 controls, all input bytes, all prev", "why_tests_cant": "2^16 * 2^256 inputs", "anchors": ["pkg/decode/decode_amd64.s", "pkg/decode/decode.go:Get8uint32Scalar", "pkg/decode/decode.go:Get8uint32DeltaScalar"]}
{"id": "C19", "title": "Block round trip", "statement": "Get8uint32*(out, ctrl) after ctrl := Put8uint32*(in, out) returns in for every scalar/fast combination, plain and delta (same prev); likewise Put4uint32Scalar/Get4uint32Scalar and the delta variants.", "quantifier": "all inputs, all prev, all combinations", "why_tests_cant": "2^256 inputs", "anchors": ["pkg/encode/encode.go", "pkg/decode/decode.go", "pkg/encode/encode_amd64.s", "pkg/decode/decode_amd64.s"]}
{"id": "C20", "title": "Partial group encode/decode", "statement": "PutUint32Scalar(in,out,count) encodes exactly min(count,4) numbers (none for count <= 0), control bits beyond them being 0; ControlByteToSize(ctrl)-(4-count) is the number of bytes written; GetUint32Scalar with the same count returns that byte count and the numbers; likewise for the delta variants.", "quantifier": "every count, all inputs, all prev", "why_tests_cant": "all values and counts", "anchors": ["pkg/encode/encode.go:PutUint32Scalar", "pkg/encode/encode.go:PutUint32DeltaScalar", "pkg/decode/decode.go:GetUint32Scalar", "pkg/decode/decode.go:GetUint32DeltaScalar", "pkg/shared/gen.go"]}
{"id": "C21", "title": "Block encoders panic exactly when a slice is too short", "statement": "Put4uint32Scalar/Put8uint32Scalar (and delta) panic iff in has fewer than 4/8 elements or out has fewer bytes than the encoding needs; Get4uint32Scalar/Get8uint32Scalar (and delta) panic iff in has fewer bytes than the control announces or out fewer than 4/8 elements.", "quantifier": "all slices, all lengths, all controls", "why_tests_cant": "all lengths times all values", "anchors": ["pkg/encode/encode.go", "pkg/decode/decode.go"]}
{"id": "C22", "title": "Encoded size formula and bounds", "statement": "len(WriteAll*(in)) = ceil(n/4) + sum of byte lengths of the encoded numbers, hence between ceil(n/4)+n and ceil(n/4)+4n; the result's capacity is ceil(n/4)+4n.", "quantifier": "every input", "why_tests_cant": "unbounded inputs", "anchors": ["pkg/stream/writer/writer.go", "pkg/stream/writer/writer_amd64.go"]}
{"id": "C23", "title": "Encoding is minimal and canonical", "statement": "Each number takes the fewest of 1..4 bytes that can hold it, and of all streams that decode to the same numbers the writers' output is the shortest, and it is the only one of that length whose unused control bits are zero.", "quantifier": "every input and every competing stream", "why_tests_cant": "ranges over all streams", "anchors": ["pkg/encode/encode.go:encodeOne", "pkg/stream/writer/writer.go"]}
{"id": "C24", "title": "Encodings are injective and prefix-free at a fixed count", "statement": "For inputs of equal length, WriteAll*(a) is a prefix of WriteAll*(b) only if a = b.", "quantifier": "every pair of inputs of equal length", "why_tests_cant": "pairs of unbounded inputs", "anchors": ["pkg/stream/writer/writer.go", "pkg/stream/writer/writer_amd64.go"]}
{"id": "C25", "title": "Lookup tables equal their generator", "statement": "The four tables in tables.go hold, for each of the 256 control bytes, exactly what gentables computes, and in bytewise terms: per-number lengths, their sum, the compressing shuffle and the expanding shuffle.", "quantifier": "all 256 control bytes and all 16 lanes", "why_tests_cant": "finite, but no unit test checks the tables; a wrong entry is hit with probability 1/256 per block", "anchors": ["pkg/shared/tables.go", "pkg/shared/main/gentables.go"]}
{"id": "C26", "title": "CPU-feature dispatch is unobservable", "statement": "WriteAll/WriteAllDelta/ReadAll/ReadAllDelta/Put8uint32/Get8uint32 give the same results on every CPU (no AVX, AVX only, AVX+AVX2, non-amd64) and never reach the panic(\"unreachable\") stubs; streams written on one machine read back on any other. (Outside the stated arguments the CPU can be told: a negative count, or a block slice that is too short.)", "quantifier": "every combination of CPU features, every input; for the readers every stream, well-formed or not, and counts 0 <= count <= len(out); for the block functions slices with room for eight numbers of four bytes", "why_tests_cant": "tests run on one CPU", "anchors": ["pkg/encode/encode_amd64.go:GetMode", "pkg/decode/decode_amd64.go:GetMode", "pkg/stream/writer/writer.go", "pkg/stream/reader/reader.go", "pkg/encode/encode_base.go", "pkg/decode/decode_base.go"]}
{"id": "C27", "title": "Concatenation at group boundaries", "statement": "If len(a) is a multiple of 4 then the control section of WriteAll*(a++b) is that of a followed by that of b, and the data section is that of a followed by that of b.", "quantifier": "every pair of inputs with len(a) % 4 = 0", "why_tests_cant": "unbounded inputs", "anchors": ["pkg/stream/writer/writer.go", "pkg/stream/writer/writer_amd64.go"]}
{"id": "C28", "title": "Delta batches chain through prev", "statement": "Encoding a then b with prev = last element of a (prev itself when a is empty) gives the sections of the encoding of a++b (len(a) % 4 = 0), and decoding in batches threads prev the same way.", "quantifier": "every pair of inputs with len(a) % 4 = 0, every prev", "why_tests_cant": "unbounded inputs", "anchors": ["pkg/stream/writer/writer.go", "pkg/stream/writer/writer_amd64.go", "pkg/stream/reader/reader.go", "pkg/stream/reader/reader_amd64.go"]}
{"id": "C29", "title": "Concurrent calls with private outputs do not interfere", "statement": "Any number of goroutines running readers/writers concurrently on shared read-only inputs and tables, each with its own output buffer, under every interleaving of their memory accesses finish with the result each would have alone.", "quantifier": "every interleaving of any number of concurrent calls", "why_tests_cant": "schedules", "anchors": ["pkg/stream/writer/writer.go", "pkg/stream/writer/writer_amd64.go", "pkg/stream/reader/reader.go", "pkg/stream/reader/reader_amd64.go"]}
{"id": "C30", "title": "Writers leave their input and all other memory unchanged", "statement": "WriteAll* only writes to the buffer it allocated.", "quantifier": "every input and memory", "why_tests_cant": "absence of writes at all other addresses", "anchors": ["pkg/stream/writer/writer.go", "pkg/stream/writer/writer_amd64.go"]}
{"id": "C31", "title": "Non-positive and overflowing counts are handled uniformly", "statement": "ReadAll*(count, ...) with count <= 0 is a no-op on every path, and a count so large that the header arithmetic overflows int64 panics.", "quantifier": "every int64 count", "why_tests_cant": "2^64 counts; boundaries at overflow", "anchors": ["pkg/stream/reader/reader.go", "pkg/stream/reader/reader_amd64.go"]}
{"id": "C32", "title": "Varint helpers round trip", "statement": "GetVarint after PutVarint (and GetDeltaVarint after PutDeltaVarint with the same prev) returns the numbers, with equal written and read byte counts.", "quantifier": "every input, every prev, sorted or not", "why_tests_cant": "unbounded inputs", "anchors": ["pkg/util/varint.go"]}
{"id": "C33", "title": "Varint decoding terminates on every input", "statement": "GetVarint and GetDeltaVarint return or panic after at most len(out)+1 iterations for every byte string, including truncated and overlong varints for which the position does not advance or moves backwards.", "quantifier": "every byte string and every out", "why_tests_cant": "non-termination over all malformed inputs", "anchors": ["pkg/util/varint.go"]}
{"id": "C34", "title": "util.Delta agrees with the delta writers", "statement": "For in and out that do not overlap, Delta writes in[0], in[1]-in[0], ... and WriteAll*(Delta(in)) = WriteAllDelta*(in, 0).", "quantifier": "every input", "why_tests_cant": "unbounded inputs", "anchors": ["pkg/util/util.go:Delta", "pkg/stream/writer/writer.go", "pkg/stream/writer/writer_amd64.go"]}
{"id": "C35", "title": "RandUint32 generates numbers of the chosen byte length", "statement": "As documented: each of the four generators only yields numbers whose encoded length is the chosen one, and every number of that length can be produced.", "quantifier": "every outcome of the random source", "why_tests_cant": "the boundary values have probability 2^-8 .. 2^-32", "anchors": ["pkg/util/rand.go"]}
{"id": "C36", "title": "Extra stream bytes and shorter counts", "statement": "Bytes after the announced end of a stream never change the result, and reading with a smaller count n' with ceil(n'/4) = ceil(n/4) yields the first n' numbers.", "quantifier": "every stream, every suffix, every such pair of counts", "why_tests_cant": "unbounded", "anchors": ["pkg/stream/reader/reader.go", "pkg/stream/reader/reader_amd64.go"]}
{"id": "C37", "title": "ControlByteToSize and ControlByteToSizeTwo are the announced lengths", "statement": "ControlByteToSize(c) is the sum of the four announced lengths (4..16) and ControlByteToSizeTwo(c) the sum over both bytes (8..32); its uint8 addition never overflows.", "quantifier": "all 2^8 / 2^16 controls", "why_tests_cant": "uint8 overflow is silent", "anchors": ["pkg/shared/gen.go", "pkg/shared/tables.go"]}
{"id": "C38", "title": "Explicit panics and faults are unreachable", "statement": "No call of a reader or block decoder reaches panic(\"impossible\"), and the assembly never uses a non-pointer as an address or an undefined argument slot.", "quantifier": "every argument", "why_tests_cant": "reachability over all inputs", "anchors": ["pkg/decode/decode.go:decodeOne", "pkg/decode/decode_amd64.s", "pkg/encode/encode_amd64.s"]}
{"id": "C39", "title": "Delta coding of sorted input never grows the stream", "statement": "If in is non-decreasing and in[0] >= prev then len(WriteAllDelta*(in, prev)) <= len(WriteAll*(in)).", "quantifier": "every sorted input, every prev", "why_tests_cant": "unbounded inputs", "anchors": ["pkg/stream/writer/writer.go", "pkg/stream/writer/writer_amd64.go", "pkg/encode/encode.go"]}
{"id": "C40", "title": "Undersized output slices", "statement": "With len(out) = cap(out) < count the scalar readers panic without touching memory outside out; the fast readers are expected to do so too.", "quantifier": "every stream, every count, every undersized out", "why_tests_cant": "memory corruption is silent in tests", "anchors": ["pkg/stream/reader/reader.go", "pkg/stream/reader/reader_amd64.go", "pkg/decode/decode_amd64.s"]}
{"id": "C41", "title": "Benchmark README rewriting is a fixpoint", "statement": "parse_and_write_bench replaces exactly the text between the benchmark sentinels, and applying it twice with the same benchmark output gives the same README.", "quantifier": "every README content and every benchmark output", "why_tests_cant": "ranges over all file contents", "anchors": ["tools/parse_and_write_bench.go"]}
{"id": "C42", "title": "Selected assembly runs on the CPU it was selected for", "statement": "Whenever encode.GetMode (decode.GetMode) answers Fast, every instruction of the encoders' (decoders') assembly belongs to an instruction-set extension the CPU reports, so no call raises an invalid-opcode fault; the AVX2 test in encode.GetMode is necessary.", "quantifier": "every combination of CPU features and target, every instruction of the four assembly functions", "why_tests_cant": "tests run on one CPU, normally one with AVX2", "anchors": ["pkg/encode/encode_amd64.go:GetMode", "pkg/decode/decode_amd64.go:GetMode", "pkg/encode/encode_amd64.s", "pkg/decode/decode_amd64.s"]}
{"id": "C43", "title": "Assembly does not depend on leftover register contents", "statement": "Put8uint32FastAsm, Put8uint32DeltaFastAsm, Get8uint32FastAsm and Get8uint32DeltaFastAsm make the same memory accesses and return the same result whatever the general purpose registers, the vector registers and the result slots of the frame held when they were called.", "quantifier": "every entry state of all registers, every argument", "why_tests_cant": "a test runs with whatever the registers happen to hold", "anchors": ["pkg/encode/encode_amd64.s", "pkg/decode/decode_amd64.s"]}
{"id": "C44", "title": "The checked-in assembly is what the generators produce", "statement": "The generator programs in pkg/encode/main and pkg/decode/main, which emit instructions over virtual registers, describe the checked-in routines: up to register names they emit the same instructions; the parameter offsets and frame sizes follow from the Go signatures; and the register choice in the .s files loses no value, so that running the generators' program with a separate register for each virtual one makes exactly the accesses of the checked-in routine and returns its result.", "quantifier": "all arguments, all memories, all entry states of the registers, all four routines", "why_tests_cant": "the generator's output is only ever run after register allocation; a stale or hand-edited .s file passes the tests that existed when it was made", "anchors": ["pkg/encode/main/asm.go", "pkg/decode/main/asm.go", "pkg/shared/asm.go", "pkg/encode/encode_amd64.s", "pkg/decode/decode_amd64.s"]}
{"id": "C45", "title": "Work is linear", "statement": "The number of memory accesses of a writer is at most 56 per group of four numbers plus four per number; that of a reader is at most 58 per group of four announced numbers plus 33, and also at most 58*len(stream)+33 however large the announced count; block functions make a constant number, the varint helpers and Delta at most a constant number per number. The contents of slices and streams make no difference.", "quantifier": "every input, every stream content, every 64-bit count, every slice length and capacity", "why_tests_cant": "worst case over all hostile streams and counts", "anchors": ["pkg/stream/reader/reader.go", "pkg/stream/reader/reader_amd64.go", "pkg/stream/writer/writer.go", "pkg/stream/writer/writer_amd64.go", "pkg/util/util.go", "pkg/util/varint.go"]}
{"id": "C46", "title": "Sizes of the two formats compared", "statement": "For the same numbers (differences), the stream returned by WriteAll (WriteAllDelta) is at most ceil(n/4) bytes longer than what PutVarint (PutDeltaVarint) writes, and PutVarint writes at most n bytes more than the data part of the stream.", "quantifier": "every input sequence, every variant of the writer", "why_tests_cant": "worst case over all inputs", "anchors": ["pkg/stream/writer/writer.go:WriteAllScalar", "pkg/stream/writer/writer_amd64.go:WriteAllFast", "pkg/util/varint.go:PutVarint", "pkg/util/varint.go:PutDeltaVarint"]}
{"id": "C47", "title": "Arguments changed by other goroutines", "statement": "While a call runs, other goroutines may change the contents of its arguments at any moment. Still: writers never panic, load only the numbers and the tables, store only into their own new buffer, and return a slice of it of ceil(n/4)+n to ceil(n/4)+4n bytes; scalar readers and block functions stay inside the capacities of their arguments, ReadAllFast and ReadAllDeltaFast within 32 bytes after them, and can only end normally or with a bounds panic; the assembly touches only 32 bytes of each argument; all calls end after the number of accesses of C45.", "quantifier": "every argument, every interference with everything except the package tables, any number of goroutines, every schedule", "why_tests_cant": "the number of interleavings is astronomical and the race window is a few instructions", "anchors": ["pkg/stream/reader/reader.go", "pkg/stream/reader/reader_amd64.go", "pkg/stream/writer/writer.go", "pkg/stream/writer/writer_amd64.go", "pkg/encode/encode.go", "pkg/decode/decode.go", "pkg/encode/encode_amd64.s", "pkg/decode/decode_amd64.s"]}
{"id": "C48", "title": "Streams written from an input that changes", "statement": "If other goroutines change the input of a writer while it runs, WriteAll still returns a well-formed stream: the encoding of n numbers, each byte of each of which was at its place in the input at some moment of the call; numbers that nobody changes are encoded exactly. WriteAllDelta returns the encoding of n differences, each between such readings of a number and of its predecessor (prev for the first); a difference between two numbers that nobody changes is exact. (A number that nobody changes can nevertheless decode wrongly from a delta stream when its predecessor changes between the two loads of it.)", "quantifier": "every input, every variant of the writer, every number of goroutines that leave the tables and the new buffer alone, every schedule", "why_tests_cant": "the number of interleavings is astronomical and the race window is a few instructions", "anchors": ["pkg/stream/writer/writer.go", "pkg/stream/writer/writer_amd64.go", "pkg/encode/encode.go", "pkg/encode/encode_amd64.s"]}
{"id": "C49", "title": "Spare capacity of a returned stream is zero", "statement": "The bytes between length and capacity of a stream returned by any writer are zero, although the vector code stores 16 bytes for every group of four numbers; so the scalar, vector and dispatching writers have exactly the same effect (same slice, same memory), and reslicing the result up to its capacity shows nothing but the encoding and zeros, whatever was in the memory before.", "quantifier": "every input, every prev, every variant, every previous content of the allocated memory", "why_tests_cant": "tests compare the stream only up to its length, on one CPU", "anchors": ["pkg/stream/writer/writer.go", "pkg/stream/writer/writer_amd64.go", "pkg/encode/encode_amd64.s", "pkg/shared/tables.go"]}
{"id": "C50", "title": "Streams that change while they are read", "statement": "If other goroutines change the stream while a reader runs (out is in another allocation and nobody else touches it), ReadAllScalar and ReadAllDeltaScalar either panic with a bounds panic or leave in out the decoding of one stream, each byte of which was at its place at some moment of the call: no byte of the stream is read twice with different meaning. The dispatching and vector readers do the same as long as the control bytes do not change; then numbers whose own bytes do not change are delivered exactly (for the delta readers: when none of the differences up to them changes). When control bytes change, the vector readers can deliver numbers that no stream with the bytes seen decodes to.", "quantifier": "every stream, count and output, every reader, every number of goroutines that leave the tables and the output alone, every schedule; a concrete schedule for the last sentence; stream and output in different allocations", "why_tests_cant": "the number of interleavings is astronomical and the race window is a few instructions", "anchors": ["pkg/stream/reader/reader.go", "pkg/stream/reader/reader_amd64.go", "pkg/decode/decode.go", "pkg/decode/decode_amd64.s"]}
{"id": "C51", "title": "Decoding and re-encoding gives the canonical stream", "statement": "Reading count numbers from any stream that holds them (also one no writer of this package produced, with longer fields than needed or with garbage in unused control codes) and writing the result again, with any reader and any writer variant, gives a stream that decodes to the same numbers, is at most as long as the part of the old stream that was used, and is canonical: every field is as short as possible and the unused codes of the last control byte are zero. Its bytes equal those of the old one exactly if the old one was already canonical. The same for the delta readers and writers with one common prev.", "quantifier": "every stream that is long enough for the count, every count, every prev, every pair of reader and writer variants on every CPU", "why_tests_cant": "the tests only re-read streams this package wrote; foreign streams are never encoded again", "anchors": ["pkg/stream/reader/reader.go", "pkg/stream/writer/writer.go", "pkg/stream/reader/reader_amd64.go", "pkg/stream/writer/writer_amd64.go"]}
{"id": "C52", "title": "Single groups of a stream can be read without the rest", "statement": "The data of group k begins at the number of control bytes plus the ControlByteToSize values of the control bytes before k. GetUint32Scalar applied to the stream from there with control byte k delivers numbers 4k .. 4k+c-1 of the whole stream and returns the number of bytes of these; Get8uint32 (every variant) with the two control bytes k, k+1 delivers numbers 4k .. 4k+7; the delta variants do the same when given the number before the group as prev.", "quantifier": "every stream that holds n numbers, every n, group k, count c up to 4, output and prev, every variant and CPU", "why_tests_cant": "tests decode single groups from buffers of their own, never at a computed place in a long stream", "anchors": ["pkg/decode/decode.go", "pkg/decode/decode_amd64.go", "pkg/shared/gen.go"]}
{"id": "C53", "title": "A damaged byte changes only its number", "statement": "Take two streams that both hold n numbers. Number j comes out the same from both, with any two readers, if the control bytes up to its own agree and the data bytes of number j agree, whatever differs in other data bytes or later control bytes. For the delta readers number j comes out the same if this holds for all differences up to j, and damage before number i only shifts what follows: if the differences i+1 .. j agree then the distances from number i to number j are the same.", "quantifier": "every pair of streams, every n, i, j, every pair of reader variants, every pair of bases", "why_tests_cant": "it is about all ways to damage a stream; the tests only read intact streams", "anchors": ["pkg/stream/reader/reader.go", "pkg/stream/reader/reader_amd64.go", "pkg/decode/decode.go", "pkg/decode/decode_amd64.s"]}
{"id": "C54", "title": "What is in out after a reader has panicked on a truncated stream", "statement": "Let c be the number of numbers whose bytes lie completely inside a stream that is too short for the count, as given by its control bytes (0 if the control bytes themselves are cut). When the reader has panicked: ReadAllDeltaScalar has stored exactly these c numbers and changed nothing else; ReadAllScalar has stored exactly the numbers of the complete groups of four (and in the last, shorter group exactly the complete numbers); ReadAllFast and ReadAllDeltaFast have stored these c numbers, and have changed nothing beyond the eight words that follow them. So whatever the CPU the numbers of all complete groups are in out and memory further than eight words behind the last complete number is as before. The words between can hold bytes from behind the stream after ReadAllFast.", "quantifier": "every truncated stream, count, output slice and prev, all reader variants on every CPU", "why_tests_cant": "no test looks at the output after a panic, and what is left there depends on where the stream is cut, on the group structure and on the order of stores", "anchors": ["pkg/stream/reader/reader.go", "pkg/stream/reader/reader_amd64.go", "pkg/decode/decode.go"]}
{"id": "C55", "title": "The generated files are what the generators print, and mean what the library uses", "statement": "Line by line, pkg/shared/tables.go is the text that gentables.go writes for package shared, and encode_amd64.s and decode_amd64.s are the texts the avo programs print for one choice of registers. Read as Go and as assembler, these texts declare exactly the four tables (names, dimensions, contents), the two 16-bit constants and the four functions (names, frame sizes, instructions, one RET) that the library uses; memory holds what the texts declare if and only if the tables and constants have the contents assumed everywhere else. Every name+offset(FP) in the assembly is the offset that Go gives to this parameter of the signature; the signature is the one declared (once, without body) in the Go files, and the Requires comments name exactly the instruction-set extensions the instructions belong to.", "quantifier": "every line of the generated files; every memory", "why_tests_cant": "tests run the checked-in files and cannot tell that they are out of date with the generators, that a table row never used by a test is wrong, or that an offset or name comment does not fit the signature", "anchors": ["pkg/shared/tables.go", "pkg/shared/main/gentables.go", "pkg/encode/encode_amd64.s", "pkg/decode/decode_amd64.s", "pkg/encode/main/asm.go", "pkg/decode/main/asm.go", "pkg/encode/encode_amd64.go", "pkg/decode/decode_amd64.go"]}
{"id": "C56", "title": "What the Go files say is what the model says", "statement": "Each hand-written Go file of pkg/shared, pkg/encode, pkg/decode, pkg/stream/writer, pkg/stream/reader and pkg/util (varint.go, util.go), read as text, is a Go file of a small fragment of Go. The files whose build constraint fits the machine form a program; its init functions run to the end and choose the implementations; and calling any of its functions, as the text defines it, does exactly what is proved about it elsewhere: the same loads and stores in the same order, the same results, the same panics, for every argument. In particular WriteAll followed by ReadAll, and WriteAllDelta followed by ReadAllDelta, as the texts define them, return the numbers.", "quantifier": "every function of these packages, every argument (slices of realistic size, any count that is an int), every memory, every CPU and build", "why_tests_cant": "tests run the code on samples; that a formal model is the meaning of the source text for all inputs is a statement about the text itself", "anchors": ["pkg/shared/gen.go", "pkg/shared/mode.go", "pkg/encode/encode.go", "pkg/encode/encode_amd64.go", "pkg/encode/encode_base.go", "pkg/decode/decode.go", "pkg/decode/decode_amd64.go", "pkg/decode/decode_base.go", "pkg/stream/writer/writer.go", "pkg/stream/writer/writer_amd64.go", "pkg/stream/writer/writer_base.go", "pkg/stream/reader/reader.go", "pkg/stream/reader/reader_amd64.go", "pkg/stream/reader/reader_base.go", "pkg/util/varint.go", "pkg/util/util.go"]}
{"id": "C57", "title": "Every build compiles, and what compiles does not go wrong", "statement": "For every target the files of pkg/shared, pkg/encode, pkg/decode, pkg/stream/writer and pkg/stream/reader that belong to the build form packages the Go compiler accepts (all names declared, types of operands, arguments, results and assigned functions as required, no missing return, no unused variable or import, no import cycle). In a program that is accepted, a call of a function with arguments of the declared types never meets a missing name, an operand of a wrong type, a wrong number of values or a missing return: it returns values of the declared types or ends with a Go run-time panic.", "quantifier": "every target, every file of the packages; for the second part every accepted program of the fragment, every function, argument and memory", "why_tests_cant": "tests are run on one target only, and a build that is never made fails unnoticed; that no accepted program goes wrong is a statement about all programs", "anchors": ["pkg/encode/encode_base.go", "pkg/decode/decode_base.go", "pkg/decode/decode.go", "pkg/stream/writer/writer.go", "pkg/stream/writer/writer_base.go", "pkg/stream/reader/reader.go", "pkg/stream/reader/reader_base.go"]}
{"id": "C58", "title": "go generate reproduces the generated files", "statement": "The text of gentables.go, run with the command line in pkg/shared/gen.go, writes one file, pkg/shared/tables.go, byte for byte as checked in, prints nothing and ends with status 0. With any other path and package name it writes the same tables for that package there; without a path, or if the file cannot be created, it ends with status 1 and writes nothing; if writing fails after k bytes it ends with status 1; an unknown flag gives status 2. The texts of the two asm.go programs, run with the command lines in pkg/encode/gen.go and pkg/decode/gen.go, give avo the functions and constants whose printing (for one assignment of registers) is encode_amd64.s and decode_amd64.s as checked in.", "quantifier": "every command line of the form given, every state of the file system and every failure of it", "why_tests_cant": "no test runs the generators; the checked-in files may be out of date or edited by hand, and failures of the file system cannot be provoked in a unit test", "anchors": ["pkg/shared/gen.go", "pkg/shared/main/gentables.go", "pkg/shared/tables.go", "pkg/encode/gen.go", "pkg/encode/main/asm.go", "pkg/encode/encode_amd64.s", "pkg/decode/gen.go", "pkg/decode/main/asm.go", "pkg/decode/decode_amd64.s", "pkg/shared/asm.go", "pkg/util/util.go"]}
{"id": "C59", "title": "The benchmark tool and the random numbers, from their texts", "statement": "The text of parse_and_write_bench.go, run with or without -w, replaces the benchmark section of the README at $SBYTE_HOME/README.md (a README of the expected shape) by the benchmark lines of the standard input and changes nothing else; with -w it writes that file, without it prints the result. If the README is missing, cannot be read or created, has no start sentinel, or the standard input ends with an error, it ends with status 1 and has written nothing; without an end sentinel it panics. An unknown flag ends it with status 2 and nothing written. If writing fails after k bytes, it ends with status 1 and the file holds only the first k bytes of the new README. The texts of RandUint32 and GenUint32 draw two random numbers per result, in order, give the numbers of C35, and can give every list; GenUint32 of a negative number panics.", "quantifier": "every README, every standard input, every failure of the file system, every sequence of random numbers, every length", "why_tests_cant": "no test runs the tool; tests do not cover all files and failures, and random numbers cannot be enumerated", "anchors": ["tools/parse_and_write_bench.go", "pkg/util/rand.go", "pkg/util/util.go"]}
{"id": "C60", "title": "No test is flaky", "statement": "Each of the 23 tests of the package's six _test.go files ends without a panic and without a failure, whatever numbers math/rand draws, in whatever order the numbers come back from the sort, however much capacity append allocates, from whatever (loaded) memory it starts, and on every CPU; a test of the vectorised code is skipped exactly if the package has no vectorised implementation for this CPU, and no other test is skipped.", "quantifier": "every test, every CPU, every sequence of random numbers, every initial memory and state", "why_tests_cant": "a test run sees one seed on one CPU; that a randomised test can never fail is a claim about all seeds", "anchors": ["pkg/pkg_test.go", "pkg/encode/encode_test.go", "pkg/decode/decode_test.go", "pkg/stream/writer/writer_test.go", "pkg/stream/reader/reader_test.go", "pkg/util/varint_test.go"]}
{"id": "C61", "title": "The README's account of control byte generation is right for every number", "statement": "The steps the README describes for one 32-bit number (byte minimum with 1, saturating pack of the halves, signed minimum with 0x0101, saturating addition of 0x7F00, top bits of the two bytes) give the encoded length minus one for every number; the stated effects on 1-, 2-, 3- and 4-byte numbers hold (except that the signed minimum leaves the lower top bit of a 4-byte number on only if its byte 1 is not zero); without saturation of the addition exactly the 4-byte numbers would go wrong; and after each of the corresponding instructions of Put8uint32FastAsm and Put8uint32DeltaFastAsm the registers hold the described values for all eight numbers at once.", "quantifier": "every 32-bit number, every content of the registers", "why_tests_cant": "the README walks through three numbers; there are 2^32, and tests see only the final bytes, not the intermediate registers", "anchors": ["README.md", "pkg/encode/encode_amd64.s", "pkg/encode/main/asm.go"]}
{"id": "C62", "title": "The benchmarks run to their end and measure work that is done right", "statement": "Every benchmark of the test files, run from its text, comes to its end without a panic and without failing, for every positive b.N. Those of the vectorised functions are skipped exactly if the CPU has no vectorised implementation. Otherwise the benchmark reports 4 bytes for each number to the testing package, and the result it leaves in its variable is right: the control bits or the size of the encoding of the numbers drawn, the numbers decoded, or the encoded stream.", "quantifier": "every value of b.N (and of b.N in b.Run), every sequence of random numbers, every permutation made by sort.Slice, every CPU, every state of memory with the tables in place", "why_tests_cant": "benchmarks check nothing: a benchmark that measures a wrong or incomplete computation, or reports a wrong throughput, passes; with go test they are not even run", "anchors": ["pkg/pkg_test.go", "pkg/encode/encode_test.go", "pkg/decode/decode_test.go", "pkg/stream/writer/writer_test.go", "pkg/stream/reader/reader_test.go"]}
{"id": "C63", "title": "SortUint32 sorts, whatever sort.Slice does", "statement": "SortUint32(in) never panics; afterwards in holds the same numbers in ascending order as unsigned numbers, and nothing else in memory has changed. The result does not depend on the algorithm of sort.Slice. The delta stream of the sorted numbers is never longer than the plain stream of the numbers as given.", "quantifier": "every slice, every memory, every sequence of comparisons and exchanges sort.Slice may make that keeps its documented promise", "why_tests_cant": "no test calls SortUint32 for its own sake; a wrong comparison (signed, or of the wrong elements) only changes which numbers the other tests use; sort.Slice uses different algorithms for different lengths and Go versions", "anchors": ["pkg/util/util.go"]}
{"id": "C64", "title": "The CI check of generated files fails exactly when they are stale, and the benchmark script changes only its section", "statement": "tools/generate_and_check.sh ends with status 0 on the repository as it is and changes nothing; it ends with status 1 and a message whenever a tracked generated file differs from what the generators write, or a file that git lists has appeared or vanished (unless SHA-1 hashes collide), and then leaves the right contents; if make fails it ends with make's status. It does not see changes of untracked files, a git that does not work, or a make that does nothing because a file named generate exists. tools/update_bench.sh replaces the benchmark section of a README of the expected shape and nothing else, removes its temporary file and ends with 0 - also when go test fails; if the tool fails it ends with status 1 and leaves README and temporary file.", "quantifier": "every working tree, every output and status of git, make and go test, every hash function", "why_tests_cant": "the scripts have no tests; that the check can fail, and that it cannot pass on stale files, is never exercised in CI as long as the files are right; which statuses bash ignores in pipelines depends on options", "anchors": ["tools/generate_and_check.sh", "tools/update_bench.sh", "Makefile", "pkg/decode/gen.go", "pkg/encode/gen.go", "pkg/shared/gen.go"]}
{"id": "C65", "title": "The README's account of the format and its sample decoder are right", "statement": "Stream VByte as written by the library is the Group Varint format of the README with all control bytes moved to the front: the same control and data bytes, the same size, one control byte for every four numbers. The sample program in the README, for any control byte and data bytes, returns the four numbers of the group, the same as Get4uint32Scalar stores; its decodeOne equals the library's on every slice holding the number (on shorter slices with enough capacity it reads behind the slice, where the library's panics). Shuffling the 16 bytes of any four numbers by the row of EncodeShuffleTable for their control byte gives their data bytes and zeros, and the row of DecodeShuffleTable restores them whatever bytes follow.", "quantifier": "every list of numbers; every control byte, slice and memory; any four numbers and following bytes", "why_tests_cant": "the README is not compiled or run; its claims are over all groups", "anchors": ["README.md:215-287", "README.md:447-485", "pkg/decode/decode.go:63-75"]}
{"id": "C66", "title": "Which addresses are touched depends on the byte lengths only, never on the values", "statement": "Two calls of the same encoder on numbers with the same byte lengths (for the delta encoders: whose differences have the same byte lengths), or two calls of the same decoder on streams with the same control bytes, load and store the same addresses in the same order, and either both return (a writer the same slice) or both end with the same panic. The values, the data bytes and prev influence no address and no branch, so an observer of the accesses learns the lengths and nothing else.", "quantifier": "every pair of inputs with the same lengths, every prev, every content of the data bytes, complete or cut short streams, all variants of the functions; input and output in different allocations", "why_tests_cant": "a relation between all pairs of runs; tests see single results, not the accesses", "anchors": ["pkg/encode/encode.go:54-229", "pkg/decode/decode.go", "pkg/stream/writer/writer.go:39-157", "pkg/stream/writer/writer_amd64.go:13-212", "pkg/stream/reader/reader.go", "pkg/stream/reader/reader_amd64.go", "pkg/encode/encode_amd64.s", "pkg/decode/decode_amd64.s"]}
{"id": "C67", "title": "Block functions can be mixed freely and give the stream functions' results", "statement": "A caller that walks through n numbers and takes each next block with a function of its choice - eight numbers with any variant of Put8uint32, four with Put4uint32Scalar, up to four with PutUint32Scalar - storing the returned control bytes in order and advancing the data position by ControlByteToSize / ControlByteToSizeTwo, obtains exactly the slice, the bytes and the final memory of WriteAll, without touching anything outside the input, the tables and a buffer of ceil(n/4)+4n bytes. Likewise with the delta functions and WriteAllDelta, and for decoding a complete stream with Get8uint32, Get4uint32Scalar and GetUint32Scalar against ReadAll and ReadAllDelta. Encoder and decoder may choose different blocks.", "quantifier": "every n, all numbers, every prev, every sequence of choices that covers n, every CPU", "why_tests_cant": "the sequences of choices are unbounded in number; the repo's tests only exercise the sequences built into the stream functions", "anchors": ["pkg/encode/encode.go", "pkg/decode/decode.go", "pkg/shared/gen.go", "pkg/stream/writer/writer.go:39-157", "pkg/stream/reader/reader.go:50-155"]}
{"id": "C68", "title": "Delta coding sees differences only", "statement": "WriteAllDelta gives the same bytes for two inputs of the same length exactly if the numbers of one are the numbers of the other plus the (modulo 2^32) difference of their prev. ReadAllDelta with prev + d delivers, for every stream, the numbers it delivers with prev, each plus d modulo 2^32, and panics exactly when that does; so a stream read with a prev it was not written with has every number off by the same constant. The same holds of Put8uint32Delta and Get8uint32Delta, across all variants and CPUs.", "quantifier": "all numbers, all prev and d (with wrap-around), every stream and count, every pair of variants, every CPU", "why_tests_cant": "2^32 shifts of every input; saturating or sign-extending arithmetic in one lane, or a carry between lanes, shows only for particular differences", "anchors": ["pkg/stream/writer/writer.go:98-157", "pkg/stream/reader/reader.go:97-155", "pkg/encode/encode_amd64.s:49-86", "pkg/decode/decode_amd64.s:35-70", "pkg/encode/encode.go", "pkg/decode/decode.go"]}
{"id": "C69", "title": "The assembly on a machine with flat 64-bit memory", "statement": "Executed on a machine whose registers are 64- and 256-bit numbers, whose memory is a map from 64-bit addresses to bytes, whose arguments and result are bytes on the stack in the layout of Go's ABI0, and whose vector instructions are the pseudo-code of the Intel manual on 128-bit numbers, the four assembly functions do what the rest of this work says of them: from any register contents, Put8uint32FastAsm and Put8uint32DeltaFastAsm leave the control of the eight numbers (differences) at the result slot and their data bytes at the output, Get8uint32FastAsm and Get8uint32DeltaFastAsm leave the eight decoded numbers (sums) at the output, and no byte outside the 32 bytes of output and the result slot changes. In particular pointer arithmetic is addition modulo 2^64 wherever buffers and tables lie, also across the end of the address space.", "quantifier": "all 64-bit placements of buffers, tables, constants and arguments that do not overlap, all register contents, all slice lengths, all numbers, controls and prev", "why_tests_cant": "a test sees the addresses the allocator and linker happen to choose; an address truncated to 32 bits, a wrong argument offset overlapping a neighbour, a sign-extended offset or a 16-bit result stored too wide may go unnoticed there", "anchors": ["pkg/encode/encode_amd64.s", "pkg/decode/decode_amd64.s", "pkg/encode/encode_amd64.go:195-215", "pkg/decode/decode_amd64.go:47-67"]}
{"id": "C70", "title": "The whole library on flat 64-bit memory", "statement": "Carried out on a memory that maps 64-bit addresses to bytes, with every call of an assembly function executed instruction by instruction from arguments stored on the stack - at any place of the stack, with any contents of the registers, the vector registers and the rest of the stack - WriteAll, WriteAllDelta, ReadAll, ReadAllDelta in all variants behave as in the rest of this work: the writer leaves the encoding of the numbers at the address of its buffer, the reader leaves the decoded numbers at the address of its output or panics, a writer followed by a reader restores the numbers, and no byte changes but those of the buffer or output and of the stack. Nothing depends on what an assembly call leaves in registers or finds on the stack.", "quantifier": "all 64-bit placements of the touched bytes at distinct addresses, all stacks, all register contents at every call, all inputs, prev, counts, streams and CPUs", "why_tests_cant": "a test sees one allocator, one linker and one calling sequence; an assembly function that relied on a register left by the previous call or on zeroed stack would pass", "anchors": ["pkg/stream/writer/writer.go:13-157", "pkg/stream/reader/reader.go:15-155", "pkg/encode/encode_amd64.go:152-215", "pkg/decode/decode_amd64.go:16-67", "pkg/encode/encode_amd64.s", "pkg/decode/decode_amd64.s"]}
{"id": "C71", "title": "Page faults: which memory protection each function can live with", "statement": "With memory divided into pages of 4096 bytes, some readable, some writable: the writers never fault if the pages of the numbers and the tables are readable, those of the new buffer writable and those of the stack both - nothing else is touched, not even speculatively by a wide vector load. The scalar readers never fault if the pages of stream and tables are readable and those of out[:n] writable (for delta also readable). The fast readers besides need the (4 - n%4)%4 bytes after a stream that holds all its numbers, 32 bytes after any other; so they cannot fault if the stream ends at least that far from the end of its page, and never on the slice a writer returned, whose buffer contains these bytes. At the very end of a page they do fault on a complete stream.", "quantifier": "all placements in 64-bit memory, all page protections, all register and stack contents, all inputs, prev, counts, streams and CPUs", "why_tests_cant": "the pages around an allocation of the Go heap are mapped, so an access outside a slice goes unnoticed; the race detector and checkptr do not look at assembly", "anchors": ["pkg/decode/decode_amd64.s", "pkg/encode/encode_amd64.s", "pkg/decode/decode_amd64.go:16-67", "pkg/encode/encode_amd64.go:152-215", "pkg/stream/reader/reader.go:15-155", "pkg/stream/writer/writer.go:13-157"]}
{"id": "C72", "title": "How the length of a stream depends on the numbers", "statement": "Plain writers: the same numbers in any other order give a stream of the same length; numbers that are at least as large (and at least as many) never give a shorter one; leaving out numbers saves at least one byte for each; one stream for a list is never longer than two streams for its two parts and at most one byte shorter; exchanging one number changes the length by at most three bytes. Delta writers: exchanging one number changes the length by at most six bytes, another prev by at most three, and cutting a list in two costs at most one byte when the second call continues with the last number of the first.", "quantifier": "all pairs or triples of calls, all variants mixed, all memories", "why_tests_cant": "relations between the outputs for two different inputs; a writer that padded some streams would pass every round-trip test", "anchors": ["pkg/stream/writer/writer.go:13-157", "pkg/encode/encode.go", "pkg/encode/encode_amd64.s"]}
{"id": "C73", "title": "Input and output that share memory", "statement": "Put8uint32Fast, Put8uint32DeltaFast, Get8uint32Fast, Get8uint32DeltaFast, Put4uint32Scalar and Put4uint32DeltaScalar give the right result however input and output overlap, and the vector code encodes eight numbers in their own place and back. Put8uint32Scalar works when the output does not begin after the numbers, Get4uint32Scalar when the output does not begin before the bytes. For each of the other scalar functions there is an overlap where the result is wrong, so that on overlapping arguments the exported Put8uint32, Put8uint32Delta, Get8uint32, Get8uint32Delta depend on the CPU.", "quantifier": "all memories, all slices with the given lengths, all control words and prev; the failures are existential", "why_tests_cant": "the tests allocate separate slices; in Go the overlap is only made with unsafe, and whether a function tolerates it depends on the order of its loads and stores", "anchors": ["pkg/encode/encode.go:45-160", "pkg/decode/decode.go:45-175", "pkg/encode/encode_amd64.s", "pkg/decode/decode_amd64.s"]}
{"id": "C74", "title": "What the assembly can do in an arbitrary state", "statement": "Whatever memory, registers, arguments and tables hold, and whatever overlaps: Put8uint32FastAsm and Put8uint32DeltaFastAsm read their pointer arguments (never a length), 32 bytes at the numbers, 4096 and 256 bytes at the tables and two masks, and write the result and at most 271 bytes from the output on; Get8uint32FastAsm and Get8uint32DeltaFastAsm read at most 271 bytes from the data on and write exactly within 32 bytes at the output. The bound 271 is reached with a wrong table. The register contents before the call matter for nothing; registers not named in the code keep their value, and every vector register written has its upper half cleared.", "quantifier": "all machine states", "why_tests_cant": "tests pass correct tables and control words; here every state is allowed, including corrupt tables and wild pointers", "anchors": ["pkg/encode/encode_amd64.s", "pkg/decode/decode_amd64.s"]}
{"id": "C75", "title": "Every benchmark times the function it is named after", "statement": "In every benchmark, what follows the last b.ResetTimer() is a loop that runs b.N times around exactly one call with variables and numbers as arguments, and at most an assignment of a variable. The benchmark BenchmarkF calls the function F of the package under test, which the test file does not redeclare; the Varint benchmarks call the function of package util with the same direction and delta mode, and BenchmarkMemCopy8Uint32 calls copy.", "quantifier": "all 25 benchmarks of the repository", "why_tests_cant": "a benchmark that calls the sibling function (Scalar instead of Fast, plain instead of delta) or times its own preparation passes and prints a number; the published comparison is then wrong", "anchors": ["pkg/pkg_test.go", "pkg/encode/encode_test.go", "pkg/decode/decode_test.go", "pkg/stream/writer/writer_test.go", "pkg/stream/reader/reader_test.go"]}
{"id": "C76", "title": "The stream functions and package util where int has 32 bits", "statement": "With a 32-bit int, WriteAllScalar and WriteAllDeltaScalar return the stream of every input of up to 505290269 numbers, and panic for every longer one: no wrapped size leads to a wrong stream. ReadAllScalar and ReadAllDeltaScalar do exactly what they do with a 64-bit int for every count below 2^31-3, also a negative one, and every stream; for the last three counts they panic before the first memory access. Streams written on a 64-bit platform are read back on a 32-bit one. PutVarint, PutDeltaVarint, GetVarint, GetDeltaVarint and Delta of package util do exactly what they do with a 64-bit int, on any arguments, also where they panic.", "quantifier": "all inputs below 2^30 numbers, all streams below 2^31 bytes, all 32-bit counts, all memory contents", "why_tests_cant": "the sizes wrap only for inputs of two gigabytes; tests run on amd64", "anchors": ["pkg/stream/writer/writer.go:39-157", "pkg/stream/reader/reader.go:50-155", "pkg/util/varint.go:5-51", "pkg/util/util.go:27-35"]}
{"id": "C77", "title": "Work bounded by the room in out, and when concurrent calls are done", "statement": "However long the stream and whatever the count, ReadAll and ReadAllDelta make at most 15 memory accesses (counted in bytes) per number plus 540, where the numbers are the smaller of count and cap(out). PutVarint makes at most nine accesses per number and PutDeltaVarint thirteen. If concurrent calls have private outputs and each gets at least one turn in every round, all have finished with the right results after a number of rounds that is known from the sizes of their arguments.", "quantifier": "all slices, all memory contents, all streams, all 64-bit counts, all CPUs, any number of concurrent calls, all schedules", "why_tests_cant": "a test sees that a call returned, not that no stream and no count makes it do more work; schedules are not under the control of a test", "anchors": ["pkg/stream/reader/reader.go:50-155", "pkg/stream/reader/reader_amd64.go:13-236", "pkg/stream/writer/writer.go:39-157", "pkg/stream/writer/writer_amd64.go:13-212", "pkg/util/varint.go:5-36"]}
{"id": "C78", "title": "Package util on any arguments, and all functions next to each other", "statement": "PutVarint, PutDeltaVarint, GetVarint, GetDeltaVarint and Delta load only elements of their first slice and store only elements of their second, for any slices (also overlapping or too short ones) and any data, even while other goroutines change both; they end normally or with a bounds panic. Any number of concurrent calls of stream functions, block functions and these, where no call writes what another reads or writes, each end - after a number of turns known from the sizes - with the result or panic and the output they would have alone, and nothing else is changed.", "quantifier": "all slices, all memory contents, all control values and counts, all CPUs, any number of calls, all schedules", "why_tests_cant": "interleavings cannot be enumerated by tests, and the tests of util use well-formed data only", "anchors": ["pkg/util/varint.go:5-51", "pkg/util/util.go:27-35", "pkg/encode/encode.go:31-236", "pkg/decode/decode.go:25-188", "pkg/stream/writer/writer.go:17-157", "pkg/stream/reader/reader.go:20-155"]}
{"id": "C79", "title": "Package util on input and output that share memory", "statement": "PutVarint (PutDeltaVarint, GetVarint, GetDeltaVarint) gives the right result whenever what it has written so far does not reach what it still has to read. In particular numbers below 2^28 can be encoded by PutVarint in their own place and decoded by GetVarint into the slice at whose end their varints lie; PutDeltaVarint needs four bytes more, because it reads every number a second time after writing its varint. Delta is right when out begins at least one number before in; Delta(in, in) subtracts from every number the result before it, which is the list of differences exactly if all numbers but the last two are zero.", "quantifier": "all slices and overlaps meeting the stated condition, all memory contents, all numbers, all prev", "why_tests_cant": "the tests never pass overlapping slices, and whether an overlap does harm depends on the sizes of all numbers before", "anchors": ["pkg/util/varint.go:5-51", "pkg/util/util.go:27-35"]}
{"id": "C80", "title": "The README's account of VByte is right, for 32 and 64 bits", "statement": "Every number has the bytes the README describes: seven bits in each, lowest first, the continuation bit on in all but the last, as many bytes as seven-bit groups up to the highest bit (at most 5 for 32 and 10 for 64 bits). The decoder it describes, with an integer of any width, gives the number back and stops behind its last byte whatever follows; no form of the number is shorter and no other is as short. Varints of one sequence begin those of another exactly if the sequence begins the other, so they need no count. PutUvarint writes these bytes and Uvarint reads them for every 64-bit number, and GetVarint and GetDeltaVarint store what the described decoder gives with a 32-bit integer (and the running sums of it), also for forms longer than needed.", "quantifier": "every number of any width, all following bytes, all sequences, all slices and memory contents", "why_tests_cant": "the README shows one number and is not run; the tests of util use random 32-bit numbers in shortest form only", "anchors": ["README.md:172-206", "pkg/util/varint.go:5-51"]}
{"id": "C81", "title": "Streams do not depend on the byte order of the machine", "statement": "The portable functions (block functions, stream functions and package util) on a big-endian machine do what they do on a little-endian one: the same result or panic and the same memory, but for the byte order in which the machine holds its numbers. In particular all machines return the same bytes from WriteAll and WriteAllDelta for the same numbers; ReadAll and ReadAllDelta store the same numbers for the same bytes or panic on the same bytes; and a stream written on one machine, whatever its byte order and CPU, gives the numbers back on any other.", "quantifier": "all aligned slices, all numbers, streams, counts and memory contents, both byte orders, every variant on amd64; a reader's stream and output in different allocations", "why_tests_cant": "the tests run on one machine, and CI has amd64 only", "anchors": ["pkg/encode/encode.go:88-236", "pkg/decode/decode.go:60-188", "pkg/stream/writer/writer.go:39-157", "pkg/stream/reader/reader.go:42-155", "pkg/util/varint.go:5-51", "pkg/util/util.go:27-35"]}
{"id": "C82", "title": "Exchanging numbers changes a stream only at their places", "statement": "The data of number k in a stream returned by WriteAll lie at the number of control bytes plus the announced lengths before k. If two inputs of equal length differ only in numbers i .. j-1, the streams have the same lengths in the control bytes for all other numbers, the same unused bits, the same data before number i and the same data from number j on; with the delta writers the same holds with j+1 for j. If one number is exchanged for one of the same byte length, the stream is the old one with its bytes overwritten. Conversely, overwriting the data bytes of number k in any stream with another number that fits makes every reader deliver that number at k and the others unchanged; the delta readers deliver the numbers before k unchanged and all from k on shifted by the change.", "quantifier": "all inputs, all numbers exchanged, all writers and readers, all streams that hold n numbers (not only written ones)", "why_tests_cant": "the tests never compare the streams of different inputs, nor edit a stream", "anchors": ["pkg/stream/writer/writer.go:17-157", "pkg/stream/writer/writer_amd64.go:28-212", "pkg/stream/reader/reader.go:20-155", "pkg/stream/reader/reader_amd64.go:29-236"]}
{"id": "C83", "title": "The comments' accounts of vectorised differences, sums and shuffles are right for every number", "statement": "After each of the instructions of Put8uint32DeltaFastAsm between the loads and the control bytes, and of Get8uint32DeltaFastAsm between the shuffles and the stores, the registers hold what the comments draw ([P P P P], [P A B C], [A-P B-A C-B D-C]; [- A B C], [A AB BC CD], [- - A AB], [PA PAB PBC PCD], [PA PAB PABC PABCD]), for both halves; together the differences and the running sums of all eight numbers modulo 2^32. The second shift must be taken before the addition of the previous number, although the comment lists it after: otherwise the last two sums are too large by the previous number. The shuffle of the encoder leaves exactly the data bytes of the four numbers and then zeros; the shuffle of the decoder with any row gives the numbers that the lengths of that control byte cut off any bytes, and so undoes the encoder's whatever follows.", "quantifier": "every content of the registers, every previous number, every control byte, every row of the tables", "why_tests_cant": "tests see only final bytes of some inputs, never the registers between the instructions", "anchors": ["pkg/encode/encode_amd64.go:181-210", "pkg/encode/encode_amd64.s:53-57", "pkg/encode/encode_amd64.s:75-76", "pkg/decode/decode_amd64.go:41-63", "pkg/decode/decode_amd64.s:26-27", "pkg/decode/decode_amd64.s:56-67"]}
{"id": "C84", "title": "Streams kept one after another in one buffer can be told apart by their control bytes", "statement": "A stream does not record its own length. The number of its control bytes plus ControlByteToSize of each, less one for every number the last group lacks, is never less than where its data ends, and equals it exactly if the unused control bits are zero. Hence a caller who knows how many numbers each stream holds can keep streams (plain or delta) one after another in one buffer and read them in order with any mixture of the readers: every output receives its numbers, what follows the last stream is left over unchanged, no memory but the outputs changes. Nothing is loaded more than 3 bytes past the last stream, so with 3 bytes after it no load leaves the buffer.", "quantifier": "any number of streams of any numbers, any choice of readers and previous numbers, any bytes after the streams, any outputs apart from the buffer and each other", "why_tests_cant": "tests read one stream in a slice of its own; what the readers do when other data follows directly, for all lengths modulo 4 and all byte lengths, is not sampled", "anchors": ["pkg/shared/gen.go:5-7", "pkg/stream/reader/reader.go:20-48", "pkg/stream/reader/reader_amd64.go:16-124", "pkg/stream/reader/reader.go:50-155"]}
{"id": "C85", "title": "Goroutines may decode pieces of one stream at the same time into one output", "statement": "The data of any group can be found by adding up ControlByteToSize of the control bytes before it. If goroutines do this for pieces of one stream that have no number in common, one group each by GetUint32Scalar or two groups by any variant of Get8uint32 (or, for a delta stream, by the delta functions with the number before the piece), each into its own part of one output slice, then under every interleaving all of them return, every number of every piece is the one ReadAll or ReadAllDelta delivers at that place, and all memory outside the pieces is unchanged. If the pieces cover the stream, the output is exactly that of the reader. The 12 bytes after the stream must not belong to the output, because the vector loads of Get8uint32Fast may reach them.", "quantifier": "any valid stream, any count, any family of pieces without common numbers, any mixture of variants and CPUs, every schedule of single memory accesses that lets each goroutine finish", "why_tests_cant": "the tests call the block functions in one goroutine on slices of their own; the interleavings, and what loads and stores of one piece do to its neighbours in stream and output, cannot be sampled", "anchors": ["pkg/decode/decode.go:30-61", "pkg/decode/decode.go:82-158", "pkg/decode/decode_amd64.s:7-71", "pkg/shared/gen.go:5-7"]}
{"id": "C86", "title": "One slice may be encoded by several goroutines, chunk by chunk", "statement": "Cut a slice into consecutive chunks that begin at multiples of four numbers, and let goroutines encode the chunks at the same time, each with any of the writers (or, for deltas, with any delta writer and the number before the chunk). Under every interleaving all of them return. If the caller then makes a buffer as long as all results together and copies into it first the control bytes of every chunk, (n+3)/4 of each, and after them the rest of every chunk, the buffer holds exactly the stream that WriteAll or WriteAllDelta returns for the whole slice; memory outside the new allocations is unchanged. If a chunk begins elsewhere this is false: the bytes may differ from the stream and decode to other numbers.", "quantifier": "any numbers, any chunks that begin at multiples of four (also empty ones), any mixture of writers and CPUs, plain or delta with any base, every schedule of single memory accesses that lets each goroutine finish", "why_tests_cant": "the tests encode a slice in one call; neither the interleavings nor all the ways to cut a slice can be sampled", "anchors": ["pkg/stream/writer/writer.go:13-157", "pkg/stream/writer/writer_amd64.go:10-212"]}
{"id": "C87", "title": "Groups can be taken out of a stream as a stream, without decoding", "statement": "Copy the control bytes of groups a to b-1 of a stream of n numbers and after them the data of these groups, found by adding up ControlByteToSize (less one byte for each number the last group lacks). The result is exactly the stream a writer returns for the numbers 4a to min(n,4b)-1; if the stream holds deltas, it is the delta stream of these numbers with the number before them as base. Any reader delivers these numbers from it. Cutting a stream before any group and putting control bytes and data of the two pieces together again gives the same bytes. Bytes after the stream do not matter, and nothing but the new buffers changes.", "quantifier": "any numbers, any count, any groups a <= b <= (n+3)/4 (also none, and a last group that is not full), any bytes after the stream, any reader", "why_tests_cant": "the tests always decode a stream from its beginning and compare numbers; that sums of table entries locate the bytes for every combination of lengths and every pair of groups needs a proof", "anchors": ["pkg/shared/gen.go:5-7", "pkg/shared/tables.go:72-105", "pkg/stream/writer/writer.go:13-157", "pkg/stream/reader/reader.go:13-155"]}
{"id": "C88", "title": "Numbers can be appended to a stream by encoding only its last group again", "statement": "To append numbers to a stream of n numbers, decode the n%4 numbers of the last group that is not full with any reader, encode them followed by the new numbers with any writer, and put the control bytes and data of the full groups before those of the result. This gives exactly the stream WriteAll returns for the old numbers followed by the new ones. The same works on a delta stream when the new numbers are given as differences that go on from the last number: the result is the stream DeltaWriteAll returns for all the numbers. The full groups are neither decoded nor encoded; nothing but the new allocations changes.", "quantifier": "any numbers, any count, any new numbers (also none), any reader and writer on any CPU, any bytes after the stream", "why_tests_cant": "no test extends a stream; the four cases of n%4 times all lengths of old and new numbers cannot be enumerated", "anchors": ["pkg/stream/writer/writer.go:13-157", "pkg/stream/reader/reader.go:13-155", "pkg/stream/writer/writer_amd64.go:10-212", "pkg/stream/reader/reader_amd64.go:10-236"]}
{"id": "C89", "title": "A group of a stream can be replaced in place by the scalar encoders, and must not be by the vector ones", "statement": "Encode new numbers with PutUint32Scalar into the bytes of one group of a stream (found by adding up ControlByteToSize, as a slice limited to those bytes) and store the returned control byte in place of the old one. If the new numbers, as many as in the group, need as many bytes altogether as the old ones, the buffer afterwards holds exactly the stream with the new numbers in place of the old; no byte but the data and the control byte of the group changes. The same holds of a delta stream with PutUint32DeltaScalar and the number before the group, if the last number of the group stays the same. If the new numbers need more bytes, the call panics and no byte outside the data of the group changes. Put8uint32Fast cannot be used so: it sets the bytes after its data to zero, up to 16 bytes after the data of its first four numbers (Put8uint32DeltaFast does the same), so that even writing the numbers that are there destroys the next number of the stream whenever the second group has less than 16 bytes and the low byte of that number is not zero.", "quantifier": "any stream with any bytes after it, any group including a last one that is not full, any new numbers, plain or delta with any base", "why_tests_cant": "the tests encode into fresh buffers only, where the zeros of the vector stores are not seen; the sizes that fit and the bytes that must not change range over all streams", "anchors": ["pkg/encode/encode.go:49-106", "pkg/encode/encode_amd64.s", "pkg/shared/gen.go:5-7"]}
{"id": "C90", "title": "Sorted delta streams can be searched group by group with four numbers of room", "statement": "Decode the groups of a delta stream of n sorted numbers one after another with GetUint32DeltaScalar into a buffer of four, each from the last number of the group before and from the place given by the sum of the results so far, and stop at the first group whose last number is at least x. The place of the first number in that group that is at least x is the place of the first such number of the whole stream; if no group qualifies there is none. So x is in the stream exactly if it is the number at that place. Nothing but the buffer changes and nothing panics. It is false of streams of unsorted numbers.", "quantifier": "any bytes that decode to sorted numbers (canonical or not, any bytes after them, in particular the result of any delta writer), any count, base and x", "why_tests_cant": "the tests decode whole streams; the statement quantifies over all sorted streams, all x and all group boundaries including the last group that is not full", "anchors": ["pkg/decode/decode.go:104-130"]}
