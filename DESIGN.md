# Design: a Lean 4 model of streamvbyte-simdgo

## 1. What is modelled and how

| Layer | Module (`lean/Verif/…`) | Code |
|---|---|---|
| Memory, programs, footprints | `Model/Prog` | the Go run-time: blocks, slices with len/cap, bounds-check panics, 64-bit `int` |
| Lookup tables | `Model/Tables` (generated from `tables.go` by `scripts/gen_tables.py`), `Model/Shared` | `pkg/shared/tables.go`, `gen.go`, `main/gentables.go` |
| Scalar block codec | `Model/Encode`, `Model/Decode` | `pkg/encode/encode.go`, `pkg/decode/decode.go` |
| Assembly | `Model/Asm` | `encode_amd64.s`, `decode_amd64.s`: one constructor per instruction, text transcribed line by line (`scripts/check_asm.py` compares it with the `.s` files); wrappers in `encode_amd64.go`, `decode_amd64.go` |
| Code generators | `Model/Gen` | `pkg/{encode,decode}/main/asm.go`, `pkg/shared/asm.go` |
| Assembly, flat | `Model/Flat` | the same instructions on 64-bit addresses, 256-bit vector registers and stack arguments |
| Library, flat | `Model/FlatRun` | all functions on flat memory; calls of assembly carried out by `Model/Flat` with arguments on the stack |
| Accesses, flat | `Model/FlatAcc` | the bytes these executions read and write, and pages with protection |
| 32-bit `int` | `Model/Word32` | the scalar stream functions with 32-bit arithmetic |
| Texts of the generated files | `Model/Sources` (copied by `scripts/gen_sources.py`; `check` compares), `Model/SourceText`, `Model/AsmText` (reading), `Model/GenTables`, `Model/AsmPrint` (writing) | `tables.go`, the `.s` files, declarations in `*_amd64.go`, `main/gentables.go` |
| Streams | `Model/Writer`, `Model/Reader` | `pkg/stream/{writer,reader}/*.go` |
| Dispatch | `Model/Dispatch` | `GetMode`, `init`, the exported entry points, `*_base.go` |
| Concurrency | `Model/Conc`, `Model/Race`, `Model/Rely` | goroutines as interleaved programs on one memory; interference with one program |
| Utilities | `Model/Util` | `pkg/util/{varint,util,rand}.go`, and `encoding/binary`'s `PutUvarint`/`Uvarint` |
| Either byte order | `Model/Endian` | the portable functions of `pkg/{encode,decode,stream,util}` again, with the byte order of the machine as a parameter |
| Texts of the hand-written Go files | `Model/GoSources` (copied by `scripts/gen_gosources.py`), `Model/GoFiles` (their syntax trees, proved to be what the parser gives), `Model/GoText` (lexer, parser), `Model/GoTypes` (type checker), `Model/GoSem` (meaning of a function), `Model/GoProgram` (build constraints, packages, `init`) | all `.go` files of `pkg` except tests, generators and `rand.go` |
| Texts of the programs | `Model/ScriptSources`, `Model/ScriptFiles`, `Model/ScriptText`, `Model/ScriptSem` (values, calls of the standard library, files, output, exit status), `Model/Generate` | `main/gentables.go`, `main/asm.go`, `pkg/shared/asm.go`, `gen.go`, `pkg/util/rand.go`, `tools/parse_and_write_bench.go` |
| Tests and benchmarks | `Model/TestSources`, `Model/TestFiles`, `Model/TestSem`, `Model/Tests`, `Model/Benchmarks`, `Model/SortSem` | the six `_test.go` files, `SortUint32` |
| Shell scripts | `Model/ShellSources`, `Model/Shell` | `tools/*.sh`, `Makefile` |
| Code shown in the README | `Model/ReadmeCode` | `README.md` |
| A caller of the block functions | `Model/Client` | none: any caller that follows the documentation |
| A caller that keeps several streams in one buffer | `Model/Archive` | none: any caller that knows the counts |
| Callers that decode pieces of a stream at the same time | `Model/Parallel` | none: any callers that keep to their own part of the output |
| Callers that encode chunks of a slice at the same time | `Model/Chunked` | none: any caller that joins control bytes and data |
| Callers that take groups out of a stream or append to it | `Model/Extract` | none: any caller that copies control bytes and data |
| Callers that replace a group in place | `Model/Replace` | none: any caller of `PutUint32Scalar` and `PutUint32DeltaScalar` |
| Callers that search a sorted delta stream | `Model/Seek` | none: any caller of `GetUint32DeltaScalar` |
| README tool | `Model/Bench` | `tools/parse_and_write_bench.go`, `bufio.ScanLines` |
| Specification | `Spec`, `SpecUtil`, `Setting` | the Stream VByte and varint formats, independent of the model |
| Helper proofs | `Proofs/*` | |
| Properties | `Props/*` | theorems named `Cnn_…`, one family per property of `properties.jsonl` |

**Programs.** A Go function is a value of the free monad `Prog α`: it returns, panics, loads one byte, or
stores one byte. Wider accesses are sequences of byte accesses. `run` executes a program on a memory,
`trace` lists the addresses it touches, `Conf.exec` interleaves several programs. Memory is a total map
from (block, byte offset) to bytes: bytes outside an allocation have unknown contents, which is how reads
past the end of a slice are modelled.

**Slices** are (block, byte offset, len, cap); `s[i]`, `s[a:]` (checked against len) and `s[a:b]` (checked
against cap) panic as in Go. Assembly accesses are unchecked.

**Integers.** `uint8/16/32/64` are `BitVec`. `int` is `Int`; the header computations of the readers
(`count+3`, `&^`, `(ctrlLen-3)*4`) wrap at 64 bits; loop counters bounded by slice lengths do not (they
cannot overflow because Go slices are far shorter than 2^62 bytes).

**Loops** carry an iteration bound; exceeding it is the panic `.fuel`, which does not exist in Go. Every
theorem that says how a call ends excludes it, and so proves termination.

**Proof method.** A weakest-precondition calculus (`Proofs/Wp`) with three parameters: which addresses may
be read, which may be written, which panics may occur. One proof gives the result, the footprint and the
possible panics. `Proofs/Safe*` uses a weaker variant for arguments about which nothing is known.

### Simplifications

- `make([]byte, n)` is given its block by the caller; theorems assume it is not the input's block. Out of
  memory is not modelled.
- Re-slicing to zero capacity keeps Go's old base pointer; the model advances it. No access can be made
  through such a slice except by the assembly with an empty slice, and C12/C13/C40 bound those accesses.
- Vector registers hold 16 byte lanes; YMM bits 255:128 are not modelled (nothing reads them).
- General-purpose registers hold an integer or an address; an address is not a number. Using one for
  the other is the panic `.fault`, which is shown not to occur.
- Arguments of the assembly are named by their offset, not bytes on the stack.  These three are made good by C69: the
  functions do the same on a machine with flat memory, numbers in registers and arguments in memory.
- Flags are not modelled (no instruction reads them).
- Package variables `putImpl`/`getImpl`, set once in `init`, become a case split on the CPU.
- Random numbers are arguments. `SortUint32` is in `SortSem` (C63), `SilentClose` in `ScriptSem` (C58).
- Concurrency is sequentially consistent with one byte per step. C29 assumes private outputs, so there
  are no data races and Go's memory model gives sequential consistency.
- Failing file operations of the README tool and the `-w` switch are not in `Model/Bench`; they are in `ScriptSem` (C59).
- The package `avo`, which the code generators (`pkg/*/main/asm.go`, `pkg/shared/asm.go`) call, is not modelled. C44
  compares the generators with the checked-in assembly; all other theorems are about the checked-in assembly. Its printer,
  and `gofmt`, are modelled as far as the lines of the generated files need it (C55).
- `int` has 64 bits, as on amd64. `Model/Word32` and `Model/Word32Util` have the scalar stream functions and package `util` with
  32 bits (C76).

## 2. Plan per property

- C01-C04: wp proof that the final memory holds the specified stream; no panic. Spec = list-level `encode`.
- C05-C06: C01-C04 composed with C07-C08 through the pure fact that decoding the specified stream gives the input.
- C07-C11: wp with a postcondition covering both return and panic, in terms of the pointwise format spec.
- C12: footprint proof for arbitrary arguments.
- C13: **false** of the code (see 4); negation by a witness, the 3-byte bound as `_partial`.
- C14: consequence of C08 (result stated in terms of stream bytes only), for every memory.
- C15-C16: footprints of the fast writers/readers.
- C17-C21: wp for the block functions; symbolic execution of the assembly.
- C22-C24, C27-C28, C36, C39: pure facts about the specification transported by C01-C08.
- C25, C37: whole-table kernel evaluation lifted by lemmas.
- C26: case split on the CPU record, using scalar/fast agreement.
- C29: generic non-interference theorem for `Prog` interleavings, instantiated with the footprints.
- C30: footprint.
- C31: partly **false**; witness + partial.
- C32-C34: wp proofs against `SpecUtil`; C33 with an iteration bound.
- C35: **false** at the boundaries; witness + partial + reachability.
- C38: the wp postconditions exclude the corresponding panic kinds.
- C40: scalar part from C12; fast part **false**; witness + partial.
- C41: **false** in general; witnesses + partial for well-formed files.
- C42: instruction-set classification of every instruction against the `GetMode` tests.
- C43: definite-initialisation check over the instruction lists and a relation between states that agree on the
  initialised registers.
- C44: a machine with any kind of registers, a check that no needed register is overwritten, proved sound by a relation
  between states.
- C45: a cost logic (`Bd`, time credits) over program trees: the bound holds for any bytes the loads deliver.
- C46: pure fact about the two formats, transported by C01-C04 and C32.
- C47: `TriP`, a predicate on program trees that quantifies over whatever each single load delivers, so it also covers
  memory changed by others between two loads; `Raced` (`Model/Race`) is the interference semantics, and
  `C47_threads` shows that it contains every interleaving of `Model/Conc`.
- C49: the writers' invariant `WI` says that the buffer behind the data written so far is zero; the vector step gets it
  from the tails of the shuffle table.
- C50: `Proofs/Snap*`: a history with interference is matched with a run from one fixed memory (the snapshot), built up
  along the program: a byte is fixed when it is first loaded, and the proof carries the set of bytes not loaded yet.
  The vector readers load control bytes twice, which is where the hypothesis on control bytes comes in.
- C48: a lock-step simulation (`Proofs/Sim*`): the call that reads changing memory is matched with a call of the plain
  writer on a snapshot made of the bytes that were read. `Under` (`Model/Rely`) is the interference semantics.
- C51: `Canon`: the encoder's output is canonical, and a canonical byte list is what the encoder makes of its decoding.
- C52, C53: `Local`: number `j` of the decoding depends on the control bytes up to `j / 4` and its own field only;
  `numPos` is the place of that field. Block functions get the place by `stream[pos:]`.
- C54: the loop invariant `RI` of the readers holds in the panicking state as well (`rctxP`), with the place of the panic.
- C55: the texts of the files are data of the model, one number per line. A small reader for Go literals and for the
  assembler, and the writers of both generators, are run on them by the kernel. `Linked` says what memory the texts describe.
- C56: `GoText` is a lexer and parser for the fragment of Go that the library uses, `GoSources` the texts, `GoFiles` the syntax
  trees (printed by `scripts/print_gofiles.txt`), `GoSem` a definitional interpreter. The kernel checks that the texts parse to the
  trees. For each function, symbolic execution of the tree (`go_stmt`, one statement at a time) gives the model function.
- C57: `GoTypes` is a type checker for the fragment, run by the kernel on the parsed files. `GoSound` is type soundness: values
  have types (`HasType`), `eval`/`exec` of checked syntax is `Safe` (no `.fault`), and calls by induction on their depth.
- C58: `ScriptText`, `ScriptSem` are a second parser and interpreter, for the programs (generators, benchmark tool): they have
  strings, maps of flags, closures, `defer`, files and `os.Exit`, but no shared memory. A program is run by the kernel with the
  world as a variable; the loops over the 256 rows are cut into chunks of 16 rows (`ScriptRows*`), and `ScriptTablesMain` puts
  them together. `Generate` prints what a program has told `avo`.
- C59: the same interpreter runs the benchmark tool and `rand.go`. What the operating system answers (arguments, files, how
  writing ends, random numbers) is the record `World`. The loops are by induction; the other statements are run by the kernel
  for a variable README and input. `ScriptBytes` relates texts (lists of numbers) to the bytes of `Bench.lean`.
- C60: the tests are run from the texts of the `_test.go` files by `TestSem`, on the memory of the model. Each is shown equal to
  a readable program (`Tests.lean`, by the kernel: `TestText`), and each of these is shown to pass from the theorems about blocks,
  readers and writers (`TestSteps`, `TestRun`).
- C61: the README's steps are written with `Nat` arithmetic for one number; which bytes are 0 settles the result (16 cases). The
  registers after each instruction are compared lane by lane.
- C62: the benchmarks are run by the same interpreter, with a given `b.N`. Each is shown equal to a readable program
  (`Benchmarks.lean`, `BenchText`). The loops over `b.N` need an invariant: the memory outside the result, and the result
  after at least one round (`BenchRun`). `SpecBench` says what a benchmark must have done.
- C63: `SortUint32` is run from its text by `SortSem`. `sort.Slice` is any program of comparisons and exchanges (`Sorter`) that
  sorts, as its documentation promises; insertion sort is shown to be one.
- C64: `generate_and_check.sh`, `update_bench.sh` and the Makefile are texts (`ShellSources`, made by `scripts/gen_shell.py`);
  `Shell.lean` parses and runs the part of bash they use. The commands they call are parameters; `make generate` and the
  benchmark tool are run from their texts (C58, C59).
- C65: the README's sample program is `ReadmeCode.lean`, its other claims are stated over `Spec`.
- C66: two runs in step: a relational logic over `Prog` (`Lock`, `Lk` in `Proofs/Lock.lean`) with a relation between the
  two memories that every step keeps; `trace` equality follows.
- C67: callers of the block functions as programs over a list of choices (`Model/Client.lean`); the step lemmas of the
  writer and reader proofs, generalised to every variant of the functions of eight, compose for any list.
- C68: differences and running sums under a shift (`Props/Shift.lean`), on top of the results of C03–C10, C17 and C18.
- C69: a second semantics of the instructions (`Model/Flat.lean`): flat memory, bits in registers, bytes on the stack, the manual's
  pseudo-code.  `Proofs/FlatBits` relates the vector instructions to the lanes of `Model/Asm`, `Proofs/Flat` simulates one
  instruction at a time, `Proofs/FlatCall` builds the layout that goes with a machine.
- C70: the whole library on flat memory (`Model/FlatRun.lean`): an inductive relation executes a program on flat memory, the calls
  of assembly functions by the machine of C69 with arbitrary register and stack contents.  `Proofs/FlatRun` shows that every
  execution agrees with `run`, `Proofs/FlatExist` that there is one (Go code reads no shuffle table, so a call cannot be
  executed but by its instructions).
- C71: memory protection (`Model/FlatAcc.lean`): the accesses of the flat executions of C70, byte by byte, and pages that may be
  read or written.  `Proofs/FlatAcc` shows that the machine touches its frame and the addresses of the bytes of `trace`, no other
  and all of them; the page theorems follow from the footprints of C08, C11, C13 and C16.
- C72: laws of the stream length, from the length formula of C22 and facts about lists.
- C73: overlapping arguments. Where all loads come before all stores the overlap does not matter; the scalar specifications are
  proved with the weakest condition on the order of loads and stores; witnesses for the rest.
- C74: reach of the assembly in any state: a check of the text (`Proofs/FlatReach`) keeps, for every register, the argument it is an
  offset from and a bound of the offset; its soundness is proved for every routine.
- C75: what the benchmarks time, as a function of the parsed text (`timedCall`): the one call in the loop behind `b.ResetTimer()`.
- C76: the scalar stream functions and package `util` with 32-bit `int` (`Model/Word32.lean`, `Model/Word32Util.lean`), compared
  with the 64-bit ones as programs.
- C77: `Prog.Within` bounds the accesses of a program over all its branches (`Proofs/Cost*.lean`), with what is known of its result; loops through invariants that
  relate the accesses so far to the numbers done so far.
- C78: footprint triples for package `util` (`Proofs/OnlyUtil.lean`), then `noninterference` of C29 for calls of all kinds.
- C79: the loops of C32–C34 again, with "not overwritten before it is read" in place of disjointness (`SpecOverlap.lean`,
  `Proofs/OverlapUtil.lean`).
- C80: the README's decoder as a function of its own (`SpecVByte.lean`), equal to the group values of C33 by induction over the bytes.
- C81: reversing the bytes of every number in memory is an involution that turns the big-endian program into the little-endian one, function by function (`Proofs/Endian.lean`); then the results of C01–C08 apply.
- C82: lists only, from C01–C08: cut the encoding at the places of numbers `i` and `j`; for reading, number by number as in C53.
- C83: as C61, for the drawings in the comments of the assembly functions: registers after each instruction, from any state.  The
  comment of `Get8uint32DeltaFastAsm` lists the second shift below the addition of the previous number; the values it shows are
  those of the code, which shifts first (`C83_order`: the other order would be wrong).
- C84: a caller (`Model/Archive.lean`, no code of the repository) that finds the end of each stream from its control bytes with
  `ControlByteToSize` and goes on reading behind it.  Induction over the streams; each step is `read_result`/`readDelta_result` for the reader and
  `C84_size` for the end of the stream.
- C85: callers (`Model/Parallel.lean`, no code of the repository) that decode pieces of one stream concurrently.  Results of one
  piece alone from C52, its footprint from the specifications of the block decoders (`Proofs/Parallel.lean`), then
  `noninterference` as for C29.  A goroutine that does several pieces one after another is a special schedule of goroutines that
  do one piece each.
- C86: a caller (`Model/Chunked.lean`, no code of the repository) that has chunks of one slice encoded concurrently and joins the
  results.  Results and footprints of the writers, `noninterference`, and `ctrls_append`, `dataBytes_append`, `delta_append`.
  The goroutine of a delta chunk loads the number before it from the slice itself.
- C87: a caller (`Model/Extract.lean`, no code of the repository) that copies groups of a stream without decoding them.  Sizes from
  C84's `ctrlSizes_run`; the rest is list algebra (`ctrls_append`, `dataBytes_append`, `delta_append`).  Stated for streams as the
  writers make them, because the unused codes of a last group must be 0 for its size to be right (C84).
- C88: a caller that appends numbers (`Model/Extract.lean`), by C87, the results of readers and writers, and C86's join.
- C89: a caller (`Model/Replace.lean`, no code of the repository) that encodes a group right into a stream.  `dataBefore_run` of C87
  finds the bytes, `putUint32_res` gives result and frame, `patch_bytes` puts the pieces together; for a group that does not fit the
  footprint of C12 on a slice of limited capacity.  The zeros of the vector encoder are in `put8Fast_spec`.
- C90: a caller (`Model/Seek.lean`, no code of the repository) that searches a sorted delta stream.  Induction on the groups left,
  with `C52_groupDelta` for each.  The answer is specified by `SeekAt`, which has only one solution.

## 3. Trusted base

- Lean's kernel, and the axioms `propext`, `Classical.choice`, `Quot.sound`. `Verif/AxiomCheck.lean` fails
  the build if a theorem in namespace `SVB.Props` depends on any other. No `sorry`, `native_decide`,
  `bv_decide`, own axioms, `implemented_by` or `unsafe`. Mathlib is not used.
- That `Model/Sources` holds the bytes of the generated files (`scripts/gen_sources.py check`). C55 derives the tables and the
  instruction lists from them.
- That `Model/GoSources` holds the bytes of the Go files (`scripts/gen_gosources.py check`), and that `GoText` and `GoSem` read
  them as Go does. C56 derives the functions of the model from them, so the hand-written model is not trusted for these
  files. What `GoSem` is given: `bits.LeadingZeros32`, `binary.PutUvarint`, `binary.Uvarint` (model functions written from the
  standard library), the four assembly functions (from C55), the blocks of the tables, `cpu.X86`, the `+build` line as build
  constraint, `make` returning the block `fresh`. Values of wrong type are a `.fault`; C57 shows
  that it is not reached in programs that type check.
- For C57: the rules of the type checker `GoTypes.lean` (it accepts a little less than Go, see its head), the signatures of
  the functions of the standard library, and `importName` (the name of a package is the last element of its path).
- For C58: that `Model/ScriptSources` holds the bytes of the programs (`scripts/gen_scripts.py check`), that `ScriptText` and
  `ScriptSem` read them as Go does, and the functions of the standard library, `errors` and `avo` in `ScriptSem` (`libFn`,
  `method`). Restrictions of the interpreter (slices are values, function literals only where they are returned, every `:=`
  makes new variables, loops have at most `fuel` iterations) end in `stuck`, which the theorems
  exclude. `format.Source` is `gofmt` of `GenTables`, correct for the text at hand. The registers `avo` assigns are a parameter.
- For C59: that the scanner gets the lines `scanned` (`bufio.ScanLines`, up to the first line that is too long), and that a
  failed write leaves a prefix.
- For C60: that `Model/TestSources` holds the bytes of the test files (`scripts/gen_tests.py check`), that `TestSem` reads them as
  Go does, and what it says of `testing`, `reflect.DeepEqual` (on slices of numbers), `math/rand`, `sort.Slice` (it permutes) and
  `append`. A call of the library is the function of the model (C56).
- For C64: the part of bash in `Shell.lean` (a pipeline's commands run one after the other, its status is that of the last one;
  `set -e`; field splitting of `$x`; `[[ a != b || … ]]`), `make` without prerequisites, what `git diff`, `git status --porcelain`,
  `sha1sum`, `mktemp`, `tee`, `cat`, `rm` do (`CheckEnv`, `Git`, `UpdateEnv`), and that `go generate ./pkg/...` runs the commands of the
  three `gen.go` files in the order of the packages (`goGenerate`).
- For C63: the documentation of `sort.Slice` (`Order`, `Sorter.Sorts`).
- For C62: the same, and what `TestSem` says of `b.N`, `b.Run` (the function is run several times, with positive `b.N`),
  `b.SetBytes`, `b.ResetTimer`, `math.Pow10`, `copy`. Time is not modelled, nor is what the compiler may optimise away.
- That the instruction semantics in `Model/Asm` match the Intel manual; by C69 it is enough to compare `Model/Flat`, which follows the
  manual's pseudo-code.
- Go's rules for slices, integers, evaluation order (operands left to right), zeroed `make`, and the layout
  of an assembly function's arguments (ABI0).
- The compiler, linker, operating system and hardware.

## 4. Disagreements between documented or expected behaviour and the code

1. **Fast readers load past the end of the stream** (C13). `ReadAllFast(17, …)` of seventeen one-byte numbers
   in a stream with `len = cap = 22` loads the byte at offset 24. When the stream holds all the numbers,
   at most 3 bytes past its end are loaded; with a stream that is too short, at most 32. At the end of a
   page followed by an unmapped one this is a crash (`C71_read_fault`). The results do not depend on these bytes (C14).
2. **Fast readers store outside an `out` that is too short** (C40). `ReadAllFast` with `count = 17` and an empty
   `out` overwrites 32 bytes behind it before it panics. The scalar readers store only within `cap(out)`; they
   can store between `len(out)` and `cap(out)`, since `out[a:b]` is checked against the capacity.
3. **Non-positive counts** (C31). `count = 0` does nothing. `ReadAllScalar` with count -1, -2, -3, -5, -6 decodes
   3, 2, 1, 3, 2 numbers; other negative counts that are not multiples of 4 panic; multiples of 4 do nothing.
   The fast readers do nothing for negative counts except the six smallest `int`s, which panic. Counts of
   2^63-3 and more overflow and panic before any memory is changed.
4. **`RandUint32` can produce a number one byte longer than chosen** (C35): the ranges include their upper limit,
   so 256, 65536 and 2^24 come out of the 1-, 2- and 3-byte generators.
5. **`util.Delta` in place** (`in` and `out` the same slice) gives wrong differences from the second on; C34
   needs slices that do not overlap.
6. **`GetVarint` ignores errors of `binary.Uvarint`**: on a truncated varint the position does not move, on an
   overlong one it moves back. The loop ends only because `out` is exhausted and the index panics (C33).
7. **README tool** (C41): the end sentinel is searched from the start of the file, so a code block before the
   benchmark section duplicates text; without an end sentinel the program panics; a benchmark line ending in
   three backquotes breaks the fixpoint. None of this applies to the repository's own README.
8. **Other platforms do not compile**: `writer_base.go` lacks `WriteAllDeltaFast`, `reader_base.go` lacks
   `ReadAllDeltaFast`, and the stubs in `decode_base.go` return `int` where callers expect nothing. The model
   gives the missing stubs the body of the others (C26 shows that none is called). `C57_other*` prove this from
   the texts: exactly `decode.init`, `WriteAllDelta` and `ReadAllDelta` are rejected; `C57_repaired` is a correction.
9. `encode.GetMode` asks for AVX and AVX2, `decode.GetMode` only for AVX. Both are right (C42): the decoders use
   no AVX2 instruction. A machine with AVX only encodes with the scalar code and decodes with the fast code.
10. **Delta writers load every number twice** (C48), once as itself and once as the predecessor of the next one. If a
   number is changed between the two loads, its successor decodes wrongly although nobody changed it, and so do all
   later ones. `C48_writeDelta_neighbour` is a schedule of two goroutines where [5, 9] comes back as [5, 8].
11. **The CPU shows outside the documented arguments** (C26): a negative count decodes numbers on a machine without AVX
   and does nothing with it; `Get8uint32` with too short an input panics without AVX and returns with it.
   A difference that does *not* exist: the spare capacity of a stream is zero on every path (C49), since the
   encoding shuffle table ends every entry with 0xff and `PSHUFB` turns these into zero bytes.
12. **Vector readers load every control byte twice** (C50): the assembly takes shuffle masks from it, then the Go code
   computes from it how far to move on. If another goroutine changes it in between, the result is the decoding of no
   stream that ever existed (the model loads a byte as often as the source mentions it; the Go compiler may keep `ctrls[0]`
   in a register, which removes the effect in some builds): `C50_readFast_mixed` delivers 1, …, 8, 12, …, 20 from data bytes 1, 2, 3, ….  The scalar
   readers load every byte once.

13. **Bytes from behind a truncated stream** (C54): `ReadAllFast` loads 16 bytes at a time and checks the length of the stream
   only when it slices `data[...]` afterwards. On a stream that is too short it stores up to eight words made of bytes behind
   the stream before it panics: `C54_fast_leak`. A caller that recovers from the panic and uses `out` gets them. `ReadAllScalar`
   leaves nothing of an incomplete group, not even its complete numbers (`Get4uint32Scalar` begins with the last number).
14. **The README is lost if writing it fails** (C59): `os.Create` truncates the file before the new text is written.
   `C59_lost`: with `-w` and a write error after k bytes the file holds the first k bytes of the new text only.
15. **README.md:386 is not exact** (C61): the signed minimum leaves *both* top bits of a 4-byte number on only if its byte 1 is
   not 0 (`C61_four_lower`); the README's own example 1073741824 has one. The saturating addition turns the other on.
   Saturation matters for every 4-byte number, not only for those with just the top byte set (README.md:414).
16. **Variables of benchmarks** (C62): `readSinkE` and `readSinkF` of reader_test.go and `readSinkF` of writer_test.go are not
   used; the benchmarks next to them assign `readSinkB` and `readSinkE`. `BenchmarkGet8uint32DeltaVarint` does not sort its
   numbers although the other delta benchmarks do, so it measures larger (wrapped) differences.
17. **What the CI check does not see** (C64): the statuses of `git diff` and `git status` are lost in pipelines, so that without a
   working `git` the check passes whatever `make generate` changes (`C64_git_broken`; a missing `sha1sum`, the last command, stops it);
   changed contents of untracked files (`C64_untracked`); the Makefile has no `.PHONY`, so a file named `generate` switches the
   generators off and the check passes (`C64_not_phony`).
18. **`update_bench.sh` goes on when tests fail** (C64): `go test … | tee` has the status of `tee` (no `pipefail`), so the README
   gets the benchmarks of a failed run (`C64_update_replace` holds for every status of `go test`). When the tool fails, the
   temporary file is not removed (`C64_update_fail`).
19. **The README's `decodeOne` slices `input[:size]`** (C65): that checks the capacity, so a slice shorter than the number may
   give a number made of bytes behind it (`C65_decodeOne_differ`); the library's `decodeOne` indexes and panics.
20. **Overlapping arguments** (C73): the vector code tolerates them, most scalar functions do not (`Put8uint32DeltaScalar` reads
   `in[3]`, and `PutUint32DeltaScalar` reads `in[i]`, again after storing; `Get8uint32Scalar` stores the first four numbers before
   it reads the bytes of the last four). Nothing in the documentation excludes it; only `unsafe` makes such slices.
21. **32-bit platforms** (C76): `WriteAll` panics for more than 505290269 numbers although the stream of small numbers would fit,
   because the worst-case size overflows `int`. The panic is `makeslice: len out of range` up to 1010580540 numbers; from there
   on the size wraps to a small positive number, and `stream[dataPos:]` panics after the allocation.
22. `PutDeltaVarint` (`pkg/util/varint.go:27-36`) takes `prev` from `nums[i]` after it has written the varint of `nums[i]`. Where
    `out` begins at `nums`, `PutVarint` is right for all numbers below 2^28 but `PutDeltaVarint` is wrong even for `[2, 3]`
    (`C79_putDeltaVarint_inplace_wrong`). `Delta(in, in)` gives alternating sums (`C79_delta_inplace`).

## 5. Mutation tests

`seeded/LOG.jsonl` has one line per wrong program. Each was made in a scratch copy, all dependent modules were
re-elaborated with error recovery, and the property theorems that then depended on a failed proof were listed.

Besides hand-made edits there are two campaigns of random ones (ids `auto*`, `autob*`): a script picks a definition of the model and
exchanges, drops or alters one token or argument. Of the 120 of the first campaign 38 did not compile and 82 made theorems fail; none
survived. Of the 110 of the second 48 did not compile and 56 made theorems fail. Six survived its build, which leaves out the modules
about source texts: two change nothing (names or order of parameters), and four edit `Word32`, whose theorems were left out with
them; rebuilt with those theorems (`z16a1`, `z16a2`, `z17c`, `z17d`) all four make C76 fail. Two of the 56 had run into the time limit;
run again (`z17a`, `z17b`) they make C81 and C67 fail. Edits that change no behaviour are logged as controls.
