import Verif.Model.Prog
import Verif.Model.Tables
import Verif.Model.Shared
import Verif.Model.Encode
import Verif.Model.Decode
import Verif.Model.Asm
import Verif.Model.Writer
import Verif.Model.Reader
import Verif.Model.Dispatch
import Verif.Spec
import Verif.Setting
import Verif.Proofs.Wp
import Verif.Proofs.Num
import Verif.Proofs.EncScalar
import Verif.Proofs.DecScalar
import Verif.Proofs.AsmDec
import Verif.Proofs.AsmEnc
import Verif.Proofs.Arith
import Verif.Proofs.WriterCommon
import Verif.Proofs.WriterScalar
import Verif.Proofs.WriterFast
import Verif.Proofs.ReaderCommon
import Verif.Proofs.ReaderScalar
import Verif.Proofs.ReaderFast
import Verif.Proofs.Bridge
import Verif.Proofs.BridgeDec
import Verif.Proofs.SpecFacts
import Verif.Proofs.Results
import Verif.Proofs.Blocks
import Verif.Proofs.Safe
import Verif.Proofs.SafeStream
import Verif.Model.Conc
import Verif.Proofs.Conc
import Verif.Model.Util
import Verif.Model.Bench
import Verif.SpecUtil
import Verif.Proofs.Varint
import Verif.Proofs.VarintStream
import Verif.Proofs.AsmRegs
import Verif.Proofs.Work
import Verif.Proofs.WorkRead
import Verif.Proofs.WorkDead
import Verif.Model.Race
import Verif.Model.Gen
import Verif.Proofs.SafeWriter
import Verif.Proofs.Race
import Verif.Proofs.Gen
import Verif.Model.Rely
import Verif.Proofs.Sim
import Verif.Proofs.SimWriter
import Verif.Proofs.SimAsm
import Verif.Proofs.SimLoops
import Verif.Proofs.SimWriters
import Verif.Proofs.SimThreads
import Verif.Proofs.Snap
import Verif.Proofs.SnapBlocks
import Verif.Proofs.SnapAsm
import Verif.Proofs.SnapReaders
import Verif.Proofs.SnapSpec
import Verif.Props.Writers
import Verif.Props.Readers
import Verif.Props.RoundTrip
import Verif.Props.Blocks
import Verif.Props.Tables
import Verif.Props.Dispatch
import Verif.Props.Counts
import Verif.Props.Safety
import Verif.Props.Concurrency
import Verif.Props.Util
import Verif.Props.Bench
import Verif.Props.Registers
import Verif.Props.Work
import Verif.Props.Sizes
import Verif.Props.Races
import Verif.Props.Generator
import Verif.Props.RacyWriter
import Verif.Props.RacyReader
import Verif.Props.SpareCap
import Verif.Props.NegCounts
import Verif.Proofs.Canon
import Verif.Proofs.Local
import Verif.Props.Reencode
import Verif.Props.Access
import Verif.Props.PanicState
import Verif.Model.Sources
import Verif.Model.SourceText
import Verif.Model.AsmText
import Verif.Model.AsmPrint
import Verif.Model.GenTables
import Verif.Proofs.Sources
import Verif.Proofs.SourceArrays
import Verif.Props.SourceFiles
import Verif.Model.GoText
import Verif.Model.GoSources
import Verif.Model.GoFiles
import Verif.Model.GoSem
import Verif.Model.GoTypes
import Verif.Model.GoProgram
import Verif.Proofs.GoParse
import Verif.Proofs.GoBasics
import Verif.Proofs.GoAttr
import Verif.Proofs.GoNames
import Verif.Proofs.GoTac
import Verif.Proofs.GoEncode
import Verif.Proofs.GoDecode
import Verif.Proofs.GoWriter
import Verif.Proofs.GoReader
import Verif.Proofs.GoUtil
import Verif.Proofs.GoProgram
import Verif.Props.GoText
import Verif.Proofs.GoSafe
import Verif.Proofs.GoSoundOps
import Verif.Proofs.GoSound
import Verif.Proofs.GoStart
import Verif.Props.GoBuild
import Verif.Model.ScriptText
import Verif.Model.ScriptSources
import Verif.Model.ScriptFiles
import Verif.Model.ScriptSem
import Verif.Model.Generate
import Verif.Proofs.ScriptParse
import Verif.Proofs.ScriptBasics
import Verif.Proofs.ScriptTables
import Verif.Proofs.ScriptRowsLengths
import Verif.Proofs.ScriptRowsEncode
import Verif.Proofs.ScriptRowsDecode
import Verif.Proofs.ScriptTablesMain
import Verif.Props.Generate
import Verif.Proofs.ScriptBench
import Verif.Proofs.ScriptBytes
import Verif.Proofs.ScriptRand
import Verif.Props.Programs
import Verif.Model.TestSources
import Verif.Model.TestFiles
import Verif.Model.TestSem
import Verif.Model.Tests
import Verif.Proofs.TestParse
import Verif.Proofs.TestText
import Verif.Proofs.TestSteps
import Verif.Proofs.TestRun
import Verif.Props.Tests
import Verif.Props.Readme
import Verif.SpecBench
import Verif.Model.Benchmarks
import Verif.Proofs.BenchText
import Verif.Proofs.BenchRun
import Verif.Props.Benchmarks
import Verif.Model.SortSem
import Verif.SpecSort
import Verif.Proofs.SortRun
import Verif.Props.Sort
import Verif.Model.ShellSources
import Verif.Model.Shell
import Verif.Proofs.ShellRun
import Verif.Props.Scripts
import Verif.Model.ReadmeCode
import Verif.Props.Formats
import Verif.Proofs.Lock
import Verif.Proofs.LockRead
import Verif.Proofs.LockWrite
import Verif.Props.Oblivious
import Verif.Model.Client
import Verif.Proofs.Client
import Verif.Props.Client
import Verif.Props.Shift
import Verif.Model.Flat
import Verif.Proofs.FlatBits
import Verif.Proofs.Flat
import Verif.Proofs.FlatCall
import Verif.Props.Flat
import Verif.Model.FlatRun
import Verif.Proofs.FlatRun
import Verif.Proofs.FlatExist
import Verif.Props.FlatRun
import Verif.Model.FlatAcc
import Verif.Proofs.FlatAcc
import Verif.Props.FlatAcc
import Verif.Props.SizeLaws
import Verif.Props.Overlap
import Verif.Proofs.FlatReach
import Verif.Props.FlatReach
import Verif.Props.Timed
import Verif.Model.Word32
import Verif.Proofs.Word32
import Verif.Props.Word32
import Verif.Proofs.Cost
import Verif.Proofs.CostStream
import Verif.Proofs.CostUtil
import Verif.Props.Cost
import Verif.Props.Together
import Verif.SpecOverlap
import Verif.Proofs.OverlapUtil
import Verif.Props.OverlapUtil
import Verif.SpecVByte
import Verif.Props.VByte
import Verif.Model.Endian
import Verif.Proofs.Endian
import Verif.Props.Endian
import Verif.Props.Patch
import Verif.Props.Lanes
import Verif.Model.Archive
import Verif.Props.Archive
import Verif.Model.Parallel
import Verif.Proofs.Parallel
import Verif.Props.Parallel
import Verif.Model.Word32Util
import Verif.Proofs.Word32Util
import Verif.Props.Word32Util
import Verif.Proofs.OnlyUtil
import Verif.Model.Chunked
import Verif.Props.Chunked
import Verif.Model.Extract
import Verif.Props.Extract
import Verif.Props.Append
import Verif.Model.Replace
import Verif.Props.Replace
import Verif.Model.Seek
import Verif.Props.Seek
import Verif.AxiomCheck
