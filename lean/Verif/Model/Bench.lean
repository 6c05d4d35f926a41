import Verif.Model.Prog

/-! # Model of `tools/parse_and_write_bench.go`

The program reads benchmark output from standard input and replaces the benchmark section of the README.
Files and strings are lists of bytes.  Not modelled: failing file operations (each ends the program with
`log.Fatalf`), and the choice between writing the file and printing the result; C59 has them, from the text. -/

set_option autoImplicit false

namespace SVB.Bench

/-- A Go string constant (ASCII). -/
def str (cs : List Char) : List Byte := cs.map fun c => BitVec.ofNat 8 c.toNat

/-- The constants, `/repo/tools/parse_and_write_bench.go:16-25`. -/
def goos : List Byte := str ['g', 'o', 'o', 's']
def goarch : List Byte := str ['g', 'o', 'a', 'r', 'c', 'h']
def pkg : List Byte := str ['p', 'k', 'g']
def cpu : List Byte := str ['c', 'p', 'u']
def benchmark : List Byte := str ['B', 'e', 'n', 'c', 'h', 'm', 'a', 'r', 'k']
def dashes : List Byte := str ['-', '-']
def startSentinel : List Byte :=
  str ['#', '#', ' ', 'B', 'e', 'n', 'c', 'h', 'm', 'a', 'r', 'k', 's', '\n', '\n', '`', '`', '`', 't', 'e',
    'x', 't', '\n']
def endSentinel : List Byte := str ['`', '`', '`', '\n']

/-- `validPrefixes`, `/repo/tools/parse_and_write_bench.go:28-34`. -/
def validPrefixes : List (List Byte) := [goos, goarch, pkg, cpu, benchmark]

/-- `strings.HasPrefix`. -/
def hasPrefix (s p : List Byte) : Bool := p.isPrefixOf s

/-- `strings.TrimPrefix`. -/
def trimPrefix (s p : List Byte) : List Byte := if hasPrefix s p then s.drop p.length else s

/-- `anyPrefix`, `/repo/tools/parse_and_write_bench.go:40-48`. -/
def anyPrefix (s : List Byte) : Bool := validPrefixes.any (hasPrefix s)

/-- `dropCR` of `bufio.ScanLines`: drops one trailing carriage return. -/
def dropCR (l : List Byte) : List Byte := if l.getLast? = some 13 then l.dropLast else l

/-- The tokens of `bufio.ScanLines` before `dropCR`: the text between newlines, and a last unterminated line
unless it is empty.  `cur` is the line read so far. -/
def rawLines : List Byte → List Byte → List (List Byte)
  | [], cur => if cur = [] then [] else [cur]
  | b :: bs, cur => if b = 10 then cur :: rawLines bs [] else rawLines bs (cur ++ [b])

/-- `bufio.Scanner` stops with `ErrTooLong` at a line that does not fit its 64 KiB buffer together with its
newline. -/
def tooLong (input : List Byte) : Bool := (rawLines input []).any fun l => decide (65536 ≤ l.length)

/-- One iteration of the scanning loop, `/repo/tools/parse_and_write_bench.go:58-76`.
State: `hasBench`, `lines`. -/
def scanStep (s : Bool × List (List Byte)) (line : List Byte) : Bool × List (List Byte) :=
  if anyPrefix line then
    let emitDash := hasPrefix line cpu
    let hasBench := s.1 || hasPrefix line benchmark
    let emitNewline := hasBench && hasPrefix line goos
    let lines := if emitNewline then s.2 ++ [[]] else s.2
    let line := if hasBench then trimPrefix line benchmark else line
    let lines := lines ++ [line]
    let lines := if emitDash then lines ++ [dashes] else lines
    (hasBench, lines)
  else s

/-- The collected lines, `/repo/tools/parse_and_write_bench.go:52-76`. -/
def collect (input : List Byte) : List (List Byte) :=
  (((rawLines input []).map dropCR).foldl scanStep (false, [])).2

/-- `strings.Join(lines, "\n")`. -/
def join : List (List Byte) → List Byte
  | [] => []
  | [l] => l
  | l :: ls => l ++ 10 :: join ls

/-- `bytes.Index`; `none` is `-1`. -/
def index (p : List Byte) : List Byte → Option Nat
  | [] => if p.isPrefixOf [] then some 0 else none
  | b :: s => if p.isPrefixOf (b :: s) then some 0 else (index p s).map (· + 1)

/-- How the program ends: it writes a file, stops with a message, or panics. -/
inductive Result where
  | written (file : List Byte)
  | fatal
  | panic
deriving DecidableEq

/-- `main`, `/repo/tools/parse_and_write_bench.go:50-126`.  `allData[restStart:]` panics if the end sentinel
is not found (`restStart = -1`). -/
def rewrite (readme input : List Byte) : Result :=
  if tooLong input then .fatal else
  match index startSentinel readme with
  | none => .fatal
  | some start =>
    match index endSentinel readme with
    | none => .panic
    | some restStart =>
      .written (readme.take start ++ startSentinel ++ join (collect input) ++ [10] ++ readme.drop restStart)

end SVB.Bench
