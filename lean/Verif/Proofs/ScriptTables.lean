import Verif.Model.ScriptSem
import Verif.Model.ScriptFiles
import Verif.Proofs.ScriptBasics

/-!
# The program `gentables` as the interpreter runs it: context, states, sixteen rows of a table

The rows of the tables are evaluated by the kernel, sixteen rows at a time (`ScriptRows*.lean`); what is not known there
(the text so far, the closures so far, the rest of the state) stays a variable.
-/

set_option autoImplicit false
set_option maxRecDepth 100000

namespace SVB.Script.Tables

open SVB.Sources SVB.Gen

/-- The files of the program: package `util`, then `main`. -/
def files : List File := [Files.util, Files.rand, Files.gentables]

/-- A function literal of `generators` (`/repo/pkg/util/rand.go`, lines 21–38). -/
def genClosure (lo hi : Expr) : Closure :=
  ⟨n!"util", [], [(0, .named n!"uint32")], [.ret [.call (.var n!"randUint32Range") [lo, hi] false]], []⟩

def pow (k : Nat) : Expr := .bin .shl (.num 1) (.num k)

def genClosures : List Closure :=
  [genClosure (.num 0) (pow 8), genClosure (pow 8) (pow 16), genClosure (pow 16) (pow 24),
    genClosure (pow 24) (.dot (.var n!"math") n!"MaxUint32")]

/-- Package-level variables and constants after initialisation, last first. -/
def vars : List ((Nat × Nat) × V) :=
  [((n!"main", n!"fPackage"), .flag (asc "package".toList) (.str (asc "shared".toList))),
    ((n!"main", n!"fOut"), .flag (asc "out".toList) (.str [])),
    ((n!"main", n!"commentStr"), .str (asc "\t// %d\t%#02x\t%08b\tlen\t%d\t%d\t%d\t%d\n".toList)),
    ((n!"main", n!"shuffleFmtStr"), .str (asc
      "%#02x, %#02x, %#02x, %#02x, %#02x, %#02x, %#02x, %#02x, %#02x, %#02x, %#02x, %#02x, %#02x, %#02x, %#02x, %#02x},".toList)),
    ((n!"main", n!"MaxControlByte"), .int .const 256),
    ((n!"util", n!"generators"), .list [.clos 0, .clos 1, .clos 2, .clos 3])]

def ctx : Ctx := ⟨files, vars⟩

/-- A world whose loops are cut off after 300 iterations; the longest loop of the program has 256. -/
def bounded (w : World) : World :=
  ⟨w.args, w.canCreate, w.canRead, w.writeFails, w.disk, w.getenv, w.inputErr, w.uint32, w.int63, 300⟩

/-- A state with these closures and one buffer, in a function that has deferred nothing. -/
def st (s : St) (cl : List Closure) (ts : Text) : St :=
  ⟨cl, [ts], [], s.flags, s.parsed, s.files, s.stdout, s.input, s.line, s.draws, s.consts, s.fns, s.generated⟩

/-- Parts of the loop that is the third statement of a function. -/
def loopOf (f : Func) : Expr × List Stmt × List Stmt :=
  match f.body with
  | [_, _, .loop _ c post body, _, _] => (c, post, body)
  | _ => (.num 0, [], [])

/-- What `newLineAfter(perLine)` returns, `count` being the value of its variable. -/
def tab (perLine count : Nat) : Closure :=
  match Files.gentables_newLineAfter.body with
  | [_, .ret [.func ps rs b]] =>
    ⟨n!"main", ps, rs, b, [(n!"count", .int .int (Int.ofNat count)), (n!"countPerLine", .int .int (Int.ofNat perLine))]⟩
  | _ => ⟨0, [], [], [], []⟩

/-- A function that writes a table, and what it is to write: the header, `perLine` and the rows; `m` closures have been
made before. -/
structure Table where
  fn : Func
  m : Nat
  header : Text
  perLine : Nat
  row : Nat → Text

/-- Variables at the loop. -/
def Table.env (T : Table) (i : Nat) : Env :=
  [(n!"i", .int .int (Int.ofNat i)), (n!"tabber", .clos T.m), (n!"out", .buf 0)]

/-- The loop with `n` iterations allowed. -/
def Table.loop (T : Table) (d n : Nat) (w : World) (i : Nat) (s : St) : Res Flow :=
  let I := Interp.depth ctx (d + 35)
  forLoop (loopCond I n!"main" (loopOf T.fn).1) (loopBody I n!"main" (loopOf T.fn).2.1 (loopOf T.fn).2.2) n (T.env i)
    (bounded w) s

/-- Row `i` with what `tabber` writes behind it. -/
def Table.line (T : Table) (i : Nat) : Text := T.row i ++ GenTables.newLineAfter T.perLine (i + 1)

/-- The state before row `i`, from the closures made before the loop and the text so far. -/
def Table.state (T : Table) (s : St) (cl : List Closure) (i : Nat) (ts : Text) : St :=
  st s (cl.take T.m ++ [tab T.perLine (i + 1)]) ts

/-- Sixteen rows. -/
def Table.Chunk (T : Table) (k : Nat) : Prop :=
  ∀ (d : Nat) (w : World) (s : St) (c₀ c₁ c₂ c₃ c₄ c₅ c₆ : Closure) (n : Nat) (ts : Text),
    T.loop d (n + 16) w (16 * k) (T.state s [c₀, c₁, c₂, c₃, c₄, c₅, c₆] (16 * k) ts) =
      T.loop d n w (16 * k + 16) (T.state s [c₀, c₁, c₂, c₃, c₄, c₅, c₆] (16 * k + 16)
        (((List.range 16).flatMap fun j => T.line (16 * k + j)).reverse ++ ts))

def perNumTable : Table where
  fn := Files.gentables_genPerNumLengthTable
  m := 4
  header := 10 :: asc "var PerNumLenTable *[256][4]uint8 = &[256][4]uint8{".toList ++ [10]
  perLine := 4
  row := GenTables.perNumRow

def perQuadTable : Table where
  fn := Files.gentables_genPerQuadLengthTable
  m := 5
  header := 10 :: asc "var PerControlLenTable *[256]uint8 = &[256]uint8{".toList ++ [10]
  perLine := 8
  row := fun i => 9 :: (GenTables.fmtD (genPerQuad i) ++ [44])

def encodeTable : Table where
  fn := Files.gentables_genEncodeShuffleTable
  m := 6
  header := 10 :: asc "var EncodeShuffleTable *[256][16]uint8 = &[256][16]uint8{".toList ++ [10]
  perLine := 1
  row := fun i => GenTables.comment i ++ GenTables.shuffleRow (genEncRow i)

def decodeTable : Table where
  fn := Files.gentables_genDecodeShuffleTable
  m := 7
  header := 10 :: asc "var DecodeShuffleTable *[256][16]uint8 = &[256][16]uint8{".toList ++ [10]
  perLine := 1
  row := fun i => GenTables.comment i ++ GenTables.shuffleRow (genDecRow i)

open Lean in
/-- `chunks x T` declares `x_0 : T.Chunk 0` … `x_15 : T.Chunk 15`, each one evaluation by the kernel. -/
macro "chunks " x:ident t:term : command => do
  let mut cs : Array Syntax := #[]
  for k in [0:16] do
    let nm := mkIdent (x.getId.appendAfter s!"_{k}")
    cs := cs.push (← `(theorem $nm : Table.Chunk $t $(quote k) := by intro d w s c₀ c₁ c₂ c₃ c₄ c₅ c₆ n ts; kernel_rfl))
  return ⟨mkNullNode cs⟩

theorem init (w : World) (d : Nat) :
    initVars (d + 10) files (globals files) [] w {} =
      .ok vars { clos := genClosures, flags := [asc "package".toList, asc "out".toList] } := by
  kernel_rfl

end SVB.Script.Tables
