import Verif.Model.ScriptText
import Verif.Model.ScriptSources
import Verif.Model.GoSources

/-! Print the parsed programs as Lean definitions: `lake env lean --run ../scripts/print_scripts.txt >
Verif/Model/ScriptFiles.lean` in /verif/lean.  `Verif.Proofs.ScriptParse` proves that they are what the parser returns. -/

open SVB.Script SVB.Sources

partial def unpack (n : Nat) (acc : List Char := []) : String :=
  if n = 0 then String.ofList acc else unpack (n / 256) (Char.ofNat (n % 256) :: acc)

def nm (n : Nat) : String := if n = 0 then "0" else "n!\"" ++ unpack n ++ "\""

def ty : Ty → String
  | .named n => s!"(.named {nm n})"
  | .qual p n => s!"(.qual {nm p} {nm n})"
  | .slice t => s!"(.slice {ty t})"
  | .array n t => s!"(.array {n} {ty t})"
  | .ptr t => s!"(.ptr {ty t})"
  | .any => ".any"
  | .fn => ".fn"

def op : Op → String
  | .add => ".add" | .sub => ".sub" | .mul => ".mul" | .div => ".div" | .rem => ".rem" | .and => ".and" | .or => ".or"
  | .shl => ".shl" | .shr => ".shr" | .eq => ".eq" | .ne => ".ne" | .lt => ".lt" | .le => ".le" | .gt => ".gt" | .ge => ".ge"
  | .land => ".land" | .lor => ".lor"

def opt {α : Type} (f : α → String) : Option α → String
  | none => "none"
  | some a => s!"(some {f a})"

def pair (a : Nat × Ty) : String := s!"({nm a.1}, {ty a.2})"
def pairs (l : List (Nat × Ty)) : String := s!"[{", ".intercalate (l.map pair)}]"

mutual
partial def ex (ind : String) : Expr → String
  | .var n => s!"(.var {nm n})"
  | .num n => s!"(.num {n})"
  | .str t => s!"(.str {t})"
  | .dot e n => s!"(.dot {ex ind e} {nm n})"
  | .bin o a b => s!"(.bin {op o} {ex ind a} {ex ind b})"
  | .index a i => s!"(.index {ex ind a} {ex ind i})"
  | .slice a i j => s!"(.slice {ex ind a} {opt (ex ind) i} {opt (ex ind) j})"
  | .call f as s => s!"(.call {ex ind f} [{", ".intercalate (as.map (ex ind))}] {s})"
  | .type t => s!"(.type {ty t})"
  | .lit t es => s!"(.lit {ty t} [{", ".intercalate (es.map fun e => s!"({nm e.1}, {ex ind e.2})")}])"
  | .func ps rs b => s!"(.func {pairs ps} {pairs rs} {blk ind b})"
  | .addr e => s!"(.addr {ex ind e})"
  | .deref e => s!"(.deref {ex ind e})"

partial def blk (ind : String) (b : List Stmt) : String :=
  if b.isEmpty then "[]" else "[\n" ++ ",\n".intercalate (b.map fun s => ind ++ "  " ++ st (ind ++ "  ") s) ++ "]"

partial def st (ind : String) : Stmt → String
  | .define xs e => s!".define [{", ".intercalate (xs.map nm)}] {ex ind e}"
  | .var x t e => s!".var {nm x} {opt ty t} {opt (ex ind) e}"
  | .assign ls e => s!".assign [{", ".intercalate (ls.map (ex ind))}] {ex ind e}"
  | .update o l e => s!".update {op o} {ex ind l} {ex ind e}"
  | .expr e => s!".expr {ex ind e}"
  | .ret es => s!".ret [{", ".intercalate (es.map (ex ind))}]"
  | .ite i c t e => s!".ite {blk ind i} {ex ind c} {blk ind t} {blk ind e}"
  | .loop i c q b => s!".loop {blk ind i} {ex ind c} {blk ind q} {blk ind b}"
  | .range k v e b => s!".range {nm k} {nm v} {ex ind e} {blk ind b}"
  | .defer e => s!".defer {ex ind e}"
end

def fn (pre : String) (f : Func) : String :=
  s!"/-- `{unpack f.name}` -/\ndef {pre}_{unpack f.name} : Func where\n  name := {nm f.name}\n" ++
  s!"  params := {pairs f.params}\n  results := {pairs f.results}\n  body := {blk "  " f.body}\n"

def file (pre path : String) (f : File) : String :=
  s!"/-! ## `/repo/{path}` -/\n\n" ++ "\n".intercalate (f.funcs.map (fn pre)) ++
  s!"\n/-- `/repo/{path}` -/\ndef {pre} : File where\n  pkg := {nm f.pkg}\n" ++
  s!"  imports := [{", ".intercalate (f.imports.map nm)}]\n" ++
  s!"  dots := [{", ".intercalate (f.dots.map nm)}]\n" ++
  s!"  types := [{", ".intercalate (f.types.map nm)}]\n" ++
  s!"  consts := [{", ".intercalate (f.consts.map fun (x, e) => s!"({nm x}, {ex "    " e})")}]\n" ++
  s!"  vars := [{", ".intercalate (f.vars.map fun (x, e) => s!"({nm x}, {ex "    " e})")}]\n" ++
  s!"  funcs := [{", ".intercalate (f.funcs.map fun g => s!"{pre}_{unpack g.name}")}]\n"

def all : List (String × String × List Nat) := [
  ("gentables", "pkg/shared/main/gentables.go", gentablesGo), ("sharedAsm", "pkg/shared/asm.go", sharedAsmGo),
  ("encAsm", "pkg/encode/main/asm.go", encodeAsmGo), ("decAsm", "pkg/decode/main/asm.go", decodeAsmGo),
  ("rand", "pkg/util/rand.go", randGo), ("util", "pkg/util/util.go", utilGo),
  ("bench", "tools/parse_and_write_bench.go", benchGo)]

def main : IO Unit := do
  IO.print ("import Verif.Model.ScriptText\n\n/-!\n# The programs of `/repo`, parsed\n\n" ++
    "GENERATED by `/verif/scripts/print_scripts.txt`.  `Verif.Proofs.ScriptParse` proves that this is what `Script.parse`\n" ++
    "returns for the texts in `ScriptSources.lean` and `GoSources.lean`.\n-/\n\nset_option autoImplicit false\n\nnamespace SVB.Script.Files\n\n")
  for (pre, path, src) in all do
    match parse src with
    | some f => IO.println (file pre path f)
    | none => throw (IO.userError ("not understood: " ++ path))
  IO.println "end SVB.Script.Files"
