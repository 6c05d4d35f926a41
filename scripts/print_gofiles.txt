import Verif.Model.GoText
import Verif.Model.Sources
import Verif.Model.GoSources

/-! Print the parsed Go files as Lean definitions: `lake env lean --run ../scripts/print_gofiles.txt > Verif/Model/GoFiles.lean`
in /verif/lean.  `Verif.Proofs.GoParse` proves that they are what the parser returns. -/

open SVB.Go SVB.Sources

partial def unpack (n : Nat) (acc : List Char := []) : String :=
  if n = 0 then String.ofList acc else unpack (n / 256) (Char.ofNat (n % 256) :: acc)

def nm (n : Nat) : String := if n = 0 then "0" else "n!\"" ++ unpack n ++ "\""

def ty : GoType → String
  | .named n => s!"(.named {nm n})"
  | .qual p n => s!"(.qual {nm p} {nm n})"
  | .slice t => s!"(.slice {ty t})"
  | .array n t => s!"(.array {n} {ty t})"
  | .ptr t => s!"(.ptr {ty t})"

def op : Op → String
  | .add => ".add" | .sub => ".sub" | .mul => ".mul" | .div => ".div" | .and => ".and" | .or => ".or" | .andNot => ".andNot"
  | .shl => ".shl" | .shr => ".shr" | .eq => ".eq" | .ne => ".ne" | .lt => ".lt" | .le => ".le" | .gt => ".gt" | .ge => ".ge"
  | .land => ".land"

partial def ex : Expr → String
  | .var n => s!"(.var {nm n})"
  | .num n => s!"(.num {n})"
  | .str t => s!"(.str {t})"
  | .dot e n => s!"(.dot {ex e} {nm n})"
  | .bin o a b => s!"(.bin {op o} {ex a} {ex b})"
  | .index a i => s!"(.index {ex a} {ex i})"
  | .from a i => s!"(.from {ex a} {ex i})"
  | .upto a i => s!"(.upto {ex a} {ex i})"
  | .range a i j => s!"(.range {ex a} {ex i} {ex j})"
  | .call f as => s!"(.call {ex f} [{", ".intercalate (as.map ex)}])"
  | .type t => s!"(.type {ty t})"

def opt {α : Type} (f : α → String) : Option α → String
  | none => "none"
  | some a => s!"(some {f a})"

partial def st (ind : String) (s : Stmt) : String :=
  let blk (b : List Stmt) : String :=
    if b.isEmpty then "[]" else "[\n" ++ ",\n".intercalate (b.map fun s => ind ++ "  " ++ st (ind ++ "  ") s) ++ "]"
  match s with
  | .define xs e => s!".define [{", ".intercalate (xs.map nm)}] {ex e}"
  | .var x t e => s!".var {nm x} {opt ty t} {opt ex e}"
  | .assign l e => s!".assign {ex l} {ex e}"
  | .update o l e => s!".update {op o} {ex l} {ex e}"
  | .expr e => s!".expr {ex e}"
  | .ret es => s!".ret [{", ".intercalate (es.map ex)}]"
  | .ite c t e => s!".ite {ex c} {blk t} {blk e}"
  | .loop i c q b => s!".loop {blk i} {ex c} {blk q} {blk b}"
  | .range x e b => s!".range {nm x} {ex e} {blk b}"
  | .switch e cs => s!".switch {ex e} [\n" ++ ",\n".intercalate (cs.map fun (v, b, f) =>
      ind ++ "  (" ++ ex v ++ ", " ++ blk b ++ s!", {f})") ++ "]"

def pair (a : Nat × GoType) : String := s!"({nm a.1}, {ty a.2})"

def fn (pre : String) (f : Func) : String :=
  s!"/-- `{unpack f.name}` -/\ndef {pre}_{unpack f.name} : Func where\n  name := {nm f.name}\n" ++
  s!"  params := [{", ".intercalate (f.params.map pair)}]\n  results := [{", ".intercalate (f.results.map pair)}]\n" ++
  "  body := " ++ (match f.body with
    | none => "none\n"
    | some b => "some [\n" ++ ",\n".intercalate (b.map fun s => "    " ++ st "    " s) ++ "]\n")

def tdecl : TypeDecl → String
  | .of t => s!".of {ty t}"
  | .fn ps rs => s!".fn [{", ".intercalate (ps.map pair)}] [{", ".intercalate (rs.map pair)}]"

def file (pre path : String) (f : File) : String :=
  s!"/-! ## `/repo/pkg/{path}` -/\n\n" ++ "\n".intercalate (f.funcs.map (fn pre)) ++
  s!"\n/-- `/repo/pkg/{path}` -/\ndef {pre} : File where\n  pkg := {nm f.pkg}\n" ++
  s!"  imports := [{", ".intercalate (f.imports.map nm)}]\n" ++
  s!"  types := [{", ".intercalate (f.types.map fun (x, t) => s!"({nm x}, {tdecl t})")}]\n" ++
  s!"  consts := [{", ".intercalate (f.consts.map fun (x, t, e, k) => s!"({nm x}, {opt ty t}, {ex e}, {k})")}]\n" ++
  s!"  vars := [{", ".intercalate (f.vars.map pair)}]\n" ++
  s!"  funcs := [{", ".intercalate (f.funcs.map fun g => s!"{pre}_{unpack g.name}")}]\n"

def all : List (String × String × List Nat) := [
  ("gen", "shared/gen.go", genGo), ("mode", "shared/mode.go", modeGo),
  ("enc", "encode/encode.go", encodeMainGo), ("encAmd64", "encode/encode_amd64.go", encodeGo),
  ("encBase", "encode/encode_base.go", encodeBaseGo),
  ("dec", "decode/decode.go", decodeMainGo), ("decAmd64", "decode/decode_amd64.go", decodeGo),
  ("decBase", "decode/decode_base.go", decodeBaseGo),
  ("wr", "stream/writer/writer.go", writerGo), ("wrAmd64", "stream/writer/writer_amd64.go", writerAmd64Go),
  ("wrBase", "stream/writer/writer_base.go", writerBaseGo),
  ("rd", "stream/reader/reader.go", readerGo), ("rdAmd64", "stream/reader/reader_amd64.go", readerAmd64Go),
  ("rdBase", "stream/reader/reader_base.go", readerBaseGo),
  ("vint", "util/varint.go", varintGo), ("util", "util/util.go", utilGo)]

def main : IO Unit := do
  IO.print ("import Verif.Model.GoText\n\n/-!\n# The Go files of `/repo/pkg`, parsed\n\n" ++
    "GENERATED by `/verif/scripts/print_gofiles.txt`.  `Verif.Proofs.GoParse` proves that this is what `parseGo` returns for the\n" ++
    "texts in `Sources.lean` and `GoSources.lean`.\n-/\n\nset_option autoImplicit false\n\nnamespace SVB.Go.Files\n\n")
  for (pre, path, src) in all do
    match parseGo src with
    | some f => IO.println (file pre path f)
    | none => throw (IO.userError ("not understood: " ++ path))
  IO.println "end SVB.Go.Files"
