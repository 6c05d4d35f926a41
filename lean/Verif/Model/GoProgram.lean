import Verif.Model.Sources
import Verif.Model.GoSources
import Verif.Model.GoSem

/-!
# The library as a program: the files of `/repo/pkg` that belong to a build, parsed

`/repo/pkg/shared/tables.go` (data only, read in `SourceText.lean`) and `/repo/pkg/util/rand.go` are not among them.
-/

set_option autoImplicit false

namespace SVB.Go
open SVB.Sources

/-- The texts of the files, in the order of their directories. -/
def goTexts : List (List Nat) :=
  [genGo, modeGo, encodeMainGo, encodeGo, encodeBaseGo, decodeMainGo, decodeGo, decodeBaseGo, writerGo, writerAmd64Go,
    writerBaseGo, readerGo, readerAmd64Go, readerBaseGo, varintGo, utilGo]

/-- The build constraint in the first line of a file (a line is its bytes followed by two bytes for its number). -/
def buildTag (text : List Nat) : Option Bool :=
  match text with
  | [] => none
  | l :: _ =>
    if l = n!"// +build amd64" * 65536 + 1 then some true
    else if l = n!"// +build !amd64" * 65536 + 1 then some false
    else none

/-- Does the file belong to a build for the machine? -/
def builtFor (c : Cpu) (text : List Nat) : Bool :=
  match buildTag text with
  | some b => b == c.amd64
  | none => true

/-- The program built for the machine. -/
def goProgram (c : Cpu) : Option Program := (goTexts.filter (builtFor c)).mapM parseGo

/-- The world in which calls are made: the program is the one built from the texts, and its variables are what its `init`
functions have stored in them. -/
structure Started (W : World) : Prop where
  text : goProgram W.cpu = some W.prog
  init : initAll { W with vars := fun _ => none } 2 = .ret W.vars

end SVB.Go
