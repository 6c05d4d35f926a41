import Verif.Model.ScriptSem
import Verif.Model.AsmPrint

/-!
# `go generate`

The commands in the `gen.go` files, and what `avo` prints when a program has called `Generate()`
(`/repo/pkg/encode/main/asm.go:40`, `/repo/pkg/decode/main/asm.go:38`).

What is not modelled: the register allocation of `avo`; it is a parameter of `avoFile`.
-/

set_option autoImplicit false

namespace SVB.Script

open SVB.Sources SVB.Gen SVB.Asm

/-! ## Commands -/

/-- Words between blanks. -/
def wordsOf : Text → Text → List Text
  | [], cur => if cur.isEmpty then [] else [cur.reverse]
  | c :: cs, cur =>
    if c = 32 then (if cur.isEmpty then wordsOf cs [] else cur.reverse :: wordsOf cs []) else wordsOf cs (c :: cur)

/-- `-name value …` -/
def flagsOf : List Text → Option (List (Text × Text))
  | [] => some []
  | (45 :: n) :: v :: ws => (flagsOf ws).map ((n, v) :: ·)
  | _ => none

/-- The commands in the lines `//go:generate go run program flags` of a file. -/
def commands (ls : List Text) : List (Option (Text × List (Text × Text))) :=
  (ls.filter fun l => (asc "//go:generate ".toList).isPrefixOf l).map fun l =>
    match wordsOf (l.drop 14) [] with
    | go :: run :: p :: ws =>
      if go = asc "go".toList ∧ run = asc "run".toList then (flagsOf ws).map fun fs => (p, fs) else none
    | _ => none

/-! ## What is left when a program has ended -/

/-- Exit status, files written, standard output. -/
def Res.outcome {α : Type} : Res α → Option (Nat × List (Text × Text) × Text)
  | .ok _ s => some (0, s.files, s.stdout)
  | .exit c s => some (c, s.files, s.stdout)
  | _ => none

/-- The contents of a file with these lines. -/
def unlines (ls : List Text) : Text := ls.flatMap (· ++ [10])

/-! ## `avo` -/

def blockOf (t : Text) : Option Block :=
  if t = asc "mask0101".toList then some .mask0101 else if t = asc "mask7F00".toList then some .mask7F00 else none

/-- The instruction that a call of `avo` with these operands stands for; `none`: not covered. -/
def instrOf (i : Nat × List Opd) : Option (GInstr Nat Nat) :=
  let m := i.1
  match i.2 with
  | [.arg o, .gp d 64] =>
    if Nat.beq m n!"MOVQ" then some (.MOVQ_arg o d) else if Nat.beq m n!"MOVWQZX" then some (.MOVWQZX_arg o d) else none
  | [.gp a 64, .gp d 64] =>
    if Nat.beq m n!"MOVQ" then some (.MOVQ a d) else if Nat.beq m n!"ADDQ" then some (.ADDQ a d) else none
  | [.gp a 16, .gp d 64] => if Nat.beq m n!"MOVWQZX" then some (.MOVWQZX a d) else none
  | [.gp a 8, .gp d 64] => if Nat.beq m n!"MOVBQZX" then some (.MOVBQZX a d) else none
  | [.mem b 0, .gp d 64] => if Nat.beq m n!"MOVBQZX" then some (.MOVBQZX_mem b d) else none
  | [.gp a 16, .arg o] => if Nat.beq m n!"MOVW" then some (.MOVW_ret a o) else none
  | [.imm n, .gp d 64] =>
    if Nat.beq m n!"SHLQ" then some (.SHLQ n d) else if Nat.beq m n!"SHRQ" then some (.SHRQ n d) else none
  | [.mem b k, .xmm d] => if Nat.beq m n!"VLDDQU" then some (.VLDDQU k b d) else none
  | [.xmm a, .mem b k] => if Nat.beq m n!"VMOVDQU" then some (.VMOVDQU a k b) else none
  | [.sym s, .xmm d] => if Nat.beq m n!"VPBROADCASTW" then (blockOf s).map fun s => .VPBROADCASTW s d else none
  | [.arg o, .xmm d] => if Nat.beq m n!"VBROADCASTSS" then some (.VBROADCASTSS_arg o d) else none
  | [.xmm a, .gp d 32] => if Nat.beq m n!"VPMOVMSKB" then some (.VPMOVMSKB a d) else none
  | [.mem b 0, .xmm a, .xmm d] => if Nat.beq m n!"VPSHUFB" then some (.VPSHUFB b a d) else none
  | [.xmm b, .xmm a, .xmm d] =>
    if Nat.beq m n!"VPMINUB" then some (.VPMINUB b a d)
    else if Nat.beq m n!"VPACKUSWB" then some (.VPACKUSWB b a d)
    else if Nat.beq m n!"VPMINSW" then some (.VPMINSW b a d)
    else if Nat.beq m n!"VPADDUSW" then some (.VPADDUSW b a d)
    else if Nat.beq m n!"VPSUBD" then some (.VPSUBD b a d)
    else if Nat.beq m n!"VPADDD" then some (.VPADDD b a d)
    else none
  | [.imm n, .xmm b, .xmm a, .xmm d] => if Nat.beq m n!"VPALIGNR" then some (.VPALIGNR n b a d) else none
  | [.imm n, .xmm a, .xmm d] =>
    if Nat.beq m n!"VPSLLDQ" then some (.VPSLLDQ n a d) else if Nat.beq m n!"VPSHUFD" then some (.VPSHUFD n a d) else none
  | _ => none

/-- The instructions of a function; the last one has to be `RET`, which is not in the result. -/
def AvoFn.instrs (f : AvoFn) : Option (List (GInstr Nat Nat)) :=
  match f.code with
  | (m, []) :: c => if Nat.beq m n!"RET" then c.reverse.mapM instrOf else none
  | _ => none

/-- A choice of physical registers for the virtual ones of a function. -/
structure Alloc where
  gp : Nat → GP
  xmm : Nat → XR

def chars (t : Text) : List Char := t.map Char.ofNat

/-- The functions, each with its registers. -/
def avoFns : List AvoFn → List Alloc → Option (List Text)
  | [], [] => some []
  | f :: fs, a :: as => do
    let is ← f.instrs
    let r ← avoFns fs as
    -- the signature begins with the word `func`
    return AsmPrint.fn (chars f.name) (chars (f.text.drop 4)) f.sig (is.map (GInstr.on a.gp a.xmm)) ++ r
  | _, _ => none

/-- The constants. -/
def avoConsts : List (Text × Nat) → Option (List Text)
  | [] => some []
  | (n, v) :: cs => do
    let b ← blockOf n
    let r ← avoConsts cs
    return AsmPrint.constData b v ++ r

/-- The lines of the file that `Generate()` writes with `-out out`. -/
def avoFile (out : Text) (as : List Alloc) {α : Type} : Res α → Option (List Text)
  | .ok _ s =>
    if s.generated then do
      let cs ← avoConsts s.consts
      let fs ← avoFns s.fns.reverse as
      return AsmPrint.header (chars out) ++ cs ++ fs
    else none
  | _ => none

end SVB.Script
