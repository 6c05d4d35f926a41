import Verif.Model.SourceText
import Verif.Model.Gen
import Verif.Model.Dispatch

/-!
# Reading the assembly files

The syntax of `/repo/pkg/encode/encode_amd64.s` and `/repo/pkg/decode/decode_amd64.s`: Go's assembler (`DATA`, `GLOBL`,
`TEXT`, instructions) and the two comments that `avo` prints before every function; and the declarations of functions in
`/repo/pkg/encode/encode_amd64.go` and `/repo/pkg/decode/decode_amd64.go`.
-/

set_option autoImplicit false

namespace SVB.Sources
open Asm Gen

/-! ## Operands -/

inductive Opd where
  | gp (r : GP)
  /-- the low byte of a register: `AL` -/
  | low (r : GP)
  | x (r : XR)
  | imm (n : Nat)
  | mem (disp : Nat) (base : GP)
  /-- `name+off(FP)` -/
  | fp (name : Text) (off : Nat)
  /-- `name<>+off(SB)` -/
  | sb (name : Text) (off : Nat)
deriving DecidableEq, Repr

def gpNames : List (Text × GP) :=
  [(asc ['A', 'X'], .AX), (asc ['B', 'X'], .BX), (asc ['C', 'X'], .CX), (asc ['D', 'X'], .DX), (asc ['S', 'I'], .SI),
   (asc ['D', 'I'], .DI)]

def lowNames : List (Text × GP) :=
  [(asc ['A', 'L'], .AX), (asc ['B', 'L'], .BX), (asc ['C', 'L'], .CX), (asc ['D', 'L'], .DX)]

def xNames : List (Text × XR) :=
  [(asc ['X', '0'], .X0), (asc ['X', '1'], .X1), (asc ['X', '2'], .X2), (asc ['X', '3'], .X3), (asc ['X', '4'], .X4),
   (asc ['X', '5'], .X5)]

def operand : List Tok → Option Opd
  | [.word w] =>
    match gpNames.lookup w, lowNames.lookup w, xNames.lookup w with
    | some r, _, _ => some (.gp r)
    | _, some r, _ => some (.low r)
    | _, _, some r => some (.x r)
    | _, _, _ => none
  | [.sym 36, .word w] => (intLit w).map .imm
  | [.sym 40, .word b, .sym 41] => (gpNames.lookup b).map (.mem 0)
  | [.word d, .sym 40, .word b, .sym 41] =>
    match intLit d, gpNames.lookup b with
    | some d, some b => some (.mem d b)
    | _, _ => none
  | [.word n, .sym 43, .word o, .sym 40, .word r, .sym 41] =>
    if r = asc ['F', 'P'] then (intLit o).map (.fp n) else none
  | [.word n, .sym 60, .sym 62, .sym 43, .word o, .sym 40, .word r, .sym 41] =>
    if r = asc ['S', 'B'] then (intLit o).map (.sb n) else none
  | _ => none

/-- Groups of tokens between commas. -/
def commas : List Tok → List Tok → List (List Tok)
  | [], cur => [cur.reverse]
  | t :: ts, cur => if t = .sym 44 then cur.reverse :: commas ts [] else commas ts (t :: cur)

/-! ## Instructions -/

deriving instance DecidableEq for Asm.Instr

/-- An instruction and the parameter or result it names. -/
structure Stmt where
  instr : Instr
  ref : Option (Text × Nat)

/-- The data symbols of `encode_amd64.s`. -/
def symNames : List (Text × Block) :=
  [(asc ['m', 'a', 's', 'k', '0', '1', '0', '1'], .mask0101), (asc ['m', 'a', 's', 'k', '7', 'F', '0', '0'], .mask7F00)]

/-- Instructions with three vector operands. -/
def ops3 : List (Text × (XR → XR → XR → Instr)) :=
  [(asc ['V', 'P', 'M', 'I', 'N', 'U', 'B'], .VPMINUB), (asc ['V', 'P', 'A', 'C', 'K', 'U', 'S', 'W', 'B'], .VPACKUSWB),
   (asc ['V', 'P', 'M', 'I', 'N', 'S', 'W'], .VPMINSW), (asc ['V', 'P', 'A', 'D', 'D', 'U', 'S', 'W'], .VPADDUSW),
   (asc ['V', 'P', 'S', 'U', 'B', 'D'], .VPSUBD), (asc ['V', 'P', 'A', 'D', 'D', 'D'], .VPADDD)]

/-- Instructions with an immediate and two vector operands. -/
def opsI : List (Text × (Nat → XR → XR → Instr)) :=
  [(asc ['V', 'P', 'S', 'L', 'L', 'D', 'Q'], .VPSLLDQ), (asc ['V', 'P', 'S', 'H', 'U', 'F', 'D'], .VPSHUFD)]

/-- An instruction from its mnemonic and operands. -/
def assemble (op : Text) : List Opd → Option Stmt
  | [.fp n o, .gp d] =>
    if op = asc ['M', 'O', 'V', 'Q'] then some ⟨.MOVQ_arg o d, some (n, o)⟩
    else if op = asc ['M', 'O', 'V', 'W', 'Q', 'Z', 'X'] then some ⟨.MOVWQZX_arg o d, some (n, o)⟩
    else none
  | [.fp n o, .x d] =>
    if op = asc ['V', 'B', 'R', 'O', 'A', 'D', 'C', 'A', 'S', 'T', 'S', 'S'] then some ⟨.VBROADCASTSS_arg o d, some (n, o)⟩
    else none
  | [.gp a, .fp n o] => if op = asc ['M', 'O', 'V', 'W'] then some ⟨.MOVW_ret a o, some (n, o)⟩ else none
  | [.gp a, .gp d] =>
    if op = asc ['M', 'O', 'V', 'Q'] then some ⟨.MOVQ a d, none⟩
    else if op = asc ['M', 'O', 'V', 'W', 'Q', 'Z', 'X'] then some ⟨.MOVWQZX a d, none⟩
    else if op = asc ['A', 'D', 'D', 'Q'] then some ⟨.ADDQ a d, none⟩
    else none
  | [.low a, .gp d] => if op = asc ['M', 'O', 'V', 'B', 'Q', 'Z', 'X'] then some ⟨.MOVBQZX a d, none⟩ else none
  | [.mem 0 b, .gp d] => if op = asc ['M', 'O', 'V', 'B', 'Q', 'Z', 'X'] then some ⟨.MOVBQZX_mem b d, none⟩ else none
  | [.imm n, .gp d] =>
    if op = asc ['S', 'H', 'L', 'Q'] then some ⟨.SHLQ n d, none⟩
    else if op = asc ['S', 'H', 'R', 'Q'] then some ⟨.SHRQ n d, none⟩
    else none
  | [.mem k b, .x d] => if op = asc ['V', 'L', 'D', 'D', 'Q', 'U'] then some ⟨.VLDDQU k b d, none⟩ else none
  | [.x a, .mem k b] => if op = asc ['V', 'M', 'O', 'V', 'D', 'Q', 'U'] then some ⟨.VMOVDQU a k b, none⟩ else none
  | [.sb s 0, .x d] =>
    if op = asc ['V', 'P', 'B', 'R', 'O', 'A', 'D', 'C', 'A', 'S', 'T', 'W'] then
      (symNames.lookup s).map fun b => ⟨.VPBROADCASTW b d, none⟩
    else none
  | [.x a, .gp d] =>
    if op = asc ['V', 'P', 'M', 'O', 'V', 'M', 'S', 'K', 'B'] then some ⟨.VPMOVMSKB a d, none⟩ else none
  | [.mem 0 m, .x a, .x d] =>
    if op = asc ['V', 'P', 'S', 'H', 'U', 'F', 'B'] then some ⟨.VPSHUFB m a d, none⟩ else none
  | [.imm n, .x b, .x a, .x d] =>
    if op = asc ['V', 'P', 'A', 'L', 'I', 'G', 'N', 'R'] then some ⟨.VPALIGNR n b a d, none⟩ else none
  | [.x b, .x a, .x d] => (ops3.lookup op).map fun f => ⟨f b a d, none⟩
  | [.imm n, .x a, .x d] => (opsI.lookup op).map fun f => ⟨f n a d, none⟩
  | _ => none

/-! ## Lines -/

/-- How the model classes the type of a parameter. -/
def paramType : List Tok → Option Ty
  | [.sym 91, .sym 93, .word _] => some .slice
  | .sym 42 :: _ => some .ptr
  | [.word w] =>
    if w = asc ['u', 'i', 'n', 't', '1', '6'] then some .u16
    else if w = asc ['u', 'i', 'n', 't', '3', '2'] then some .u32
    else none
  | _ => none

/-- Names and types. -/
abbrev Params := List (Text × List Tok)

/-- `name type, name type, …` -/
def params (ts : List Tok) : Option Params :=
  (commas ts []).mapM fun p => match p with
    | .word n :: t => (paramType t).map fun _ => (n, t)
    | _ => none

/-- A signature: parameters and results. -/
abbrev TSig := Params × Params

instance : DecidableEq Params := inferInstanceAs (DecidableEq (List (Text × List Tok)))
instance : DecidableEq TSig := inferInstanceAs (DecidableEq (Params × Params))

/-- What the model keeps of the type of every parameter. -/
def tyOf (ps : Params) : List (Text × Option Ty) := ps.map fun p => (p.1, paramType p.2)

/-- `(…)` or `(…) (…)` -/
def signatureOf (ts : List Tok) : Option TSig :=
  match ts with
  | .sym 40 :: ts =>
    let ps := ts.takeWhile (· != .sym 41)
    match ts.dropWhile (· != .sym 41) with
    | [.sym 41] => (params ps).map fun ps => (ps, [])
    | .sym 41 :: .sym 40 :: rs =>
      if rs.getLast? = some (.sym 41) then
        match params ps, params rs.dropLast with
        | some ps, some rs => some (ps, rs)
        | _, _ => none
      else none
    | _ => none
  | _ => none

inductive SLine where
  /-- blank, `#include` or another comment -/
  | skip
  /-- `// func name(…) (…)` -/
  | func (name : Text) (sig : TSig)
  /-- `// Requires: …` -/
  | requires (isas : List Text)
  /-- `DATA name<>+0(SB)/size, $value` -/
  | data (name : Text) (size value : Nat)
  /-- `GLOBL name<>(SB), RODATA|NOPTR, $size` -/
  | globl (name : Text) (size : Nat)
  /-- `TEXT ·name(SB), NOSPLIT, $locals-args` -/
  | text (name : Text) (locals args : Nat)
  | stmt (s : Stmt)
  | ret

def words (ts : List (List Tok)) : Option (List Text) :=
  ts.mapM fun t => match t with
    | [.word w] => some w
    | _ => none

def sLine (l : Text) : Option SLine :=
  match l with
  | [] => some .skip
  | 35 :: _ => some .skip
  | 47 :: 47 :: rest =>
    match lexLine rest [] with
    | .word f :: .word n :: .sym 40 :: r =>
      if f = asc ['f', 'u', 'n', 'c'] then (signatureOf (.sym 40 :: r)).map (.func n) else some .skip
    | .word q :: .sym 58 :: r =>
      if q = asc ['R', 'e', 'q', 'u', 'i', 'r', 'e', 's'] then (words (commas r [])).map .requires else some .skip
    | _ => some .skip
  | 9 :: _ =>
    match lexLine l [] with
    | [.word w] => if w = asc ['R', 'E', 'T'] then some .ret else none
    | .word op :: r =>
      match (commas r []).mapM operand with
      | some os => (assemble op os).map .stmt
      | none => none
    | _ => none
  | _ =>
    match lexLine l [] with
    | [.word d, .word n, .sym 60, .sym 62, .sym 43, .word o, .sym 40, .word b, .sym 41, .sym 47, .word s, .sym 44, .sym 36,
        .word v] =>
      if d = asc ['D', 'A', 'T', 'A'] ∧ intLit o = some 0 ∧ b = asc ['S', 'B'] then
        match intLit s, intLit v with
        | some s, some v => some (.data n s v)
        | _, _ => none
      else none
    | [.word g, .word n, .sym 60, .sym 62, .sym 40, .word b, .sym 41, .sym 44, .word ro, .sym 124, .word np, .sym 44, .sym 36,
        .word s] =>
      if g = asc ['G', 'L', 'O', 'B', 'L'] ∧ b = asc ['S', 'B'] ∧ ro = asc ['R', 'O', 'D', 'A', 'T', 'A'] ∧
          np = asc ['N', 'O', 'P', 'T', 'R'] then
        (intLit s).map (.globl n)
      else none
    | [.word t, .sym 194, .sym 183, .word n, .sym 40, .word b, .sym 41, .sym 44, .word f, .sym 44, .sym 36, .word k, .sym 45,
        .word a] =>
      if t = asc ['T', 'E', 'X', 'T'] ∧ b = asc ['S', 'B'] ∧ f = asc ['N', 'O', 'S', 'P', 'L', 'I', 'T'] then
        match intLit k, intLit a with
        | some k, some a => some (.text n k a)
        | _, _ => none
      else none
    | _ => none

/-! ## Files -/

/-- A function of a file: its comments, the numbers of its `TEXT` line, and its instructions before the one `RET` at its
end. -/
structure SFn where
  name : Text
  sig : TSig
  requires : List Text
  locals : Nat
  args : Nat
  body : List Stmt

/-- A file: data (name, size, value) and functions. -/
structure SFile where
  data : List (Text × Nat × Nat)
  fns : List SFn

/-- The instructions up to `RET`, and the lines after it. -/
def bodyOf : List (Option SLine) → Option (List Stmt × List (Option SLine))
  | some .ret :: ls => some ([], ls)
  | some (.stmt s) :: ls => (bodyOf ls).map fun r => (s :: r.1, r.2)
  | _ => none

def fileOf : Nat → List (Option SLine) → Option SFile
  | _, [] => some ⟨[], []⟩
  | 0, _ => none
  | f + 1, some .skip :: ls => fileOf f ls
  | f + 1, some (.data n s v) :: some (.globl n' s') :: ls =>
    if n = n' ∧ s = s' then (fileOf f ls).map fun r => { r with data := (n, s, v) :: r.data } else none
  | f + 1, some (.func n sig) :: some (.requires rs) :: some (.text n' k a) :: ls =>
    match bodyOf ls with
    | some (b, ls) => if n = n' then (fileOf f ls).map fun r => { r with fns := ⟨n, sig, rs, k, a, b⟩ :: r.fns } else none
    | none => none
  | _, _ => none

/-- The contents of an assembly file. -/
def parseAsm (ls : List Text) : Option SFile := fileOf ls.length (ls.map sLine)

/-! ## Declarations in Go files -/

/-- `name type, …,` with or without a comma at the end. -/
def goParams (ts : List Tok) : Option Params := params (if ts.getLast? = some (.sym 44) then ts.dropLast else ts)

/-- What follows `func name` in a declaration without a body: `(…)` or `(…) (…)`, and then no `{`. -/
def declAt : List Tok → Option TSig
  | .sym 40 :: ts =>
    match goParams (ts.takeWhile (· != .sym 41)), ts.dropWhile (· != .sym 41) with
    | some ps, .sym 41 :: .sym 40 :: rs =>
      match goParams (rs.takeWhile (· != .sym 41)), rs.dropWhile (· != .sym 41) with
      | some qs, .sym 41 :: rs => if rs.head? = some (.sym 123) then none else some (ps, qs)
      | _, _ => none
    | some ps, .sym 41 :: rs => if rs.head? = some (.sym 123) then none else some (ps, [])
    | _, _ => none
  | _ => none

/-- The signatures of all declarations `func name` in a list of tokens. -/
def declsIn (name : Text) : List Tok → List (Option TSig)
  | .word f :: .word n :: ts =>
    if f = asc ['f', 'u', 'n', 'c'] ∧ n = name then declAt ts :: declsIn name ts else declsIn name (.word n :: ts)
  | _ :: ts => declsIn name ts
  | [] => []

/-- The signatures of all declarations of `func name` in a Go file. -/
def goDecls (name : Text) (ls : List Text) : List (Option TSig) := declsIn name (ls.flatMap fun l => lexLine l [])

end SVB.Sources
