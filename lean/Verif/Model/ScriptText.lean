import Verif.Model.GoText

/-!
# Reading the programs of `/repo`

Syntax and parser for the larger part of Go that the generators (`/repo/pkg/shared/main/gentables.go`,
`/repo/pkg/encode/main/asm.go`, `/repo/pkg/decode/main/asm.go`, `/repo/pkg/shared/asm.go`), `/repo/pkg/util` and
`/repo/tools/parse_and_write_bench.go` are written in: several results, function literals, composite literals, pointers,
variadic calls, `defer`.  The lexer is that of `GoText.lean`.  What the parser does not understand makes the result `none`.
-/

set_option autoImplicit false

namespace SVB.Script
open SVB.Go (Tok pack tokens expect isOp isKw)
open SVB.Sources (Text)

/-! ## Syntax -/

inductive Ty where
  | named (n : Nat)
  | qual (p n : Nat)
  | slice (t : Ty)
  | array (n : Nat) (t : Ty)
  | ptr (t : Ty)
  /-- `interface{}` -/
  | any
  /-- a function type -/
  | fn

inductive Op where
  | add | sub | mul | div | rem | and | or | shl | shr
  | eq | ne | lt | le | gt | ge
  | land | lor

mutual
inductive Expr where
  | var (n : Nat)
  | num (n : Nat)
  | str (t : Text)
  /-- `e.name` -/
  | dot (e : Expr) (n : Nat)
  | bin (op : Op) (a b : Expr)
  /-- `a[i]` -/
  | index (a i : Expr)
  /-- `a[lo:hi]`, either may be missing -/
  | slice (a : Expr) (lo hi : Option Expr)
  /-- `f(args…)`; the flag: the last argument is followed by `...`; `!e` is a call of the function `!` -/
  | call (f : Expr) (args : List Expr) (spread : Bool)
  | type (t : Ty)
  /-- `T{e, …}` or `T{name: e, …}`; the name of an element without name is 0 -/
  | lit (t : Ty) (es : List (Nat × Expr))
  | func (params results : List (Nat × Ty)) (body : List Stmt)
  /-- `&e` -/
  | addr (e : Expr)
  /-- `*e` -/
  | deref (e : Expr)

inductive Stmt where
  /-- `x, y := e` -/
  | define (xs : List Nat) (e : Expr)
  | var (x : Nat) (t : Option Ty) (e : Option Expr)
  /-- `l, m = e` -/
  | assign (ls : List Expr) (e : Expr)
  /-- `l op= e`; `l++` is `l += 1` -/
  | update (op : Op) (l e : Expr)
  | expr (e : Expr)
  | ret (es : List Expr)
  /-- `if init; c { … } else { … }` -/
  | ite (init : List Stmt) (c : Expr) (thn els : List Stmt)
  | loop (init : List Stmt) (cond : Expr) (post : List Stmt) (body : List Stmt)
  /-- `for k, v := range e { … }`; a missing `v` is 0 -/
  | range (k v : Nat) (e : Expr) (body : List Stmt)
  | defer (e : Expr)
end

structure Func where
  name : Nat
  params : List (Nat × Ty)
  results : List (Nat × Ty)
  body : List Stmt

/-- A source file: package, imported paths (with those imported by `.`), names of types, constants, variables, functions. -/
structure File where
  pkg : Nat
  imports : List Nat := []
  dots : List Nat := []
  types : List Nat := []
  consts : List (Nat × Expr) := []
  vars : List (Nat × Expr) := []
  funcs : List Func := []

/-! ## Parser -/

abbrev Parse (α : Type) := List Tok → Option (α × List Tok)

/-- The escapes `\n`, `\t`, `\"`, `\\` of a string literal. -/
def unescape : Text → Option Text
  | [] => some []
  | [c] => if Nat.beq c 92 then none else some [c]
  | c :: d :: cs =>
    if Nat.beq c 92 then
      if Nat.beq d 110 then (unescape cs).map (10 :: ·)
      else if Nat.beq d 116 then (unescape cs).map (9 :: ·)
      else if Nat.beq d 34 || Nat.beq d 92 then (unescape cs).map (d :: ·)
      else none
    else (unescape (d :: cs)).map (c :: ·)

/-- Binary operators and their precedence. -/
def binOp (n : Nat) : Option (Op × Nat) :=
  if Nat.beq n n!"*" then some (.mul, 5)
  else if Nat.beq n n!"/" then some (.div, 5)
  else if Nat.beq n n!"%" then some (.rem, 5)
  else if Nat.beq n n!"<<" then some (.shl, 5)
  else if Nat.beq n n!">>" then some (.shr, 5)
  else if Nat.beq n n!"&" then some (.and, 5)
  else if Nat.beq n n!"+" then some (.add, 4)
  else if Nat.beq n n!"-" then some (.sub, 4)
  else if Nat.beq n n!"|" then some (.or, 4)
  else if Nat.beq n n!"==" then some (.eq, 3)
  else if Nat.beq n n!"!=" then some (.ne, 3)
  else if Nat.beq n n!"<" then some (.lt, 3)
  else if Nat.beq n n!"<=" then some (.le, 3)
  else if Nat.beq n n!">" then some (.gt, 3)
  else if Nat.beq n n!">=" then some (.ge, 3)
  else if Nat.beq n n!"&&" then some (.land, 2)
  else if Nat.beq n n!"||" then some (.lor, 1)
  else none

/-- `op=` -/
def updOp (n : Nat) : Option Op :=
  if Nat.beq n n!"+=" then some .add
  else if Nat.beq n n!"-=" then some .sub
  else if Nat.beq n n!"|=" then some .or
  else none

/-- The parsers that call each other. -/
structure Parsers where
  type : Parse Ty
  /-- parameters up to and including `)`; the names wait for their type -/
  params : List Nat → Parse (List (Nat × Ty))
  /-- types up to and including `)` -/
  types : Parse (List (Nat × Ty))
  /-- operand with everything before and behind it that belongs to it -/
  unary : Parse Expr
  bin : Nat → Parse Expr
  binRest : Nat → Expr → Parse Expr
  suffix : Expr → Parse Expr
  /-- arguments up to and including `)`, and whether the last is followed by `...` -/
  args : Parse (List Expr × Bool)
  /-- elements of a composite literal up to and including `}` -/
  elems : Parse (List (Nat × Expr))
  exprs : Parse (List Expr)
  names : Parse (List Nat)
  stmt : Parse (List Stmt)
  /-- statements up to `}` -/
  stmts : Parse (List Stmt)
  /-- the lines of `var ( … )` up to and including `)` -/
  vars : Parse (List Stmt)

def Parsers.none : Parsers where
  type _ := .none
  params _ _ := .none
  types _ := .none
  unary _ := .none
  bin _ _ := .none
  binRest _ _ _ := .none
  suffix _ _ := .none
  args _ := .none
  elems _ := .none
  exprs _ := .none
  names _ := .none
  stmt _ := .none
  stmts _ := .none
  vars _ := .none

/-- Parameters and results of a function. -/
def pSig (p : Parsers) (ts : List Tok) : Option ((List (Nat × Ty) × List (Nat × Ty)) × List Tok) := do
  let ts ← expect n!"(" ts
  let (ps, ts) ← p.params [] ts
  let (rs, ts) ←
    if isOp n!"(" ts then
      match p.params [] (ts.drop 1) with
      | some r => some r
      | .none => p.types (ts.drop 1)
    else match p.type ts with
      | some (t, ts) => some ([(0, t)], ts)
      | .none => some ([], ts)
  return ((ps, rs), ts)

def pType (p : Parsers) : Parse Ty
  | .id n :: ts =>
    if Nat.beq n n!"interface" then do
      let ts ← expect n!"{" ts
      let ts ← expect n!"}" ts
      return (.any, ts)
    else if Nat.beq n n!"func" then (pSig p ts).map fun r => (.fn, r.2)
    else match ts with
      | .op d :: .id k :: ts' => if Nat.beq d n!"." then some (.qual n k, ts') else some (.named n, ts)
      | _ => some (.named n, ts)
  | .op a :: ts =>
    if Nat.beq a n!"*" then (p.type ts).map fun r => (.ptr r.1, r.2)
    else if Nat.beq a n!"[" then
      match ts with
      | .op b :: ts => if Nat.beq b n!"]" then (p.type ts).map fun r => (.slice r.1, r.2) else .none
      | .num n :: .op b :: ts => if Nat.beq b n!"]" then (p.type ts).map fun r => (.array n r.1, r.2) else .none
      | _ => .none
    else .none
  | _ => .none

def pParams (p : Parsers) (pend : List Nat) (ts : List Tok) : Option (List (Nat × Ty) × List Tok) :=
  if isOp n!")" ts then
    (expect n!")" ts).bind fun ts => if pend.isEmpty then some ([], ts) else .none
  else match ts with
  | .id x :: ts =>
    if isOp n!"," ts then p.params (pend ++ [x]) (ts.drop 1)
    else do
      let (t, ts) ← p.type ts
      let ts := if isOp n!"," ts then ts.drop 1 else ts
      let (r, ts) ← p.params [] ts
      return ((pend ++ [x]).map (fun y => (y, t)) ++ r, ts)
  | _ => .none

def pTypes (p : Parsers) (ts : List Tok) : Option (List (Nat × Ty) × List Tok) := do
  let (t, ts) ← p.type ts
  if isOp n!"," ts then do
    let (r, ts) ← p.types (ts.drop 1)
    return ((0, t) :: r, ts)
  else do
    let ts ← expect n!")" ts
    return ([(0, t)], ts)

def pBlock (p : Parsers) (ts : List Tok) : Option (List Stmt × List Tok) := do
  let ts ← expect n!"{" ts
  let (b, ts) ← p.stmts ts
  let ts ← expect n!"}" ts
  return (b, ts)

def pOperand (p : Parsers) : Parse Expr
  | .id n :: ts =>
    if Nat.beq n n!"func" then do
      let ((ps, rs), ts) ← pSig p ts
      let (b, ts) ← pBlock p ts
      return (.func ps rs b, ts)
    else some (.var n, ts)
  | .num n :: ts => some (.num n, ts)
  | .str t :: ts => (unescape t).map fun t => (.str t, ts)
  | .op a :: ts =>
    if Nat.beq a n!"(" then do
      let (e, ts) ← p.bin 1 ts
      let ts ← expect n!")" ts
      return (e, ts)
    else if Nat.beq a n!"[" then do
      let (t, ts) ← pType p (.op a :: ts)
      if isOp n!"{" ts then do
        let (es, ts) ← p.elems (ts.drop 1)
        return (.lit t es, ts)
      else return (.type t, ts)
    else if Nat.beq a 39 then
      -- the rune literal `'\n'`
      match ts with
      | .op b :: .id c :: .op d :: ts =>
        if Nat.beq b 92 && Nat.beq c n!"n" && Nat.beq d 39 then some (.num 10, ts) else .none
      | _ => .none
    else .none
  | _ => .none

def pUnary (p : Parsers) (ts : List Tok) : Option (Expr × List Tok) :=
  if isOp n!"&" ts then (p.unary (ts.drop 1)).map fun r => (.addr r.1, r.2)
  else if isOp n!"*" ts then (p.unary (ts.drop 1)).map fun r => (.deref r.1, r.2)
  else if isOp n!"!" ts then (p.unary (ts.drop 1)).map fun r => (.call (.var n!"!") [r.1] false, r.2)
  else do
    let (e, ts) ← pOperand p ts
    p.suffix e ts

/-- Is this the name of an imported type?  Only such a name may be followed by the brace of a composite literal. -/
def qualified : Expr → Option Ty
  | .dot (.var p) n => some (.qual p n)
  | _ => .none

def pSuffix (p : Parsers) (e : Expr) : Parse Expr
  | .op a :: ts =>
    if Nat.beq a n!"." then
      match ts with
      | .id n :: ts => p.suffix (.dot e n) ts
      | _ => some (e, .op a :: ts)
    else if Nat.beq a n!"(" then do
      let ((as, s), ts) ← p.args ts
      p.suffix (.call e as s) ts
    else if Nat.beq a n!"[" then
      if isOp n!":" ts then do
        let (hi, ts) ← p.bin 1 (ts.drop 1)
        let ts ← expect n!"]" ts
        p.suffix (.slice e .none (some hi)) ts
      else do
        let (i, ts) ← p.bin 1 ts
        if isOp n!":" ts then
          if isOp n!"]" (ts.drop 1) then p.suffix (.slice e (some i) .none) (ts.drop 2)
          else do
            let (hi, ts) ← p.bin 1 (ts.drop 1)
            let ts ← expect n!"]" ts
            p.suffix (.slice e (some i) (some hi)) ts
        else do
          let ts ← expect n!"]" ts
          p.suffix (.index e i) ts
    else if Nat.beq a n!"{" then
      match qualified e with
      | some t =>
        match p.elems ts with
        | some (es, ts) => p.suffix (.lit t es) ts
        -- no composite literal: the brace of a block
        | .none => some (e, .op a :: ts)
      | .none => some (e, .op a :: ts)
    else some (e, .op a :: ts)
  | ts => some (e, ts)

def pBin (p : Parsers) (prec : Nat) (ts : List Tok) : Option (Expr × List Tok) := do
  let (e, ts) ← p.unary ts
  p.binRest prec e ts

def pBinRest (p : Parsers) (prec : Nat) (a : Expr) : Parse Expr
  | .op n :: ts =>
    match binOp n with
    | some (op, q) =>
      if Nat.ble prec q then do
        let (b, ts) ← p.bin (q + 1) ts
        p.binRest prec (.bin op a b) ts
      else some (a, .op n :: ts)
    | .none => some (a, .op n :: ts)
  | ts => some (a, ts)

/-- `...` -/
def isDots : List Tok → Bool
  | .op a :: .op b :: .op c :: _ => Nat.beq a 46 && Nat.beq b 46 && Nat.beq c 46
  | _ => false

def pArgs (p : Parsers) (ts : List Tok) : Option ((List Expr × Bool) × List Tok) :=
  if isOp n!")" ts then (expect n!")" ts).map fun ts => (([], false), ts)
  else do
    let (e, ts) ← p.bin 1 ts
    if isDots ts then do
      let ts ← expect n!")" (ts.drop 3)
      return (([e], true), ts)
    else if isOp n!"," ts then do
      let ((es, s), ts) ← p.args (ts.drop 1)
      return ((e :: es, s), ts)
    else do
      let ts ← expect n!")" ts
      return (([e], false), ts)

def pElem (p : Parsers) : Parse (Nat × Expr)
  | .id n :: .op c :: ts =>
    if Nat.beq c n!":" then (p.bin 1 ts).map fun r => ((n, r.1), r.2)
    else (p.bin 1 (.id n :: .op c :: ts)).map fun r => ((0, r.1), r.2)
  | ts => (p.bin 1 ts).map fun r => ((0, r.1), r.2)

def pElems (p : Parsers) (ts : List Tok) : Option (List (Nat × Expr) × List Tok) :=
  if isOp n!"}" ts then (expect n!"}" ts).map fun ts => ([], ts)
  else do
    let (e, ts) ← pElem p ts
    if isOp n!"," ts then do
      let (es, ts) ← p.elems (ts.drop 1)
      return (e :: es, ts)
    else do
      let ts ← expect n!"}" ts
      return ([e], ts)

def pExprs (p : Parsers) (ts : List Tok) : Option (List Expr × List Tok) := do
  let (e, ts) ← p.bin 1 ts
  if isOp n!"," ts then do
    let (es, ts) ← p.exprs (ts.drop 1)
    return (e :: es, ts)
  else return ([e], ts)

def pNames (p : Parsers) : Parse (List Nat)
  | .id n :: .op c :: ts =>
    if Nat.beq c n!"," then do
      let (ns, ts) ← p.names ts
      return (n :: ns, ts)
    else some ([n], .op c :: ts)
  | .id n :: ts => some ([n], ts)
  | _ => .none

def isDefine (p : Parsers) (ts : List Tok) : Bool :=
  match p.names ts with
  | some (_, ts) => isOp n!":=" ts
  | .none => false

def pSimple (p : Parsers) (ts : List Tok) : Option (Stmt × List Tok) :=
  if isDefine p ts then do
    let (xs, ts) ← p.names ts
    let ts ← expect n!":=" ts
    let (e, ts) ← p.bin 1 ts
    return (.define xs e, ts)
  else do
    let (ls, ts) ← p.exprs ts
    match ls, ts with
    | [l], .op n :: ts =>
      if Nat.beq n n!"=" then do
        let (e, ts) ← p.bin 1 ts
        return (.assign [l] e, ts)
      else if Nat.beq n n!"++" then return (.update .add l (.num 1), ts)
      else if Nat.beq n n!"--" then return (.update .sub l (.num 1), ts)
      else match updOp n with
        | some op => do
          let (e, ts) ← p.bin 1 ts
          return (.update op l e, ts)
        | .none => return (.expr l, .op n :: ts)
    | [l], ts => return (.expr l, ts)
    | ls, ts => do
      let ts ← expect n!"=" ts
      let (e, ts) ← p.bin 1 ts
      return (.assign ls e, ts)

/-- `name [T] [= e]` -/
def pVar (p : Parsers) : Parse Stmt
  | .id x :: ts =>
    if isOp n!"=" ts then do
      let (e, ts) ← p.bin 1 (ts.drop 1)
      return (.var x .none (some e), ts)
    else do
      let (t, ts) ← p.type ts
      if isOp n!"=" ts then do
        let (e, ts) ← p.bin 1 (ts.drop 1)
        return (.var x (some t) (some e), ts)
      else return (.var x (some t) .none, ts)
  | _ => .none

def pVars (p : Parsers) (ts : List Tok) : Option (List Stmt × List Tok) :=
  if isOp n!")" ts then (expect n!")" ts).map fun ts => ([], ts)
  else do
    let (v, ts) ← pVar p ts
    let ts ← expect n!";" ts
    let (vs, ts) ← p.vars ts
    return (v :: vs, ts)

def pFor (p : Parsers) (ts : List Tok) : Option (Stmt × List Tok) :=
  let clauses : Option (Stmt × List Tok) := do
    let (i, ts) ← pSimple p ts
    if isOp n!";" ts then do
      let (c, ts) ← p.bin 1 (ts.drop 1)
      let ts ← expect n!";" ts
      let (q, ts) ← pSimple p ts
      let (b, ts) ← pBlock p ts
      return (.loop [i] c [q] b, ts)
    else match i with
      | .expr c => do
        let (b, ts) ← pBlock p ts
        return (.loop [] c [] b, ts)
      | _ => .none
  if isDefine p ts then
    match p.names ts with
    | some (xs, ts') =>
      if isKw n!"range" (ts'.drop 1) then do
        let (e, ts) ← p.bin 1 (ts'.drop 2)
        let (b, ts) ← pBlock p ts
        match xs with
        | [k] => return (.range k 0 e b, ts)
        | [k, v] => return (.range k v e b, ts)
        | _ => .none
      else clauses
    | .none => .none
  else clauses

/-- `if [init;] c { … } [else { … }]`, after the keyword. -/
def pIf (p : Parsers) (ts : List Tok) : Option (Stmt × List Tok) := do
  let (i, ts) ← pSimple p ts
  let (i, c, ts) ←
    if isOp n!";" ts then (p.bin 1 (ts.drop 1)).map fun r => ([i], r.1, r.2)
    else match i with
      | .expr c => some ([], c, ts)
      | _ => .none
  let (t, ts) ← pBlock p ts
  if isKw n!"else" ts then do
    let (e, ts) ← pBlock p (ts.drop 1)
    return (.ite i c t e, ts)
  else return (.ite i c t [], ts)

def pStmt (p : Parsers) (ts : List Tok) : Option (List Stmt × List Tok) :=
  if isKw n!"var" ts then
    if isOp n!"(" (ts.drop 1) then p.vars (ts.drop 2)
    else (pVar p (ts.drop 1)).map fun r => ([r.1], r.2)
  else if isKw n!"return" ts then
    if isOp n!";" (ts.drop 1) then some ([.ret []], ts.drop 1)
    else (p.exprs (ts.drop 1)).map fun r => ([.ret r.1], r.2)
  else if isKw n!"if" ts then (pIf p (ts.drop 1)).map fun r => ([r.1], r.2)
  else if isKw n!"for" ts then (pFor p (ts.drop 1)).map fun r => ([r.1], r.2)
  else if isKw n!"defer" ts then (p.bin 1 (ts.drop 1)).map fun r => ([.defer r.1], r.2)
  else (pSimple p ts).map fun r => ([r.1], r.2)

def pStmts (p : Parsers) (ts : List Tok) : Option (List Stmt × List Tok) :=
  if isOp n!"}" ts then some ([], ts)
  else do
    let (s, ts) ← p.stmt ts
    let ts ← expect n!";" ts
    let (ss, ts) ← p.stmts ts
    return (s ++ ss, ts)

def Parsers.step (p : Parsers) : Parsers where
  type := pType p
  params := pParams p
  types := pTypes p
  unary := pUnary p
  bin := pBin p
  binRest := pBinRest p
  suffix := pSuffix p
  args := pArgs p
  elems := pElems p
  exprs := pExprs p
  names := pNames p
  stmt := pStmt p
  stmts := pStmts p
  vars := pVars p

def Parsers.depth : Nat → Parsers
  | 0 => .none
  | n + 1 => (Parsers.depth n).step

/-- Parsers of nesting depth 200: enough for the files of `/repo` (the depth counts list elements too). -/
def parsers : Parsers := .depth 200

/-- `name = e`, `name T = e` or `name e`-less lines of a `const ( … )` or `var ( … )` at the level of the file. -/
def pValues (p : Parsers) : Nat → List Tok → Option (List (Nat × Expr) × List Tok)
  | 0, _ => .none
  | d + 1, ts =>
    if isOp n!")" ts then (expect n!")" ts).map fun ts => ([], ts)
    else match pVar p ts with
    | some (.var x _ (some e), ts) => do
      let ts ← expect n!";" ts
      let (r, ts) ← pValues p d ts
      return ((x, e) :: r, ts)
    | _ => .none

/-- The paths of an `import` list, up to and including `)`; those with a dot in front second. -/
def pImports : List Tok → Option ((List Nat × List Nat) × List Tok)
  | .str t :: .op s :: ts =>
    if Nat.beq s n!";" then (pImports ts).map fun r => ((pack t :: r.1.1, r.1.2), r.2) else .none
  | .op d :: .str t :: .op s :: ts =>
    if Nat.beq d n!"." && Nat.beq s n!";" then (pImports ts).map fun r => ((r.1.1, pack t :: r.1.2), r.2) else .none
  | .op n :: ts => if Nat.beq n n!")" then some (([], []), ts) else .none
  | _ => .none

/-- A function after the keyword `func`. -/
def pFunc (p : Parsers) : Parse Func
  | .id f :: ts => do
    let ((ps, rs), ts) ← pSig p ts
    let (b, ts) ← pBlock p ts
    return (⟨f, ps, rs, b⟩, ts)
  | _ => .none

/-- The declarations of a file after its package clause. -/
def pDecls (p : Parsers) : Nat → File → List Tok → Option File
  | 0, _, _ => .none
  | _ + 1, f, [] => some f
  | d + 1, f, .id k :: ts =>
    if Nat.beq k n!"import" then
      match ts with
      | .str t :: ts => do
        let ts ← expect n!";" ts
        pDecls p d { f with imports := f.imports ++ [pack t] } ts
      | ts => do
        let ts ← expect n!"(" ts
        let (is, ts) ← pImports ts
        let ts ← expect n!";" ts
        pDecls p d { f with imports := f.imports ++ is.1, dots := f.dots ++ is.2 } ts
    else if Nat.beq k n!"type" then
      match ts with
      | .id x :: ts => do
        let (_, ts) ← p.type ts
        let ts ← expect n!";" ts
        pDecls p d { f with types := f.types ++ [x] } ts
      | _ => .none
    else if Nat.beq k n!"const" || Nat.beq k n!"var" then do
      let (vs, ts) ←
        if isOp n!"(" ts then pValues p 30 (ts.drop 1)
        else match pVar p ts with
          | some (.var x _ (some e), ts) => some ([(x, e)], ts)
          -- `var x T` is `var x = *new(T)`
          | some (.var x (some t) .none, ts) => some ([(x, .deref (.call (.var n!"new") [.type t] false))], ts)
          | _ => .none
      let ts ← expect n!";" ts
      if Nat.beq k n!"const" then pDecls p d { f with consts := f.consts ++ vs } ts
      else pDecls p d { f with vars := f.vars ++ vs } ts
    else if Nat.beq k n!"func" then do
      let (g, ts) ← pFunc p ts
      let ts ← expect n!";" ts
      pDecls p d { f with funcs := f.funcs ++ [g] } ts
    else .none
  | _, _, _ => .none

/-- A source file. -/
def parse (file : List Nat) : Option File :=
  match tokens file with
  | .id k :: .id pkg :: .op s :: ts =>
    if Nat.beq k n!"package" && Nat.beq s n!";" then pDecls parsers 100 { pkg := pkg } ts else .none
  | _ => .none

end SVB.Script
