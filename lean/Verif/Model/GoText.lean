import Verif.Model.SourceText

/-!
# Reading Go source text

Lexer and parser for the part of Go the packages of `/repo/pkg` are written in: `https://go.dev/ref/spec`, sections "Lexical
elements", "Expressions", "Statements", "Declarations".  Names are kept as one number each (the bytes of the name read as a
big-endian number); `n!"name"` is that number.  What the parser does not understand makes the result `none`, except for a
function whose body it does not understand: that becomes a declaration without a body (`sort.Slice(in, func(…) …)` in
`/repo/pkg/util/util.go` is the only case).
-/

set_option autoImplicit false

namespace SVB.Go
open SVB.Sources (Text isWordChar)

/-- `n!"name"`: the number that stands for a name. -/
syntax:max (name := nameLit) "n!" noWs str : term
macro_rules
  | `(n!$s:str) =>
    let n := s.getString.toUTF8.toList.foldl (fun a b => 256 * a + b.toNat) 0
    return Lean.Syntax.mkNumLit (toString n)

/-! ## Tokens -/

inductive Tok where
  | id (n : Nat)
  | num (n : Nat)
  | str (t : Text)
  /-- operators and punctuation, one or two characters -/
  | op (n : Nat)
  | bad

/-- Bytes read as a big-endian number. -/
def pack (t : Text) : Nat := t.foldl (fun a c => 256 * a + c) 0

def isDigit (c : Nat) : Bool := Nat.ble 48 c && Nat.ble c 57

def hexDigit (c : Nat) : Option Nat :=
  if isDigit c then some (c - 48)
  else if Nat.ble 97 c && Nat.ble c 102 then some (c - 87)
  else if Nat.ble 65 c && Nat.ble c 70 then some (c - 55)
  else none

/-- Digits in a base, with underscores between them. -/
def digits (base : Nat) (t : Text) : Option Nat :=
  t.foldl (fun a c => if Nat.beq c 95 then a else match a, hexDigit c with
    | some a, some d => if Nat.blt d base then some (base * a + d) else none
    | _, _ => none) (some 0)

/-- Digits, or digits with a decimal exponent (`1e6`). -/
def decimal (t : Text) : Option Nat :=
  match digits 10 t with
  | some n => some n
  | none => match t.dropWhile (fun c => !Nat.beq c 101) with
    | _ :: e :: es => match digits 10 (t.takeWhile fun c => !Nat.beq c 101), digits 10 (e :: es) with
      | some m, some e => some (m * 10 ^ e)
      | _, _ => none
    | _ => none

/-- A word is a name or a number literal (decimal, hexadecimal or binary). -/
def wordTok : Text → Tok
  | [] => .bad
  | c :: cs =>
    if isDigit c then
      match (match cs with
        | x :: ds =>
          if Nat.beq x 120 && !ds.isEmpty then digits 16 ds
          else if Nat.beq x 98 && !ds.isEmpty then digits 2 ds
          else decimal (c :: cs)
        | [] => digits 10 [c]) with
      | some n => .num n
      | none => .bad
    else .id (pack (c :: cs))

inductive LexSt where
  | plain
  | word (rev : Text)
  | str (rev : Text)

/-- First pass: words, string literals, and every other character (blanks included) as a token of its own. -/
def lexChars : Text → LexSt → List Tok
  | [], .plain => []
  | [], .word w => [wordTok w.reverse]
  | [], .str _ => [.bad]
  | c :: cs, .str w => if Nat.beq c 34 then .str w.reverse :: lexChars cs .plain else lexChars cs (.str (c :: w))
  | c :: cs, .word w =>
    if isWordChar c then lexChars cs (.word (c :: w))
    else if Nat.beq c 34 then wordTok w.reverse :: lexChars cs (.str [])
    else wordTok w.reverse :: .op c :: lexChars cs .plain
  | c :: cs, .plain =>
    if isWordChar c then lexChars cs (.word [c])
    else if Nat.beq c 34 then lexChars cs (.str [])
    else .op c :: lexChars cs .plain

/-- Operators of two characters: `:= += -= |= << >> &^ != == <= >= ++ -- && ||`. -/
def twoChars (n : Nat) : Bool :=
  [n!":=", n!"+=", n!"-=", n!"|=", n!"<<", n!">>", n!"&^", n!"!=", n!"==", n!"<=", n!">=", n!"++", n!"--", n!"&&",
    n!"||"].any (Nat.beq n)

/-- Second pass: two-character operators, blanks (space, tab) dropped, everything from `//` on dropped. -/
def joinOps : List Tok → List Tok
  | .op a :: .op b :: ts =>
    if Nat.beq a 32 || Nat.beq a 9 then joinOps (.op b :: ts)
    else if Nat.beq a 47 && Nat.beq b 47 then []
    else if twoChars (256 * a + b) then .op (256 * a + b) :: joinOps ts
    else .op a :: joinOps (.op b :: ts)
  | .op a :: ts => if Nat.beq a 32 || Nat.beq a 9 then joinOps ts else .op a :: joinOps ts
  | t :: ts => t :: joinOps ts
  | [] => []

/-- Is a semicolon inserted after a line that ends in this token?  (Go specification, "Semicolons", rule 1.) -/
def endsStmt : Tok → Bool
  | .id _ => true
  | .num _ => true
  | .str _ => true
  | .op n => [n!")", n!"]", n!"}", n!"++", n!"--"].any (Nat.beq n)
  | .bad => false

def lexLine (t : Text) : List Tok :=
  let ts := joinOps (lexChars t .plain)
  match ts.getLast? with
  | some l => if endsStmt l then ts ++ [.op n!";"] else ts
  | none => []

/-- Tokens of a file given by the numbers of `Sources.lean` and `GoSources.lean`. -/
def tokens (file : List Nat) : List Tok := file.flatMap fun n => lexLine (SVB.Sources.line n)

/-! ## Syntax -/

inductive GoType where
  | named (n : Nat)
  | qual (p n : Nat)
  | slice (t : GoType)
  | array (n : Nat) (t : GoType)
  | ptr (t : GoType)

inductive Op where
  | add | sub | mul | div | and | or | andNot | shl | shr
  | eq | ne | lt | le | gt | ge
  | land

inductive Expr where
  | var (n : Nat)
  | num (n : Nat)
  | str (t : Text)
  /-- `e.name` -/
  | dot (e : Expr) (n : Nat)
  | bin (op : Op) (a b : Expr)
  /-- `a[i]` -/
  | index (a i : Expr)
  /-- `a[lo:]` -/
  | from (a lo : Expr)
  /-- `a[:hi]` -/
  | upto (a hi : Expr)
  /-- `a[lo:hi]` -/
  | range (a lo hi : Expr)
  /-- `f(args…)`; conversions are calls of a type name -/
  | call (f : Expr) (args : List Expr)
  /-- a type in argument position: `make([]byte, n)` -/
  | type (t : GoType)

inductive Stmt where
  /-- `x, y := e` -/
  | define (xs : List Nat) (e : Expr)
  /-- `var x T`, `var x = e`, `var x T = e` -/
  | var (x : Nat) (t : Option GoType) (e : Option Expr)
  /-- `l = e`; `_ = e` is an assignment to the name `_` -/
  | assign (l e : Expr)
  /-- `l op= e`; `l++` is `l += 1` -/
  | update (op : Op) (l e : Expr)
  | expr (e : Expr)
  | ret (es : List Expr)
  | ite (c : Expr) (thn els : List Stmt)
  /-- `for init; cond; post { body }` -/
  | loop (init : List Stmt) (cond : Expr) (post : List Stmt) (body : List Stmt)
  /-- `for x := range e { body }` -/
  | range (x : Nat) (e : Expr) (body : List Stmt)
  /-- `switch e { … }` -/
  | switch (e : Expr) (cases : List (Expr × List Stmt × Bool))

/-- A function declaration.  A result or parameter without a name has the name 0. -/
structure Func where
  name : Nat
  params : List (Nat × GoType)
  results : List (Nat × GoType)
  body : Option (List Stmt)

/-- What a `type` declaration gives its name to: a type, or a function type. -/
inductive TypeDecl where
  | of (t : GoType)
  | fn (params results : List (Nat × GoType))

/-- A source file: package, imported paths, types, constants (name, type, value, value of `iota`), package-level variables,
functions. -/
structure File where
  pkg : Nat
  imports : List Nat := []
  types : List (Nat × TypeDecl) := []
  consts : List (Nat × Option GoType × Expr × Nat) := []
  vars : List (Nat × GoType) := []
  funcs : List Func := []

/-! ## Parser -/

abbrev Parse (α : Type) := List Tok → Option (α × List Tok)

/-- The tokens after the operator or punctuation `n`. -/
def expect (n : Nat) : List Tok → Option (List Tok)
  | .op k :: ts => if Nat.beq k n then some ts else none
  | _ => none

def isOp (n : Nat) (ts : List Tok) : Bool := (expect n ts).isSome

def isKw (n : Nat) : List Tok → Bool
  | .id k :: _ => Nat.beq k n
  | _ => false

/-- Binary operators and their precedence (Go specification, "Operator precedence"). -/
def binOp (n : Nat) : Option (Op × Nat) :=
  if Nat.beq n n!"*" then some (.mul, 5)
  else if Nat.beq n n!"/" then some (.div, 5)
  else if Nat.beq n n!"<<" then some (.shl, 5)
  else if Nat.beq n n!">>" then some (.shr, 5)
  else if Nat.beq n n!"&" then some (.and, 5)
  else if Nat.beq n n!"&^" then some (.andNot, 5)
  else if Nat.beq n n!"+" then some (.add, 4)
  else if Nat.beq n n!"-" then some (.sub, 4)
  else if Nat.beq n n!"|" then some (.or, 4)
  else if Nat.beq n n!"==" then some (.eq, 3)
  else if Nat.beq n n!"!=" then some (.ne, 3)
  else if Nat.beq n n!"<" then some (.lt, 3)
  else if Nat.beq n n!"<=" then some (.le, 3)
  else if Nat.beq n n!">" then some (.gt, 3)
  else if Nat.beq n n!">=" then some (.ge, 3)
  else if Nat.beq n n!"&&" then some (.land, 2)
  else none

/-- `op=` -/
def updOp (n : Nat) : Option Op :=
  if Nat.beq n n!"+=" then some .add
  else if Nat.beq n n!"-=" then some .sub
  else if Nat.beq n n!"|=" then some .or
  else none

/-- The parsers that call each other. -/
structure Parsers where
  type : Parse GoType
  /-- binary expression of at least this precedence -/
  bin : Nat → Parse Expr
  /-- continue a binary expression after a left operand -/
  binRest : Nat → Expr → Parse Expr
  /-- continue with selectors, indices, slices, calls -/
  suffix : Expr → Parse Expr
  /-- arguments up to and including `)` -/
  args : Parse (List Expr)
  /-- names separated by commas -/
  names : Parse (List Nat)
  stmt : Parse (List Stmt)
  /-- statements up to `}` or `case` -/
  stmts : Parse (List Stmt)
  /-- the lines of `var ( … )` up to and including `)` -/
  vars : Parse (List Stmt)
  /-- the cases of a `switch` up to and including `}` -/
  cases : Parse (List (Expr × List Stmt × Bool))

/-- Nothing is understood. -/
def Parsers.none : Parsers where
  type _ := .none
  bin _ _ := .none
  binRest _ _ _ := .none
  suffix _ _ := .none
  args _ := .none
  names _ := .none
  stmt _ := .none
  stmts _ := .none
  vars _ := .none
  cases _ := .none

def pType (p : Parsers) : Parse GoType
  | .id n :: .op d :: .id k :: ts => if Nat.beq d n!"." then some (.qual n k, ts) else some (.named n, .op d :: .id k :: ts)
  | .id n :: ts => some (.named n, ts)
  | .op a :: .op b :: ts =>
    if Nat.beq a n!"[" && Nat.beq b n!"]" then (p.type ts).map fun r => (.slice r.1, r.2)
    else if Nat.beq a n!"*" then (p.type (.op b :: ts)).map fun r => (.ptr r.1, r.2)
    else .none
  | .op a :: .num n :: .op b :: ts =>
    if Nat.beq a n!"[" && Nat.beq b n!"]" then (p.type ts).map fun r => (.array n r.1, r.2)
    else .none
  | .op a :: ts => if Nat.beq a n!"*" then (p.type ts).map fun r => (.ptr r.1, r.2) else .none
  | _ => .none

def pOperand (p : Parsers) : Parse Expr
  | .id n :: ts => some (.var n, ts)
  | .num n :: ts => some (.num n, ts)
  | .str t :: ts => some (.str t, ts)
  | .op a :: ts =>
    if Nat.beq a n!"(" then do
      let (e, ts) ← p.bin 1 ts
      let ts ← expect n!")" ts
      return (e, ts)
    else if Nat.beq a n!"[" then (pType p (.op a :: ts)).map fun r => (.type r.1, r.2)
    else .none
  | _ => .none

def pSuffix (p : Parsers) (e : Expr) : Parse Expr
  | .op a :: ts =>
    if Nat.beq a n!"." then
      match ts with
      | .id n :: ts => p.suffix (.dot e n) ts
      | _ => .none
    else if Nat.beq a n!"(" then do
      let (as, ts) ← p.args ts
      p.suffix (.call e as) ts
    else if Nat.beq a n!"[" then
      if isOp n!":" ts then do
        let ts ← expect n!":" ts
        let (hi, ts) ← p.bin 1 ts
        let ts ← expect n!"]" ts
        p.suffix (.upto e hi) ts
      else do
        let (i, ts) ← p.bin 1 ts
        if isOp n!":" ts then do
          let ts ← expect n!":" ts
          if isOp n!"]" ts then do
            let ts ← expect n!"]" ts
            p.suffix (.from e i) ts
          else do
            let (hi, ts) ← p.bin 1 ts
            let ts ← expect n!"]" ts
            p.suffix (.range e i hi) ts
        else do
          let ts ← expect n!"]" ts
          p.suffix (.index e i) ts
    else some (e, .op a :: ts)
  | ts => some (e, ts)

def pBin (p : Parsers) (prec : Nat) (ts : List Tok) : Option (Expr × List Tok) := do
  let (e, ts) ← pOperand p ts
  let (e, ts) ← p.suffix e ts
  p.binRest prec e ts

def pBinRest (p : Parsers) (prec : Nat) (a : Expr) : Parse Expr
  | .op n :: ts =>
    match binOp n with
    | some (op, q) =>
      if Nat.ble prec q then do
        let (b, ts) ← p.bin (q + 1) ts
        p.binRest prec (.bin op a b) ts
      else some (a, .op n :: ts)
    | .none => some (a, .op n :: ts)
  | ts => some (a, ts)

def pArgs (p : Parsers) (ts : List Tok) : Option (List Expr × List Tok) :=
  if isOp n!")" ts then (expect n!")" ts).map fun ts => ([], ts)
  else do
    let (e, ts) ← p.bin 1 ts
    if isOp n!"," ts then do
      let ts ← expect n!"," ts
      let (es, ts) ← p.args ts
      return (e :: es, ts)
    else do
      let ts ← expect n!")" ts
      return ([e], ts)

def pNames (p : Parsers) : Parse (List Nat)
  | .id n :: .op c :: ts =>
    if Nat.beq c n!"," then do
      let (ns, ts) ← p.names ts
      return (n :: ns, ts)
    else some ([n], .op c :: ts)
  | .id n :: ts => some ([n], ts)
  | _ => .none

/-- Is this a list of names followed by `:=`? -/
def isDefine (p : Parsers) (ts : List Tok) : Bool :=
  match p.names ts with
  | some (_, ts) => isOp n!":=" ts
  | .none => false

/-- Definitions, assignments, expressions: the statements that may stand in the header of a `for`. -/
def pSimple (p : Parsers) (ts : List Tok) : Option (Stmt × List Tok) :=
  if isDefine p ts then do
    let (xs, ts) ← p.names ts
    let ts ← expect n!":=" ts
    let (e, ts) ← p.bin 1 ts
    return (.define xs e, ts)
  else do
    let (l, ts) ← p.bin 1 ts
    match ts with
    | .op n :: ts =>
      if Nat.beq n n!"=" then do
        let (e, ts) ← p.bin 1 ts
        return (.assign l e, ts)
      else if Nat.beq n n!"++" then return (.update .add l (.num 1), ts)
      else match updOp n with
        | some op => do
          let (e, ts) ← p.bin 1 ts
          return (.update op l e, ts)
        | .none => return (.expr l, .op n :: ts)
    | ts => return (.expr l, ts)

def pBlock (p : Parsers) (ts : List Tok) : Option (List Stmt × List Tok) := do
  let ts ← expect n!"{" ts
  let (b, ts) ← p.stmts ts
  let ts ← expect n!"}" ts
  return (b, ts)

/-- `name [T] [= e]` -/
def pVar (p : Parsers) : Parse Stmt
  | .id x :: ts =>
    if isOp n!"=" ts then do
      let ts ← expect n!"=" ts
      let (e, ts) ← p.bin 1 ts
      return (.var x .none (some e), ts)
    else do
      let (t, ts) ← p.type ts
      if isOp n!"=" ts then do
        let ts ← expect n!"=" ts
        let (e, ts) ← p.bin 1 ts
        return (.var x (some t) (some e), ts)
      else return (.var x (some t) .none, ts)
  | _ => .none

def pVars (p : Parsers) (ts : List Tok) : Option (List Stmt × List Tok) :=
  if isOp n!")" ts then (expect n!")" ts).map fun ts => ([], ts)
  else do
    let (v, ts) ← pVar p ts
    let ts ← expect n!";" ts
    let (vs, ts) ← p.vars ts
    return (v :: vs, ts)

def pFor (p : Parsers) (ts : List Tok) : Option (Stmt × List Tok) :=
  match ts with
  | .id x :: .op d :: .id r :: ts' =>
    if Nat.beq d n!":=" && Nat.beq r n!"range" then do
      let (e, ts) ← p.bin 1 ts'
      let (b, ts) ← pBlock p ts
      return (.range x e b, ts)
    else do
      let (i, ts) ← pSimple p ts
      if isOp n!";" ts then do
        let ts ← expect n!";" ts
        let (c, ts) ← p.bin 1 ts
        let ts ← expect n!";" ts
        let (q, ts) ← pSimple p ts
        let (b, ts) ← pBlock p ts
        return (.loop [i] c [q] b, ts)
      else match i with
        | .expr c => do
          let (b, ts) ← pBlock p ts
          return (.loop [] c [] b, ts)
        | _ => .none
  | .op s :: ts =>
    if Nat.beq s n!";" then do
      let (c, ts) ← p.bin 1 ts
      let ts ← expect n!";" ts
      let (q, ts) ← pSimple p ts
      let (b, ts) ← pBlock p ts
      return (.loop [] c [q] b, ts)
    else .none
  | ts => do
    let (i, ts) ← pSimple p ts
    if isOp n!";" ts then do
      let ts ← expect n!";" ts
      let (c, ts) ← p.bin 1 ts
      let ts ← expect n!";" ts
      let (q, ts) ← pSimple p ts
      let (b, ts) ← pBlock p ts
      return (.loop [i] c [q] b, ts)
    else .none

def pCases (p : Parsers) (ts : List Tok) : Option (List (Expr × List Stmt × Bool) × List Tok) :=
  if isOp n!"}" ts then (expect n!"}" ts).map fun ts => ([], ts)
  else if isKw n!"case" ts then do
    let (v, ts) ← p.bin 1 (ts.drop 1)
    let ts ← expect n!":" ts
    let (b, ts) ← p.stmts ts
    if isKw n!"fallthrough" ts then do
      let ts ← expect n!";" (ts.drop 1)
      let (cs, ts) ← p.cases ts
      return ((v, b, true) :: cs, ts)
    else do
      let (cs, ts) ← p.cases ts
      return ((v, b, false) :: cs, ts)
  else .none

def pStmt (p : Parsers) (ts : List Tok) : Option (List Stmt × List Tok) :=
  if isKw n!"var" ts then
    if isOp n!"(" (ts.drop 1) then p.vars (ts.drop 2)
    else (pVar p (ts.drop 1)).map fun r => ([r.1], r.2)
  else if isKw n!"return" ts then
    if isOp n!";" (ts.drop 1) then some ([.ret []], ts.drop 1)
    else (p.bin 1 (ts.drop 1)).map fun r => ([.ret [r.1]], r.2)
  else if isKw n!"if" ts then do
    let (c, ts) ← p.bin 1 (ts.drop 1)
    let (t, ts) ← pBlock p ts
    if isKw n!"else" ts then do
      let (e, ts) ← pBlock p (ts.drop 1)
      return ([.ite c t e], ts)
    else return ([.ite c t []], ts)
  else if isKw n!"for" ts then (pFor p (ts.drop 1)).map fun r => ([r.1], r.2)
  else if isKw n!"switch" ts then do
    let (e, ts) ← p.bin 1 (ts.drop 1)
    let ts ← expect n!"{" ts
    let (cs, ts) ← p.cases ts
    return ([.switch e cs], ts)
  else (pSimple p ts).map fun r => ([r.1], r.2)

def pStmts (p : Parsers) (ts : List Tok) : Option (List Stmt × List Tok) :=
  if isOp n!"}" ts || isKw n!"case" ts || isKw n!"fallthrough" ts then some ([], ts)
  else do
    let (s, ts) ← p.stmt ts
    let ts ← expect n!";" ts
    let (ss, ts) ← p.stmts ts
    return (s ++ ss, ts)

/-- One level of nesting more. -/
def Parsers.step (p : Parsers) : Parsers where
  type := pType p
  bin := pBin p
  binRest := pBinRest p
  suffix := pSuffix p
  args := pArgs p
  names := pNames p
  stmt := pStmt p
  stmts := pStmts p
  vars := pVars p
  cases := pCases p

def Parsers.depth : Nat → Parsers
  | 0 => .none
  | n + 1 => (Parsers.depth n).step

/-- Parsers of nesting depth 200: enough for the files of `/repo` (the depth counts list elements too). -/
def parsers : Parsers := .depth 200

/-- Parameters up to and including `)`; `pend` are the names that wait for their type. -/
def params (p : Parsers) : Nat → List Nat → List Tok → Option (List (Nat × GoType) × List Tok)
  | 0, _, _ => .none
  | d + 1, pend, ts =>
    if isOp n!")" ts then
      (expect n!")" ts).bind fun ts => if pend.isEmpty then some ([], ts) else .none
    else match ts with
    | .id x :: .op c :: ts' =>
      if Nat.beq c n!"," then params p d (pend ++ [x]) ts'
      else do
        let (t, ts) ← p.type (.op c :: ts')
        let ts := if isOp n!"," ts then ts.drop 1 else ts
        let (r, ts) ← params p d [] ts
        return ((pend ++ [x]).map (fun y => (y, t)) ++ r, ts)
    | .id x :: ts' => do
      let (t, ts) ← p.type ts'
      let ts := if isOp n!"," ts then ts.drop 1 else ts
      let (r, ts) ← params p d [] ts
      return ((pend ++ [x]).map (fun y => (y, t)) ++ r, ts)
    | _ => .none

/-- Tokens after the brace that closes a block; `d` braces are open. -/
def skipBlock : Nat → List Tok → List Tok
  | _, [] => []
  | d, .op n :: ts =>
    if Nat.beq n n!"{" then skipBlock (d + 1) ts
    else if Nat.beq n n!"}" then (if Nat.beq d 1 then ts else skipBlock (d - 1) ts)
    else skipBlock d ts
  | d, _ :: ts => skipBlock d ts

/-- The paths of an `import` list, up to and including `)`. -/
def pImports : List Tok → Option (List Nat × List Tok)
  | .str t :: .op s :: ts => if Nat.beq s n!";" then (pImports ts).map fun r => (pack t :: r.1, r.2) else .none
  | .op n :: ts => if Nat.beq n n!")" then some ([], ts) else .none
  | _ => .none

/-- Parameters and results of a function. -/
def pSig (p : Parsers) (ts : List Tok) : Option ((List (Nat × GoType) × List (Nat × GoType)) × List Tok) := do
  let ts ← expect n!"(" ts
  let (ps, ts) ← params p 20 [] ts
  let (rs, ts) ←
    if isOp n!"{" ts || isOp n!";" ts then some ([], ts)
    else if isOp n!"(" ts then params p 20 [] (ts.drop 1)
    else (p.type ts).map fun r => ([(0, r.1)], r.2)
  return ((ps, rs), ts)

/-- A function after the keyword `func`. -/
def pFunc (p : Parsers) : Parse Func
  | .id f :: ts => do
    let ((ps, rs), ts) ← pSig p ts
    if isOp n!"{" ts then
      match pBlock p ts with
      | some (b, ts) => return (⟨f, ps, rs, some b⟩, ts)
      | .none => return (⟨f, ps, rs, .none⟩, skipBlock 0 ts)
    else return (⟨f, ps, rs, .none⟩, ts)
  | _ => .none

/-- The lines of `const ( … )`.  `prev` is the type and expression of the line before, repeated when a line has only a name;
`iota` counts the lines. -/
def pConsts (p : Parsers) : Nat → Option (Option GoType × Expr) → Nat →
    List Tok → Option (List (Nat × Option GoType × Expr × Nat) × List Tok)
  | 0, _, _, _ => .none
  | d + 1, prev, k, ts =>
    if isOp n!")" ts then (expect n!")" ts).map fun ts => ([], ts)
    else match ts with
    | .id x :: ts =>
      if isOp n!";" ts then do
        let (t, e) ← prev
        let (r, ts) ← pConsts p d prev (k + 1) (ts.drop 1)
        return ((x, t, e, k) :: r, ts)
      else do
        let (t, ts) ← if isOp n!"=" ts then some (.none, ts) else (p.type ts).map fun r => (some r.1, r.2)
        let ts ← expect n!"=" ts
        let (e, ts) ← p.bin 1 ts
        let ts ← expect n!";" ts
        let (r, ts) ← pConsts p d (some (t, e)) (k + 1) ts
        return ((x, t, e, k) :: r, ts)
    | _ => .none

/-- Package-level variables without a value: the lines of `var ( … )`. -/
def pGlobals (p : Parsers) : Nat → List Tok → Option (List (Nat × GoType) × List Tok)
  | 0, _ => .none
  | d + 1, ts =>
    if isOp n!")" ts then (expect n!")" ts).map fun ts => ([], ts)
    else match ts with
    | .id x :: ts => do
      let (t, ts) ← p.type ts
      let ts ← expect n!";" ts
      let (r, ts) ← pGlobals p d ts
      return ((x, t) :: r, ts)
    | _ => .none

/-- The declarations of a file after its package clause. -/
def pDecls (p : Parsers) : Nat → File → List Tok → Option File
  | 0, _, _ => .none
  | _ + 1, f, [] => some f
  | d + 1, f, .id k :: ts =>
    if Nat.beq k n!"import" then
      let is : Option (List Nat × List Tok) :=
        match ts with
        | .str t :: ts => some ([pack t], ts)
        | .op n :: ts => if Nat.beq n n!"(" then pImports ts else .none
        | _ => .none
      do
        let (is, ts) ← is
        let ts ← expect n!";" ts
        pDecls p d { f with imports := f.imports ++ is } ts
    else if Nat.beq k n!"type" then
      match ts with
      | .id x :: .id w :: ts' =>
        if Nat.beq w n!"func" then do
          let ((ps, rs), ts) ← pSig p ts'
          let ts ← expect n!";" ts
          pDecls p d { f with types := f.types ++ [(x, .fn ps rs)] } ts
        else do
          let (t, ts) ← p.type (.id w :: ts')
          let ts ← expect n!";" ts
          pDecls p d { f with types := f.types ++ [(x, .of t)] } ts
      | _ => .none
    else if Nat.beq k n!"const" then do
      let ts ← expect n!"(" ts
      let (cs, ts) ← pConsts p 20 .none 0 ts
      let ts ← expect n!";" ts
      pDecls p d { f with consts := f.consts ++ cs } ts
    else if Nat.beq k n!"var" then do
      let ts ← expect n!"(" ts
      let (vs, ts) ← pGlobals p 20 ts
      let ts ← expect n!";" ts
      pDecls p d { f with vars := f.vars ++ vs } ts
    else if Nat.beq k n!"func" then do
      let (g, ts) ← pFunc p ts
      let ts ← expect n!";" ts
      pDecls p d { f with funcs := f.funcs ++ [g] } ts
    else .none
  | _, _, _ => .none

/-- A source file. -/
def parseGo (file : List Nat) : Option File :=
  match tokens file with
  | .id k :: .id pkg :: .op s :: ts =>
    if Nat.beq k n!"package" && Nat.beq s n!";" then pDecls parsers 100 { pkg := pkg } ts else .none
  | _ => .none

end SVB.Go
