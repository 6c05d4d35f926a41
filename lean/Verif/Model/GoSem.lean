import Verif.Model.GoFiles
import Verif.Model.Dispatch
import Verif.Model.Util

/-!
# What the parsed Go files mean

A definitional interpreter for the syntax of `GoText.lean`: a function of a Go package becomes a `Prog` (`Prog.lean`).  It
follows `https://go.dev/ref/spec`.  `int` has 64 bits and every operation on it wraps around.  A construct that is not
covered, or an operation applied to values of types the Go compiler would reject, is the panic `.fault`, which does not exist
in Go; the theorems about the interpreter show that it is never reached.

What is given here and not read from `/repo`: the functions of the standard library that are called
(`bits.LeadingZeros32`, `binary.PutUvarint`, `binary.Uvarint`), the four assembly functions (their text is read in
`AsmText.lean`), the addresses and dimensions of the tables of `/repo/pkg/shared/tables.go` (read in `SourceText.lean`), and
`cpu.X86`.
-/

set_option autoImplicit false

namespace SVB.Go
open SVB.Asm SVB.Sources

/-! ## Values -/

inductive Val where
  /-- an untyped integer constant -/
  | const (x : Int)
  | int (x : Int)
  | u8 (x : Byte)
  | u16 (x : U16)
  | u32 (x : U32)
  | u64 (x : U64)
  | bool (b : Bool)
  /-- `[]byte` -/
  | bytes (s : Bytes)
  /-- `[]uint32` -/
  | words (s : U32s)
  /-- a pointer to an array (of arrays) of bytes that fills a block -/
  | table (b : Block) (dims : List Nat)
  /-- an array of bytes -/
  | arr (xs : List Byte)
  | str (t : Text)
  /-- a function of a package -/
  | fn (pkg name : Nat)
  /-- a type, as first argument of `make` -/
  | type (t : GoType)

/-- Local variables, innermost first. -/
abbrev Env := List (Nat × Val)

def Env.get : Env → Nat → Option Val
  | [], _ => none
  | (x, v) :: e, n => if x = n then some v else Env.get e n

def Env.set : Env → Nat → Val → Option Env
  | [], _, _ => none
  | (x, v) :: e, n, w => if x = n then some ((x, w) :: e) else (Env.set e n w).map ((x, v) :: ·)

/-- End of a block: forget the variables declared in it.  `n` is the number of variables before the block. -/
def Env.leave (e : Env) (n : Nat) : Env := e.drop (e.length - n)

/-- Something the Go compiler would have rejected, or that is not covered. -/
def fault {α : Type} : Prog α := .panic .fault

def orFault {α : Type} : Option α → Prog α
  | some a => .ret a
  | none => fault

/-- Branch on a condition. -/
def Val.branch {α : Type} (v : Val) (thn els : Prog α) : Prog α :=
  match v with
  | .bool true => thn
  | .bool false => els
  | _ => fault

/-! ## Types -/

/-- The integer value of an operand used as an index, a length or a shift count. -/
def Val.toInt : Val → Option Int
  | .const x => some x
  | .int x => some x
  | .u8 x => some x.toNat
  | .u16 x => some x.toNat
  | .u32 x => some x.toNat
  | .u64 x => some x.toNat
  | _ => none

/-- Conversion to an unsigned type of `w` bits: the value modulo `2 ^ w`. -/
def Val.toBits (w : Nat) : Val → Option (BitVec w)
  | .const x => some (BitVec.ofInt w x)
  | .int x => some (BitVec.ofInt w x)
  | .u8 x => some (x.setWidth w)
  | .u16 x => some (x.setWidth w)
  | .u32 x => some (x.setWidth w)
  | .u64 x => some (x.setWidth w)
  | _ => none

/-- Is this the name of a numeric type the files use? -/
def isNumType (n : Nat) : Bool :=
  [n!"uint8", n!"byte", n!"uint16", n!"uint32", n!"uint64", n!"int"].any (· == n)

/-- `T(v)` for a numeric type `T`. -/
def convert (n : Nat) (v : Val) : Option Val :=
  if n = n!"uint8" ∨ n = n!"byte" then (v.toBits 8).map .u8
  else if n = n!"uint16" then (v.toBits 16).map .u16
  else if n = n!"uint32" then (v.toBits 32).map .u32
  else if n = n!"uint64" then (v.toBits 64).map .u64
  else if n = n!"int" then v.toInt.map fun x => .int (int64 x)
  else none

/-- A value where a value of type `t` is required: an untyped constant takes the type. -/
def coerce (t : GoType) : Val → Option Val
  | .const x =>
    match t with
    | .named n => if isNumType n then convert n (.const x) else some (.int x)
    | _ => some (.int x)
  | v => some v

/-- A value stored in a variable whose value was `old`: an untyped constant takes the type of the variable. -/
def coerceLike (old : Val) : Val → Option Val
  | .const x =>
    match old with
    | .int _ => some (.int x)
    | .u8 _ => some (.u8 (BitVec.ofInt 8 x))
    | .u16 _ => some (.u16 (BitVec.ofInt 16 x))
    | .u32 _ => some (.u32 (BitVec.ofInt 32 x))
    | .u64 _ => some (.u64 (BitVec.ofInt 64 x))
    | _ => none
  | v => some v

/-- The value of a variable declared without a type: an untyped constant becomes an `int`. -/
def Val.declared : Val → Val
  | .const x => .int x
  | v => v

/-- The zero value of a type. -/
def zeroOf : GoType → Option Val
  | .named n => if isNumType n then convert n (.const 0) else none
  | _ => none

/-! ## Operators -/

/-- Arithmetic and bit operators on unsigned integers. -/
def opBits {w : Nat} (op : Op) (a b : BitVec w) : Option (BitVec w) :=
  match op with
  | .add => some (a + b)
  | .sub => some (a - b)
  | .mul => some (a * b)
  | .and => some (a &&& b)
  | .or => some (a ||| b)
  | .andNot => some (a &&& ~~~ b)
  | _ => none

/-- Comparisons. -/
def opCmp (op : Op) (a b : Int) : Option Bool :=
  match op with
  | .eq => some (decide (a = b))
  | .ne => some (decide (a ≠ b))
  | .lt => some (decide (a < b))
  | .le => some (decide (a ≤ b))
  | .gt => some (decide (a > b))
  | .ge => some (decide (a ≥ b))
  | _ => none

/-- Arithmetic and bit operators on 64-bit `int`.  Division is only covered for a divisor other than 0. -/
def opInt (op : Op) (a b : Int) : Option Int :=
  match op with
  | .add => some (int64 (a + b))
  | .sub => some (int64 (a - b))
  | .mul => some (int64 (a * b))
  | .div => if b = 0 then none else some (int64 (goDiv a b))
  | .and => some (BitVec.ofInt 64 a &&& BitVec.ofInt 64 b).toInt
  | .or => some (BitVec.ofInt 64 a ||| BitVec.ofInt 64 b).toInt
  | .andNot => some (SVB.andNot a b)
  | _ => none

/-- Operators on untyped constants, which are exact. -/
def opConst (op : Op) (a b : Int) : Option Int :=
  match op with
  | .add => some (a + b)
  | .sub => some (a - b)
  | .mul => some (a * b)
  | .div => if b = 0 then none else some (goDiv a b)
  | _ => none

/-- `a << n`, `a >> n` -/
def opShift (op : Op) (n : Nat) : Val → Option Val
  | .u8 a => match op with
    | .shl => some (.u8 (a <<< n)) | .shr => some (.u8 (a >>> n)) | _ => none
  | .u16 a => match op with
    | .shl => some (.u16 (a <<< n)) | .shr => some (.u16 (a >>> n)) | _ => none
  | .u32 a => match op with
    | .shl => some (.u32 (a <<< n)) | .shr => some (.u32 (a >>> n)) | _ => none
  | .u64 a => match op with
    | .shl => some (.u64 (a <<< n)) | .shr => some (.u64 (a >>> n)) | _ => none
  | .int a => match op with
    | .shl => some (.int (BitVec.ofInt 64 a <<< n).toInt)
    | .shr => some (.int ((BitVec.ofInt 64 a).sshiftRight n).toInt)
    | _ => none
  | _ => none

def Op.isShift : Op → Bool
  | .shl => true
  | .shr => true
  | _ => false

def Op.isCmp : Op → Bool
  | .eq => true
  | .ne => true
  | .lt => true
  | .le => true
  | .gt => true
  | .ge => true
  | _ => false

/-- Two unsigned operands of one type. -/
def binBits {w : Nat} (mk : BitVec w → Val) (op : Op) (a b : BitVec w) : Option Val :=
  if op.isCmp then (opCmp op a.toNat b.toNat).map .bool else (opBits op a b).map mk

/-- Two `int` operands. -/
def binInt (op : Op) (a b : Int) : Option Val :=
  if op.isCmp then (opCmp op a b).map .bool else (opInt op a b).map .int

/-- A binary operator other than a shift on values of one type; an untyped constant takes the type of the other operand. -/
def binVal (op : Op) : Val → Val → Option Val
  | .const a, .const b => if op.isCmp then (opCmp op a b).map .bool else (opConst op a b).map .const
  | .int a, .int b => binInt op a b
  | .int a, .const b => binInt op a b
  | .const a, .int b => binInt op a b
  | .u8 a, .u8 b => binBits .u8 op a b
  | .u8 a, .const b => binBits .u8 op a (BitVec.ofInt 8 b)
  | .const a, .u8 b => binBits .u8 op (BitVec.ofInt 8 a) b
  | .u16 a, .u16 b => binBits .u16 op a b
  | .u16 a, .const b => binBits .u16 op a (BitVec.ofInt 16 b)
  | .const a, .u16 b => binBits .u16 op (BitVec.ofInt 16 a) b
  | .u32 a, .u32 b => binBits .u32 op a b
  | .u32 a, .const b => binBits .u32 op a (BitVec.ofInt 32 b)
  | .const a, .u32 b => binBits .u32 op (BitVec.ofInt 32 a) b
  | .u64 a, .u64 b => binBits .u64 op a b
  | .u64 a, .const b => binBits .u64 op a (BitVec.ofInt 64 b)
  | .const a, .u64 b => binBits .u64 op (BitVec.ofInt 64 a) b
  | _, _ => none

/-- Any binary operator but `&&`, where it has a value. -/
def binAny (op : Op) (a b : Val) : Option Val :=
  if op.isShift then
    match b.toInt with
    | some n => if 0 ≤ n then opShift op n.toNat a else none
    | none => none
  else binVal op a b

/-- Any binary operator but `&&`.  A negative shift count is a run-time panic. -/
def applyOp (op : Op) (a b : Val) : Prog Val :=
  if op.isShift then
    match b.toInt with
    | some n => if 0 ≤ n then orFault (binAny op a b) else .panic (.explicit "negative shift amount")
    | none => fault
  else orFault (binAny op a b)

/-! ## Indexing and slicing -/

/-- A row of a table: `n` bytes from `p` on. -/
def loadRow (p : Ptr) : Nat → Prog (List Byte)
  | 0 => .ret []
  | n + 1 => do
    let b ← load8 p
    let bs ← loadRow (p.add 1) n
    return b :: bs

/-- `a[i]` -/
def indexVal (a : Val) (i : Int) : Prog Val :=
  match a with
  | .bytes s => do return .u8 (← getB s i)
  | .words s => do return .u32 (← getW s i)
  | .table b [n] => if 0 ≤ i ∧ i < n then do return .u8 (← load8 ⟨b, i.toNat⟩) else .panic .index
  | .table b [n, m] => if 0 ≤ i ∧ i < n then do return .arr (← loadRow ⟨b, m * i.toNat⟩ m) else .panic .index
  | .arr xs => if 0 ≤ i ∧ i < xs.length then .ret (.u8 (xs.getD i.toNat 0)) else .panic .index
  | _ => fault

/-- `a[i] = v` -/
def setIndex (a : Val) (i : Int) (v : Val) : Prog Unit :=
  match a with
  | .bytes s => match coerceLike (.u8 0) v with
    | some (.u8 x) => setB s i x
    | _ => fault
  | .words s => match coerceLike (.u32 0) v with
    | some (.u32 x) => setW s i x
    | _ => fault
  | _ => fault

/-- `a[i:]` -/
def fromVal (a : Val) (i : Int) : Prog Val :=
  match a with
  | .bytes s => do return .bytes (← s.from i)
  | .words s => do return .words (← s.from i)
  | _ => fault

/-- `a[i:j]`; `a[:j]` is `a[0:j]` -/
def rangeVal (a : Val) (i j : Int) : Prog Val :=
  match a with
  | .bytes s => do return .bytes (← s.range i j)
  | .words s => do return .words (← s.range i j)
  | _ => fault

/-! ## Expressions -/

/-- What surrounds the body of a function. -/
structure Ctx where
  /-- the package -/
  pkg : Nat
  /-- package-level names, by path: `[pkg, name]`, or `[cpu, X86, HasAVX]` -/
  global : List Nat → Option Val
  /-- the function `name` of package `pkg` -/
  call : Nat → Nat → List Val → Prog (List Val)
  /-- bound on the number of iterations of one loop -/
  fuel : Nat
  /-- the block `make` returns -/
  fresh : Block

/-- `a.b.c` as a path. -/
def Expr.path : Expr → Option (List Nat)
  | .var n => some [n]
  | .dot e n => e.path.map (· ++ [n])
  | _ => none

/-- A local variable, or a name of the package. -/
def getVar (C : Ctx) (env : Env) (n : Nat) : Option Val :=
  match env.get n with
  | some v => some v
  | none => C.global [C.pkg, n]

/-- Predeclared functions and conversions, for names that are not declared in the program. -/
def builtin (C : Ctx) (n : Nat) (vs : List Val) : Prog (List Val) :=
  if n = n!"len" then
    match vs with
    | [.bytes s] => .ret [.int s.len]
    | [.words s] => .ret [.int s.len]
    | _ => fault
  else if n = n!"make" then
    match vs with
    | [.type (.slice (.named t)), v] =>
      if t = n!"byte" then
        match v.toInt with
        | some k => do return [.bytes (← makeBytes C.fresh k)]
        | none => fault
      else fault
    | _ => fault
  else if n = n!"panic" then
    match vs with
    | [.str t] => .panic (.explicit (String.ofList (t.map Char.ofNat)))
    | _ => fault
  else
    match vs with
    | [v] => do return [← orFault (convert n v)]
    | _ => fault

/-- Call of the function denoted by an expression. -/
def applyFn (C : Ctx) (env : Env) (f : Expr) (vs : List Val) : Prog (List Val) :=
  match f with
  | .var n =>
    match getVar C env n with
    | some (.fn p g) => C.call p g vs
    | some _ => fault
    | none => builtin C n vs
  | .dot (.var p) n => C.call p n vs
  | _ => fault

def one : List Val → Prog Val
  | [v] => .ret v
  | _ => fault

mutual
/-- The value of an expression.  Operands are evaluated from left to right. -/
def eval (C : Ctx) (env : Env) : Expr → Prog Val
  | .var n => orFault (getVar C env n)
  | .num n => .ret (.const n)
  | .str t => .ret (.str t)
  | .dot e n => orFault (((Expr.dot e n).path).bind C.global)
  | .bin .land a b => do
    let x ← eval C env a
    x.branch (eval C env b) (.ret (.bool false))
  | .bin op a b => do
    let x ← eval C env a
    let y ← eval C env b
    applyOp op x y
  | .index a i => do
    let x ← eval C env a
    let k ← eval C env i
    indexVal x (← orFault k.toInt)
  | .from a i => do
    let x ← eval C env a
    let k ← eval C env i
    fromVal x (← orFault k.toInt)
  | .upto a j => do
    let x ← eval C env a
    let k ← eval C env j
    rangeVal x 0 (← orFault k.toInt)
  | .range a i j => do
    let x ← eval C env a
    let k ← eval C env i
    let l ← eval C env j
    rangeVal x (← orFault k.toInt) (← orFault l.toInt)
  | .call f args => do
    let vs ← evalArgs C env args
    one (← applyFn C env f vs)
  | .type t => .ret (.type t)

def evalArgs (C : Ctx) (env : Env) : List Expr → Prog (List Val)
  | [] => .ret []
  | e :: es => do
    let v ← eval C env e
    let vs ← evalArgs C env es
    return v :: vs
end

/-- The values of an expression: a call may have none or several. -/
def evalMulti (C : Ctx) (env : Env) : Expr → Prog (List Val)
  | .call f args => do
    let vs ← evalArgs C env args
    applyFn C env f vs
  | e => do return [← eval C env e]

/-! ## Statements -/

/-- How a statement ends: with the next one, or by leaving the function. -/
inductive Flow where
  | next (env : Env)
  | ret (vs : List Val)

/-- Go on with `k` unless the function has been left. -/
def Flow.andThen : Flow → (Env → Prog Flow) → Prog Flow
  | .next env, k => k env
  | .ret vs, _ => .ret (.ret vs)

/-- `x, y := vs` -/
def declare : List Nat → List Val → Env → Option Env
  | [], [], env => some env
  | x :: xs, v :: vs, env => declare xs vs ((x, v.declared) :: env)
  | _, _, _ => none

/-- `for …; cond; … { body }`, where `body` includes the post statement. -/
def forLoop (fuel : Nat) (cond : Env → Prog Val) (body : Env → Prog Flow) (env : Env) : Prog Flow := do
  let c ← cond env
  c.branch
    (match fuel with
    | 0 => .panic .fuel
    | n + 1 => do (← body env).andThen (forLoop n cond body))
    (.ret (.next env))

/-- `for x := range s { body }` with `r` elements left, `i` the index. -/
def rangeLoop (x : Nat) (body : Env → Prog Flow) : Nat → Nat → Env → Prog Flow
  | 0, _, env => .ret (.next env)
  | r + 1, i, env => do
    (← body ((x, .int i) :: env)).andThen fun e => rangeLoop x body r (i + 1) (Env.leave e env.length)

/-- A block of statements with its own scope. -/
def inScope (body : Env → Prog Flow) (env : Env) : Prog Flow := do
  (← body env).andThen fun e => .ret (.next (Env.leave e env.length))

mutual
def exec (C : Ctx) : Stmt → Env → Prog Flow
  | .define xs e, env => do
    let vs ← evalMulti C env e
    return .next (← orFault (declare xs vs env))
  | .var x t e, env =>
    match t, e with
    | none, some e => do
      let v ← eval C env e
      return .next ((x, v.declared) :: env)
    | some t, none => do return .next ((x, ← orFault (zeroOf t)) :: env)
    | some t, some e => do
      let v ← eval C env e
      return .next ((x, ← orFault (coerce t v)) :: env)
    | none, none => fault
  | .assign l e, env =>
    match l with
    | .var x =>
      if x = n!"_" then do
        let _ ← eval C env e
        return .next env
      else do
        let v ← eval C env e
        let old ← orFault (env.get x)
        let v ← orFault (coerceLike old v)
        return .next (← orFault (env.set x v))
    | .index a i => do
      let s ← eval C env a
      let k ← eval C env i
      let v ← eval C env e
      setIndex s (← orFault k.toInt) v
      return .next env
    | _ => fault
  | .update op l e, env =>
    match l with
    | .var x => do
      let old ← orFault (env.get x)
      let v ← eval C env e
      let v ← applyOp op old v
      return .next (← orFault (env.set x v))
    | _ => fault
  | .expr e, env => do
    let _ ← evalMulti C env e
    return .next env
  | .ret es, env => do
    let vs ← evalArgs C env es
    return .ret vs
  | .ite c thn els, env => do
    let v ← eval C env c
    v.branch (inScope (execs C thn) env) (inScope (execs C els) env)
  | .loop init cond post body, env =>
    inScope (fun env => do
      (← execs C init env).andThen
        (forLoop C.fuel (fun env => eval C env cond)
          (fun env => do (← inScope (execs C body) env).andThen (execs C post)))) env
  | .range x e body, env => do
    match ← eval C env e with
    | .bytes s => rangeLoop x (execs C body) s.len 0 env
    | .words s => rangeLoop x (execs C body) s.len 0 env
    | _ => fault
  | .switch e cases, env => do
    let v ← eval C env e
    execCases C v false cases env

def execs (C : Ctx) : List Stmt → Env → Prog Flow
  | [], env => .ret (.next env)
  | s :: ss, env => do (← exec C s env).andThen (execs C ss)

/-- The cases of a `switch` on the value `v`; `through`: control arrives by `fallthrough`. -/
def execCases (C : Ctx) (v : Val) (through : Bool) : List (Expr × List Stmt × Bool) → Env → Prog Flow
  | [], env => .ret (.next env)
  | (w, body, ft) :: cs, env =>
    if through then do
      (← inScope (execs C body) env).andThen fun env =>
        if ft then execCases C v true cs env else .ret (.next env)
    else do
      let w ← eval C env w
      let b ← orFault (binAny .eq v w)
      b.branch
        (do (← inScope (execs C body) env).andThen fun env =>
              if ft then execCases C v true cs env else .ret (.next env))
        (execCases C v false cs env)
end

/-! ## Functions and programs -/

/-- Arguments and results take the declared types. -/
def coerceAll : List (Nat × GoType) → List Val → Option Env
  | [], [] => some []
  | (x, t) :: ps, v :: vs => do
    let w ← coerce t v
    let r ← coerceAll ps vs
    return (x, w) :: r
  | _, _ => none

/-- A call: the body with the arguments as local variables. -/
def runBody (C : Ctx) (f : Func) (body : List Stmt) (args : List Val) : Prog (List Val) := do
  let env ← orFault (coerceAll f.params args)
  match ← execs C body env with
  | .ret vs => do return (← orFault (coerceAll f.results vs)).map Prod.snd
  | .next _ => if f.results.isEmpty then return [] else fault

/-- Functions that are not written in Go, or belong to the standard library. -/
def external (pkg f : Nat) (vs : List Val) : Prog (List Val) :=
  if pkg = n!"encode" ∧ f = n!"Put8uint32FastAsm" then
    match vs with
    | [.words i, .bytes o, .table s _, .table l _] => do return [.u16 (← put8uint32FastAsm i o ⟨s, 0⟩ ⟨l, 0⟩)]
    | _ => fault
  else if pkg = n!"encode" ∧ f = n!"Put8uint32DeltaFastAsm" then
    match vs with
    | [.words i, .bytes o, .u32 p, .table s _, .table l _] => do
      return [.u16 (← put8uint32DeltaFastAsm i o p ⟨s, 0⟩ ⟨l, 0⟩)]
    | _ => fault
  else if pkg = n!"decode" ∧ f = n!"Get8uint32FastAsm" then
    match vs with
    | [.bytes i, .words o, .u16 c, .table s _, .table l _] => do
      get8uint32FastAsm i o c ⟨s, 0⟩ ⟨l, 0⟩
      return []
    | _ => fault
  else if pkg = n!"decode" ∧ f = n!"Get8uint32DeltaFastAsm" then
    match vs with
    | [.bytes i, .words o, .u16 c, .u32 p, .table s _, .table l _] => do
      get8uint32DeltaFastAsm i o c p ⟨s, 0⟩ ⟨l, 0⟩
      return []
    | _ => fault
  else if pkg = n!"bits" ∧ f = n!"LeadingZeros32" then
    match vs with
    | [.u32 x] => .ret [.int (leadingZeros32 x)]
    | _ => fault
  else if pkg = n!"binary" ∧ f = n!"PutUvarint" then
    match vs with
    | [.bytes b, .u64 x] => do return [.int (← putUvarint b x)]
    | _ => fault
  else if pkg = n!"binary" ∧ f = n!"Uvarint" then
    match vs with
    | [.bytes b] => do
      let r ← uvarint b
      return [.u64 r.1, .int r.2]
    | _ => fault
  else fault

/-- The files that make up a build. -/
abbrev Program := List File

/-- A function of a package. -/
def Program.func (P : Program) (pkg f : Nat) : Option Func :=
  (P.filter fun F => F.pkg == pkg).findSome? fun F => F.funcs.find? fun g => g.name == f

/-- Constant expressions: literals, `iota`, earlier constants, arithmetic. -/
def constExpr (known : List (Nat × Int)) (iota : Nat) : Expr → Option Int
  | .num n => some n
  | .var x => if x = n!"iota" then some iota else known.lookup x
  | .bin op a b => do opConst op (← constExpr known iota a) (← constExpr known iota b)
  | _ => none

/-- The constants of a file, last first. -/
def fileConsts (F : File) : List (Nat × Int) :=
  F.consts.foldl (fun known c => match constExpr known c.2.2.2 c.2.2.1 with
    | some x => (c.1, x) :: known
    | none => known) []

/-- A constant of a package; one with a declared type is an `int` (the only such type is `PerformanceMode`). -/
def Program.const (P : Program) (pkg n : Nat) : Option Val :=
  (P.filter fun F => F.pkg == pkg).findSome? fun F =>
    (F.consts.find? fun c => c.1 == n).bind fun c =>
      ((fileConsts F).lookup n).map fun x => if c.2.1.isSome then .int x else .const x

/-- The tables of `/repo/pkg/shared/tables.go:5, 72, 107, 622`, all of them pointers to arrays. -/
def sharedTable (n : Nat) : Option Val :=
  if n = n!"PerControlLenTable" then some (.table .ctrlLen [256])
  else if n = n!"PerNumLenTable" then some (.table .numLen [256, 4])
  else if n = n!"EncodeShuffleTable" then some (.table .encShuf [256, 16])
  else if n = n!"DecodeShuffleTable" then some (.table .decShuf [256, 16])
  else none

/-- The bits of `golang.org/x/sys/cpu` the code asks for. -/
def cpuBit (c : Cpu) (n : Nat) : Option Val :=
  if n = n!"HasAVX" then some (.bool c.avx)
  else if n = n!"HasAVX2" then some (.bool c.avx2)
  else none

/-- Is this a package-level variable? -/
def Program.isVar (P : Program) (pkg n : Nat) : Bool :=
  P.any fun F => F.pkg == pkg && F.vars.any fun v => v.1 == n

/-- Package-level names: constants, tables, variables (`vars`), functions, CPU bits. -/
def Program.global (P : Program) (c : Cpu) (vars : List Nat → Option Val) : List Nat → Option Val
  | [pkg, n] =>
    match P.const pkg n with
    | some v => some v
    | none =>
      if P.isVar pkg n then vars [pkg, n]
      else if pkg = n!"shared" ∧ (sharedTable n).isSome then sharedTable n
      else (P.func pkg n).map fun _ => .fn pkg n
  | [p, x, n] => if p = n!"cpu" ∧ x = n!"X86" then cpuBit c n else none
  | _ => none

/-- Everything a call depends on besides its arguments. -/
structure World where
  prog : Program
  cpu : Cpu
  /-- the package-level variables -/
  vars : List Nat → Option Val
  /-- bound on the number of iterations of one loop -/
  fuel : Nat
  /-- the block `make` returns -/
  fresh : Block

/-- A call of function `f` of package `pkg`; `depth` bounds the nesting of calls. -/
def World.call (W : World) : Nat → Nat → Nat → List Val → Prog (List Val)
  | 0, _, _, _ => .panic .fuel
  | depth + 1, pkg, f, vs =>
    match W.prog.func pkg f with
    | some g =>
      match g.body with
      | some b => runBody ⟨pkg, W.prog.global W.cpu W.vars, W.call depth, W.fuel, W.fresh⟩ g b vs
      | none => external pkg f vs
    | none => external pkg f vs

/-- The files of a build for amd64 (build tags of the first lines: `// +build amd64`). -/
def amd64Files : Program :=
  [Files.gen, Files.mode, Files.enc, Files.encAmd64, Files.dec, Files.decAmd64, Files.wr, Files.wrAmd64, Files.rd,
    Files.rdAmd64, Files.vint, Files.util]

/-- The files of a build for another target (`// +build !amd64`). -/
def otherFiles : Program :=
  [Files.gen, Files.mode, Files.enc, Files.encBase, Files.dec, Files.decBase, Files.wr, Files.wrBase, Files.rd,
    Files.rdBase, Files.vint, Files.util]

def filesFor (c : Cpu) : Program := if c.amd64 then amd64Files else otherFiles

/-- The variables of a package after its `init` function has run, which starts with unset variables (an unset function
variable is represented by an empty string, which nothing accepts). -/
def initVars (W : World) (depth : Nat) (F : File) : Prog Env :=
  match W.prog.func F.pkg n!"init" with
  | some g =>
    match g.body with
    | some b => do
      match ← execs ⟨F.pkg, W.prog.global W.cpu (fun _ => none), W.call depth, W.fuel, W.fresh⟩ b
          (F.vars.map fun v => (v.1, Val.str [])) with
      | .next env => return env
      | .ret _ => fault
    | none => fault
  | none => fault

/-- Initialisation of the program: packages `encode` and `decode` are the only ones with an `init` function. -/
def initAll (W : World) (depth : Nat) : Prog (List Nat → Option Val) := do
  let e ← initVars W depth Files.enc
  let d ← initVars W depth Files.dec
  return fun p => match p with
    | [pkg, n] => if pkg = n!"encode" then e.get n else if pkg = n!"decode" then d.get n else none
    | _ => none

end SVB.Go
