import Verif.Model.GoSem

/-!
# Which Go files compile

A type checker for the fragment of `GoText.lean`, after `https://go.dev/ref/spec` ("Declarations and scope", "Assignability",
"Operators", "Calls", "Terminating statements").  It accepts a little less than the Go compiler: a divisor must be a constant,
a short variable declaration declares new variables only, an argument of a function without a Go body must have the type of the
parameter.  `Verif.Proofs.GoSound` proves
that what it accepts never reaches the `.fault` of `GoSem.lean`.
-/

set_option autoImplicit false

namespace SVB.Go

deriving instance DecidableEq for GoType

/-- Types of expressions. -/
inductive Ty where
  /-- an untyped constant and its value -/
  | const (x : Int)
  | int | u8 | u16 | u32 | u64 | bool | str | bytes | words
  /-- pointer to an array (of arrays) of bytes -/
  | table (dims : List Nat)
  | arr (n : Nat)
  /-- a type declared in a package -/
  | named (pkg n : Nat)
  /-- the name of a function -/
  | fn (pkg n : Nat)
  /-- a type in argument position -/
  | type (t : GoType)
deriving DecidableEq

/-- Variables and their types, innermost first. -/
abbrev TEnv := List (Nat × Ty)

def TEnv.get : TEnv → Nat → Option Ty
  | [], _ => none
  | (x, t) :: e, n => if x = n then some t else TEnv.get e n

abbrev Sig := List Ty × List Ty

/-! ## Types -/

/-- The declaration of a type in a package. -/
def Program.typeDecl (P : Program) (pkg n : Nat) : Option TypeDecl :=
  P.findSome? fun F => if F.pkg = pkg then (F.types.find? fun d => d.1 == n).map Prod.snd else none

/-- Predeclared types. -/
def basic (n : Nat) : Option Ty :=
  if n = n!"uint8" ∨ n = n!"byte" then some .u8
  else if n = n!"uint16" then some .u16
  else if n = n!"uint32" then some .u32
  else if n = n!"uint64" then some .u64
  else if n = n!"int" then some .int
  else if n = n!"bool" then some .bool
  else if n = n!"string" then some .str
  else none

/-- The dimensions of an array (of arrays) of bytes. -/
def dims : GoType → Option (List Nat)
  | .array n (.named b) => if basic b = some .u8 then some [n] else none
  | .array n (.array m (.named b)) => if basic b = some .u8 then some [n, m] else none
  | _ => none

/-- The type a type expression in package `pkg` denotes. -/
def resolve (P : Program) (pkg : Nat) : GoType → Option Ty
  | .named n =>
    match basic n with
    | some t => some t
    | none => (P.typeDecl pkg n).map fun _ => .named pkg n
  | .qual p n => (P.typeDecl p n).map fun _ => .named p n
  | .slice (.named n) =>
    if basic n = some .u8 then some .bytes else if basic n = some .u32 then some .words else none
  | .ptr t => (dims t).map .table
  | _ => none

def resolveAll (P : Program) (pkg : Nat) : List (Nat × GoType) → Option (List Ty)
  | [] => some []
  | (_, t) :: l => do
    let a ← resolve P pkg t
    let r ← resolveAll P pkg l
    return a :: r

/-- Is the type declared as `type T int`? -/
def isIntName (P : Program) (pkg n : Nat) : Bool :=
  match P.typeDecl pkg n with
  | some (.of (.named b)) => b == n!"int"
  | _ => false

/-- The signature of a declared function type. -/
def fnName (P : Program) (pkg n : Nat) : Option Sig :=
  match P.typeDecl pkg n with
  | some (.fn ps rs) => do
    let a ← resolveAll P pkg ps
    let b ← resolveAll P pkg rs
    return (a, b)
  | _ => none

/-- Functions without a Go body, and of the standard library (`external` in `GoSem.lean`). -/
def externalSig (pkg f : Nat) : Option Sig :=
  if pkg = n!"encode" ∧ f = n!"Put8uint32FastAsm" then some ([.words, .bytes, .table [256, 16], .table [256]], [.u16])
  else if pkg = n!"encode" ∧ f = n!"Put8uint32DeltaFastAsm" then
    some ([.words, .bytes, .u32, .table [256, 16], .table [256]], [.u16])
  else if pkg = n!"decode" ∧ f = n!"Get8uint32FastAsm" then some ([.bytes, .words, .u16, .table [256, 16], .table [256]], [])
  else if pkg = n!"decode" ∧ f = n!"Get8uint32DeltaFastAsm" then
    some ([.bytes, .words, .u16, .u32, .table [256, 16], .table [256]], [])
  else if pkg = n!"bits" ∧ f = n!"LeadingZeros32" then some ([.u32], [.int])
  else if pkg = n!"binary" ∧ f = n!"PutUvarint" then some ([.bytes, .u64], [.int])
  else if pkg = n!"binary" ∧ f = n!"Uvarint" then some ([.bytes], [.u64, .int])
  else none

/-- Packages of which only single functions are known. -/
def stdNames : List Nat := [n!"bits", n!"binary", n!"cpu"]

/-- What the checker knows about the surroundings of a function: the program, the packages that are checked, the package of
the function, the names of the imported packages. -/
structure TCtx where
  prog : Program
  pkgs : List Nat
  pkg : Nat
  imports : List Nat

/-- The signature of a function.  `init` cannot be called. -/
def sigOf (P : Program) (pkgs : List Nat) (pkg f : Nat) : Option Sig :=
  if f = n!"init" then none
  else match P.func pkg f with
    | some g =>
      if pkgs.contains pkg then do
        let a ← resolveAll P pkg g.params
        let b ← resolveAll P pkg g.results
        return (a, b)
      else none
    | none => if stdNames.contains pkg then externalSig pkg f else none

/-- Is this a function without a Go body? -/
def isExternal (P : Program) (pkg f : Nat) : Bool :=
  match P.func pkg f with
  | some g => g.body.isNone
  | none => true

/-- Has the constant `x` a value of type `t`?  (`int` may have 32 bits.) -/
def representable (P : Program) (x : Int) : Ty → Bool
  | .int => decide (-2 ^ 31 ≤ x ∧ x < 2 ^ 31)
  | .u8 => decide (0 ≤ x ∧ x < 2 ^ 8)
  | .u16 => decide (0 ≤ x ∧ x < 2 ^ 16)
  | .u32 => decide (0 ≤ x ∧ x < 2 ^ 32)
  | .u64 => decide (0 ≤ x ∧ x < 2 ^ 64)
  | .named p n => isIntName P p n && decide (-2 ^ 31 ≤ x ∧ x < 2 ^ 31)
  | _ => false

/-- May a value of the first type be assigned to a variable of the second? -/
def assignable (P : Program) (pkgs : List Nat) (s t : Ty) : Bool :=
  match s with
  | .const x => representable P x t
  | .fn p g =>
    match t with
    | .named q n => (fnName P q n).isSome && !isExternal P p g && decide (sigOf P pkgs p g = fnName P q n)
    | _ => false
  | s => decide (s = t)

def assignableAll (P : Program) (pkgs : List Nat) : List Ty → List Ty → Bool
  | [], [] => true
  | s :: ss, t :: ts => assignable P pkgs s t && assignableAll P pkgs ss ts
  | _, _ => false

/-- The type of a variable declared by a value. -/
def declaredTy (P : Program) : Ty → Option Ty
  | .const x => if representable P x .int then some .int else none
  | .fn _ _ => none
  | .type _ => none
  | t => some t

/-! ## Names -/

/-- The declaration of a constant of a package: its type and value. -/
def Program.constDecl (P : Program) (pkg n : Nat) : Option (Option GoType × Int) :=
  (P.filter fun F => F.pkg == pkg).findSome? fun F =>
    (F.consts.find? fun c => c.1 == n).bind fun c => ((fileConsts F).lookup n).map fun x => (c.2.1, x)

/-- The declared type of a package-level variable. -/
def Program.varDecl (P : Program) (pkg n : Nat) : Option GoType :=
  P.findSome? fun F => if F.pkg = pkg then (F.vars.find? fun v => v.1 == n).map Prod.snd else none

/-- The type of a package-level name. -/
def globalTy (P : Program) (pkgs : List Nat) (pkg n : Nat) : Option Ty :=
  if pkgs.contains pkg then
    match P.constDecl pkg n with
    | some (none, x) => some (.const x)
    | some (some t, x) => (resolve P pkg t).bind fun t => match t with
      | .named p m => if isIntName P p m ∧ representable P x (.named p m) then some (.named p m) else none
      | .int => if representable P x .int then some .int else none
      | _ => none
    | none =>
      if P.isVar pkg n then (P.varDecl pkg n).bind (resolve P pkg)
      else if pkg = n!"shared" ∧ (sharedTable n).isSome then
        match sharedTable n with
        | some (.table _ d) => some (.table d)
        | _ => none
      else if n = n!"init" then none
      else (P.func pkg n).map fun _ => .fn pkg n
  else none

/-- Is there a declaration of the name at package level? -/
def declaredName (P : Program) (pkg n : Nat) : Bool :=
  (P.constDecl pkg n).isSome || P.isVar pkg n || (pkg == n!"shared" && (sharedTable n).isSome) || (P.func pkg n).isSome

/-- First letter of a name. -/
def firstChar : Nat → Nat → Nat
  | 0, n => n
  | d + 1, n => if n < 256 then n else firstChar d (n / 256)

/-- Does the name begin with a capital letter? -/
def exported (n : Nat) : Bool :=
  let c := firstChar 64 n
  decide (65 ≤ c ∧ c ≤ 90)

/-- The type of a name without a package. -/
def varTy (T : TCtx) (Γ : TEnv) (n : Nat) : Option Ty :=
  match Γ.get n with
  | some t => some t
  | none => globalTy T.prog T.pkgs T.pkg n

/-- The type of `a.b` or `a.b.c`. -/
def pathTy (T : TCtx) (Γ : TEnv) : Option (List Nat) → Option Ty
  | some [p, n] => if T.imports.contains p ∧ (Γ.get p).isNone ∧ exported n then globalTy T.prog T.pkgs p n else none
  | some [p, x, n] =>
    if T.imports.contains p ∧ (Γ.get p).isNone ∧ p = n!"cpu" ∧ x = n!"X86" ∧ (n = n!"HasAVX" ∨ n = n!"HasAVX2") then
      some .bool
    else none
  | _ => none

/-! ## Expressions -/

def isUnsigned : Ty → Bool
  | .u8 => true
  | .u16 => true
  | .u32 => true
  | .u64 => true
  | _ => false

/-- Signed types. -/
def isInt (P : Program) : Ty → Bool
  | .int => true
  | .named p n => isIntName P p n
  | _ => false

/-- Operators on two operands of type `t`; `divisor`: is the second one a constant other than 0? -/
def opTy (P : Program) (op : Op) (divisor : Bool) (t : Ty) : Option Ty :=
  if isUnsigned t || isInt P t then
    if op.isCmp then some .bool
    else match op with
      | .add => some t
      | .sub => some t
      | .mul => some t
      | .and => some t
      | .or => some t
      | .andNot => some t
      | .div => if divisor && isInt P t then some t else none
      | _ => none
  else none

/-- A binary operator but `&&`. -/
def binTy (P : Program) (op : Op) (a b : Ty) : Option Ty :=
  if op.isShift then
    if isUnsigned a || decide (a = .int) then
      match b with
      | .const x => if 0 ≤ x then some a else none
      | b => if isUnsigned b || decide (b = .int) then some a else none
    else none
  else match a, b with
    | .const x, .const y => if op.isCmp then some .bool else (opConst op x y).map .const
    | .const x, t => if representable P x t then opTy P op false t else none
    | t, .const y => if representable P y t then opTy P op (decide (y ≠ 0)) t else none
    | s, t => if s = t then opTy P op false s else none

/-- An index, or a bound of a slice expression. -/
def isIndex : Ty → Bool
  | .const x => decide (0 ≤ x ∧ x < 2 ^ 31)
  | .int => true
  | t => isUnsigned t

/-- Is a constant index in range? -/
def constBelow (n : Nat) : Ty → Bool
  | .const x => decide (x < n)
  | _ => true

/-- `a[i]` -/
def indexTy (a i : Ty) : Option Ty :=
  if isIndex i then
    match a with
    | .bytes => some .u8
    | .words => some .u32
    | .table [n] => if constBelow n i then some .u8 else none
    | .table [n, m] => if constBelow n i then some (.arr m) else none
    | .arr n => if constBelow n i then some .u8 else none
    | _ => none
  else none

def isSlice (t : Ty) : Bool := decide (t = .bytes ∨ t = .words)

/-- Predeclared functions and conversions. -/
def builtinTy (P : Program) (n : Nat) (ts : List Ty) : Option (List Ty) :=
  if n = n!"len" then
    match ts with
    | [t] => if isSlice t then some [.int] else none
    | _ => none
  else if n = n!"make" then
    match ts with
    | [.type (.slice (.named b)), t] => if b = n!"byte" ∧ isIndex t then some [.bytes] else none
    | _ => none
  else if n = n!"panic" then
    match ts with
    | [.str] => some []
    | _ => none
  else
    match ts, basic n with
    | [t], some r =>
      if isUnsigned r || decide (r = .int) then
        match t with
        | .const x => if representable P x r then some [r] else none
        | t => if isUnsigned t || isInt P t then some [r] else none
      else none
    | _, _ => none

/-- The results of a call of a function with a signature; `exact`: arguments must have the types of the parameters. -/
def applySig (P : Program) (pkgs : List Nat) (exact : Bool) (s : Option Sig) (ts : List Ty) : Option (List Ty) :=
  match s with
  | some (ps, rs) => if (exact = false ∨ ts = ps) ∧ assignableAll P pkgs ts ps then some rs else none
  | none => none

/-- Is this a predeclared name that is not hidden by another declaration? -/
def isBuiltin (T : TCtx) (Γ : TEnv) (n : Nat) : Bool := (Γ.get n).isNone && !declaredName T.prog T.pkg n

/-- The types of the results of a call. -/
def callTy (T : TCtx) (Γ : TEnv) (f : Expr) (ts : List Ty) : Option (List Ty) :=
  match f with
  | .var n =>
    if isBuiltin T Γ n then builtinTy T.prog n ts
    else match varTy T Γ n with
      | some (.fn p g) => applySig T.prog T.pkgs (isExternal T.prog p g) (sigOf T.prog T.pkgs p g) ts
      | some (.named p m) => applySig T.prog T.pkgs false (fnName T.prog p m) ts
      | _ => none
  | .dot (.var p) n =>
    if T.imports.contains p ∧ (Γ.get p).isNone ∧ exported n then
      applySig T.prog T.pkgs (isExternal T.prog p n) (sigOf T.prog T.pkgs p n) ts
    else none
  | _ => none

mutual
def typeOf (T : TCtx) (Γ : TEnv) : Expr → Option Ty
  | .var n => varTy T Γ n
  | .num n => some (.const n)
  | .str _ => some .str
  | .dot e n => pathTy T Γ (Expr.dot e n).path
  | .bin .land a b => do
    let s ← typeOf T Γ a
    let t ← typeOf T Γ b
    if s = .bool ∧ t = .bool then some .bool else none
  | .bin op a b => do
    let s ← typeOf T Γ a
    let t ← typeOf T Γ b
    binTy T.prog op s t
  | .index a i => do
    let s ← typeOf T Γ a
    let t ← typeOf T Γ i
    indexTy s t
  | .from a i => do
    let s ← typeOf T Γ a
    let t ← typeOf T Γ i
    if isSlice s ∧ isIndex t then some s else none
  | .upto a i => do
    let s ← typeOf T Γ a
    let t ← typeOf T Γ i
    if isSlice s ∧ isIndex t then some s else none
  | .range a i j => do
    let s ← typeOf T Γ a
    let t ← typeOf T Γ i
    let u ← typeOf T Γ j
    if isSlice s ∧ isIndex t ∧ isIndex u then some s else none
  | .call f args => do
    let ts ← typeArgs T Γ args
    match callTy T Γ f ts with
    | some [t] => some t
    | _ => none
  | .type t => some (.type t)

def typeArgs (T : TCtx) (Γ : TEnv) : List Expr → Option (List Ty)
  | [] => some []
  | e :: es => do
    let t ← typeOf T Γ e
    let ts ← typeArgs T Γ es
    return t :: ts
end

/-- The types of the values of an expression: a call may have none or several. -/
def typeMulti (T : TCtx) (Γ : TEnv) : Expr → Option (List Ty)
  | .call f args => do
    let ts ← typeArgs T Γ args
    callTy T Γ f ts
  | e => do return [← typeOf T Γ e]

/-! ## Statements -/

/-- A new variable in the current block, the variables of which are those beyond the `base` outer ones. -/
def newVar (base x : Nat) (t : Ty) (Γ : TEnv) : Option TEnv :=
  if x = n!"_" ∨ (TEnv.get (Γ.take (Γ.length - base)) x).isSome then none else some ((x, t) :: Γ)

/-- `x, y := …` -/
def newVars (P : Program) (base : Nat) : List Nat → List Ty → TEnv → Option TEnv
  | [], [], Γ => some Γ
  | x :: xs, t :: ts, Γ => do
    let t ← declaredTy P t
    let Γ ← newVar base x t Γ
    newVars P base xs ts Γ
  | _, _, _ => none

/-- Is an expression a statement: a call that is not a conversion, `len` or `make`? -/
def isStmtExpr (T : TCtx) (Γ : TEnv) : Expr → Bool
  | .call (.var n) _ => !isBuiltin T Γ n || decide (n = n!"panic")
  | .call _ _ => true
  | _ => false

/-- A call of `panic`. -/
def isPanic (T : TCtx) (Γ : TEnv) : Expr → Bool
  | .call (.var n) _ => isBuiltin T Γ n && decide (n = n!"panic")
  | _ => false

mutual
/-- A statement in a function with results of types `rs`.  The result: the variables after the statement, and whether it is a
terminating statement. -/
def checkStmt (T : TCtx) (rs : List Ty) (base : Nat) : Stmt → TEnv → Option (TEnv × Bool)
  | .define xs e, Γ => do
    let ts ← typeMulti T Γ e
    let Γ ← newVars T.prog base xs ts Γ
    if xs.isEmpty then none else return (Γ, false)
  | .var x t e, Γ =>
    match t, e with
    | none, some e => do
      let t ← (← typeOf T Γ e) |> declaredTy T.prog
      return (← newVar base x t Γ, false)
    | some t, none => do
      let t ← resolve T.prog T.pkg t
      if isUnsigned t || decide (t = .int) then return (← newVar base x t Γ, false) else none
    | some t, some e => do
      let s ← typeOf T Γ e
      let t ← resolve T.prog T.pkg t
      if assignable T.prog T.pkgs s t then return (← newVar base x t Γ, false) else none
    | none, none => none
  | .assign l e, Γ =>
    match l with
    | .var x =>
      if x = n!"_" then do
        let s ← typeOf T Γ e
        let _ ← declaredTy T.prog s
        return (Γ, false)
      else do
        let s ← typeOf T Γ e
        let t ← Γ.get x
        if assignable T.prog T.pkgs s t then return (Γ, false) else none
    | .index a i => do
      let s ← typeOf T Γ a
      let k ← typeOf T Γ i
      let v ← typeOf T Γ e
      let t ← indexTy s k
      if isSlice s ∧ assignable T.prog T.pkgs v t then return (Γ, false) else none
    | _ => none
  | .update op l e, Γ =>
    match l with
    | .var x => do
      let t ← Γ.get x
      let s ← typeOf T Γ e
      if binTy T.prog op t s = some t then return (Γ, false) else none
    | _ => none
  | .expr e, Γ => do
    let _ ← typeMulti T Γ e
    if isStmtExpr T Γ e then return (Γ, isPanic T Γ e) else none
  | .ret es, Γ => do
    let ts ← typeArgs T Γ es
    if assignableAll T.prog T.pkgs ts rs then return (Γ, true) else none
  | .ite c thn els, Γ => do
    let t ← typeOf T Γ c
    let a ← checkStmts T rs Γ.length thn Γ
    let b ← checkStmts T rs Γ.length els Γ
    if t = .bool then return (Γ, a.2 && b.2) else none
  | .loop init cond post body, Γ => do
    let i ← checkStmts T rs Γ.length init Γ
    let t ← typeOf T i.1 cond
    let _ ← checkStmts T rs i.1.length body i.1
    let q ← checkStmts T rs i.1.length post i.1
    if t = .bool ∧ q.1 = i.1 then return (Γ, false) else none
  | .range x e body, Γ => do
    let t ← typeOf T Γ e
    let Γ' ← newVar Γ.length x .int Γ
    let _ ← checkStmts T rs Γ'.length body Γ'
    if isSlice t then return (Γ, false) else none
  | .switch e cases, Γ => do
    let t ← typeOf T Γ e
    checkCases T rs t cases Γ
    return (Γ, false)

def checkStmts (T : TCtx) (rs : List Ty) (base : Nat) : List Stmt → TEnv → Option (TEnv × Bool)
  | [], Γ => some (Γ, false)
  | s :: ss, Γ => do
    let a ← checkStmt T rs base s Γ
    let b ← checkStmts T rs base ss a.1
    return (b.1, if ss.isEmpty then a.2 else b.2)

/-- The cases of a `switch` on a value of type `t`.  The last one cannot end with `fallthrough`. -/
def checkCases (T : TCtx) (rs : List Ty) (t : Ty) : List (Expr × List Stmt × Bool) → TEnv → Option Unit
  | [], _ => some ()
  | (w, body, ft) :: cs, Γ => do
    let u ← typeOf T Γ w
    let _ ← checkStmts T rs Γ.length body Γ
    checkCases T rs t cs Γ
    if binTy T.prog .eq t u = some .bool ∧ (ft = false ∨ cs.isEmpty = false) then return () else none
end

/-! ## Unused variables -/

mutual
def usesE (x : Nat) : Expr → Bool
  | .var n => n == x
  | .num _ => false
  | .str _ => false
  | .dot e _ => usesE x e
  | .bin _ a b => usesE x a || usesE x b
  | .index a i => usesE x a || usesE x i
  | .from a i => usesE x a || usesE x i
  | .upto a i => usesE x a || usesE x i
  | .range a i j => usesE x a || usesE x i || usesE x j
  | .call f args => usesE x f || usesArgs x args
  | .type _ => false

def usesArgs (x : Nat) : List Expr → Bool
  | [] => false
  | e :: es => usesE x e || usesArgs x es
end

/-- The variables a statement declares in its block. -/
def declares : Stmt → List Nat
  | .define xs _ => xs
  | .var x _ _ => [x]
  | _ => []

/-- The variable on the left of an assignment is not used by it. -/
def usesLeft (x : Nat) : Expr → Bool
  | .var _ => false
  | e => usesE x e

mutual
/-- Is the variable used in the statement? -/
def usesS (x : Nat) : Stmt → Bool
  | .define _ e => usesE x e
  | .var _ _ e => match e with
    | some e => usesE x e
    | none => false
  | .assign l e => usesLeft x l || usesE x e
  | .update _ l e => usesLeft x l || usesE x e
  | .expr e => usesE x e
  | .ret es => usesArgs x es
  | .ite c thn els => usesE x c || usesB x thn || usesB x els
  | .loop init cond post body =>
    usesB x init || (!(init.flatMap declares).contains x && (usesE x cond || usesB x post || usesB x body))
  | .range y e body => usesE x e || (!(y == x) && usesB x body)
  | .switch e cases => usesE x e || usesC x cases

/-- Is the variable used in the block? -/
def usesB (x : Nat) : List Stmt → Bool
  | [] => false
  | s :: ss => usesS x s || (!(declares s).contains x && usesB x ss)

def usesC (x : Nat) : List (Expr × List Stmt × Bool) → Bool
  | [] => false
  | (w, body, _) :: cs => usesE x w || usesB x body || usesC x cs
end

mutual
/-- Is every variable that is declared in the statement used? -/
def allUsedS : Stmt → Bool
  | .ite _ thn els => allUsedB thn && allUsedB els
  | .loop init cond post body =>
    allUsedB body && (init.flatMap declares).all fun x => usesE x cond || usesB x post || usesB x body
  | .range x _ body => allUsedB body && usesB x body
  | .switch _ cases => allUsedC cases
  | _ => true

def allUsedB : List Stmt → Bool
  | [] => true
  | s :: ss => allUsedS s && (declares s).all (fun x => usesB x ss) && allUsedB ss

def allUsedC : List (Expr × List Stmt × Bool) → Bool
  | [] => true
  | (_, body, _) :: cs => allUsedB body && allUsedC cs
end

/-! ## Functions, files, programs -/

/-- The last element of an import path, which is the name of the package. -/
def pathName : Nat → Nat → Nat → Nat → Nat
  | 0, _, _, acc => acc
  | d + 1, n, scale, acc =>
    if n = 0 ∨ n % 256 = 47 then acc else pathName d (n / 256) (256 * scale) (acc + scale * (n % 256))

def importName (path : Nat) : Nat := pathName 64 path 1 0

mutual
/-- Does the package name occur in the expression? -/
def mentionsT (p : Nat) : GoType → Bool
  | .qual q _ => q == p
  | .slice t => mentionsT p t
  | .array _ t => mentionsT p t
  | .ptr t => mentionsT p t
  | .named _ => false
end

mutual
def mentionsS (p : Nat) : Stmt → Bool
  | .ite c thn els => usesE p c || mentionsB p thn || mentionsB p els
  | .loop init cond post body => mentionsB p init || usesE p cond || mentionsB p post || mentionsB p body
  | .range _ e body => usesE p e || mentionsB p body
  | .switch e cases => usesE p e || mentionsC p cases
  | .var _ t e => (match t with | some t => mentionsT p t | none => false) || usesS p (.var 0 none e)
  | s => usesS p s

def mentionsB (p : Nat) : List Stmt → Bool
  | [] => false
  | s :: ss => mentionsS p s || mentionsB p ss

def mentionsC (p : Nat) : List (Expr × List Stmt × Bool) → Bool
  | [] => false
  | (w, body, _) :: cs => usesE p w || mentionsB p body || mentionsC p cs
end

/-- Is the package used in the file? -/
def File.mentions (F : File) (p : Nat) : Bool :=
  F.funcs.any (fun f => f.params.any (fun q => mentionsT p q.2) || f.results.any (fun q => mentionsT p q.2) ||
    (match f.body with | some b => mentionsB p b | none => false)) ||
  F.vars.any (fun v => mentionsT p v.2) || F.consts.any (fun c => usesE p c.2.2.1)

/-- The elements are different. -/
def distinct : List Nat → Bool
  | [] => true
  | x :: xs => !xs.contains x && distinct xs

/-- The variables of a function when its body begins: its parameters; for `init`, which may assign to them, the variables of
the file. -/
def startEnv (T : TCtx) (F : File) (f : Func) : Option TEnv :=
  if f.name = n!"init" then do
    let ts ← resolveAll T.prog T.pkg F.vars
    return (F.vars.map Prod.fst).zip ts
  else do
    let ts ← resolveAll T.prog T.pkg f.params
    return (f.params.map Prod.fst).zip ts

def checkFunc (T : TCtx) (F : File) (f : Func) : Bool :=
  match f.body with
  | none => decide (externalSig T.pkg f.name = sigOf T.prog T.pkgs T.pkg f.name) && (externalSig T.pkg f.name).isSome
  | some b =>
    distinct (f.params.map Prod.fst) && allUsedB b &&
    match startEnv T F f, resolveAll T.prog T.pkg f.results with
    | some Γ, some rs =>
      match checkStmts T rs 0 b Γ with
      | some r => rs.isEmpty || r.2
      | none => false
    | _, _ => false

/-- The top-level names of a file but `init`. -/
def File.names (F : File) : List Nat :=
  F.consts.map (fun c => c.1) ++ F.vars.map Prod.fst ++ F.types.map Prod.fst ++
    ((F.funcs.map Func.name).filter fun n => !(n == n!"init"))

/-- A file of a program of which the packages `pkgs` are checked. -/
def checkFile (P : Program) (pkgs : List Nat) (F : File) : Bool :=
  let imports := F.imports.map importName
  let T : TCtx := ⟨P, pkgs, F.pkg, imports⟩
  distinct imports && imports.all (fun p => (pkgs.contains p || stdNames.contains p) && !(p == F.pkg) && F.mentions p) &&
  F.consts.all (fun c => ((fileConsts F).lookup c.1).isSome && (globalTy P pkgs F.pkg c.1).isSome) &&
  F.vars.all (fun v => (resolve P F.pkg v.2).isSome) &&
  F.types.all (fun d => match d.2 with
    | .of t => (resolve P F.pkg t).isSome
    | .fn _ _ => (fnName P F.pkg d.1).isSome) &&
  F.names.all (fun n => (basic n).isNone && !(n == n!"len") && !(n == n!"make") && !(n == n!"panic")) &&
  F.funcs.all (checkFunc T F)

/-- The packages come in an order in which each imports only earlier ones (or the standard library). -/
def acyclic (P : Program) : List Nat → List Nat → Bool
  | _, [] => true
  | seen, p :: ps =>
    (P.all fun F => !(F.pkg == p) || (F.imports.map importName).all fun q => seen.contains q || stdNames.contains q) &&
      acyclic P (p :: seen) ps

/-- Do the packages compile? -/
def compiles (P : Program) (pkgs : List Nat) : Bool :=
  acyclic P [] pkgs &&
  pkgs.all (fun p =>
    distinct ((P.filter fun F => F.pkg == p).flatMap File.names ++
      (if p = n!"shared" then [n!"PerControlLenTable", n!"PerNumLenTable", n!"EncodeShuffleTable", n!"DecodeShuffleTable"]
        else []))) &&
  P.all fun F => !pkgs.contains F.pkg || checkFile P pkgs F

end SVB.Go
