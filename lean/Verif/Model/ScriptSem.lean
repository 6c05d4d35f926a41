import Verif.Model.ScriptText
import Verif.Model.GenTables
import Verif.Model.AsmPrint

/-!
# What the programs of `/repo` do

A definitional interpreter for the syntax of `ScriptText.lean`.  It follows `https://go.dev/ref/spec` with these restrictions,
all of them checked: what is outside of them is the result `stuck`, which the theorems about the programs exclude.

* Slices are values: no two variables share elements.  So an element can only be assigned in a slice that a local variable
  got from `make` and that has not been used otherwise.
* A function literal occurs in a `return` statement or at package level only, so that the variables it captures are not used
  any more by the function that made it.

What is given here and not read from `/repo`: the functions of the standard library, of `github.com/pkg/errors` and of
`github.com/mmcloughlin/avo` that the programs call (`libFn`, `method`), and what the operating system does (`World`).
-/

set_option autoImplicit false

namespace SVB.Script
open SVB.Sources (Text asc)
open SVB.GenTables (digitsOf zeros)

/-! ## Values -/

/-- Integer types; `const` is an untyped constant. -/
inductive Kind where
  | const | int | u8 | u16 | u32 | u64
deriving DecidableEq

/-- Operands of `avo` instructions: virtual registers with the width in use, memory, immediate values, constants of the
file, and places in the argument frame. -/
inductive Opd where
  | gp (r w : Nat)
  | xmm (r : Nat)
  | mem (base disp : Nat)
  | imm (n : Nat)
  | sym (name : Text)
  | arg (off : Nat)
deriving DecidableEq

inductive V where
  | int (k : Kind) (x : Int)
  | str (t : Text)
  | bool (b : Bool)
  | nil
  /-- an error -/
  | err
  /-- `[]byte` -/
  | bytes (t : Text)
  /-- any other slice -/
  | list (vs : List V)
  /-- a slice that only the variable holding it knows -/
  | own (vs : List V)
  /-- a function of a package of `/repo` -/
  | fn (pkg f : Nat)
  /-- a function literal -/
  | clos (c : Nat)
  /-- a function of a library; package 0: imported by `.` or predeclared -/
  | lib (p f : Nat)
  | type (t : Ty)
  /-- `*bytes.Buffer` -/
  | buf (b : Nat)
  /-- what `flag.String` or `flag.Bool` returns -/
  | flag (name : Text) (dflt : V)
  /-- `*os.File`: the `k`-th file created, or one opened for reading -/
  | file (k : Nat)
  | opened (path : Text)
  /-- `os.Stdin`, `os.Stdout` -/
  | stdin
  | stdout
  /-- `*bufio.Scanner` of the standard input -/
  | scanner
  | opd (o : Opd)
  /-- `operand.U16(n)` -/
  | u16 (n : Nat)
  /-- `Param(name)`, `Param(name).Base()`, `Return(name)`, and a component after `Resolve()` -/
  | param (name : Text)
  | base (name : Text)
  | result (name : Text)
  | basic (off : Nat)

/-- Local variables, innermost first. -/
abbrev Env := List (Nat × V)

def Env.get : Env → Nat → Option V
  | [], _ => none
  | (x, v) :: e, n => bif Nat.beq x n then some v else Env.get e n

def Env.set : Env → Nat → V → Option Env
  | [], _, _ => none
  | (x, v) :: e, n, w => bif Nat.beq x n then some ((x, w) :: e) else (Env.set e n w).map ((x, v) :: ·)

/-- End of a block: `n` is the number of variables before it. -/
def Env.leave (e : Env) (n : Nat) : Env := e.drop (e.length - n)

/-! ## State -/

structure Closure where
  pkg : Nat
  params : List (Nat × Ty)
  results : List (Nat × Ty)
  body : List Stmt
  /-- the captured variables -/
  env : Env

/-- A function under construction in `avo`: its name and signature, the number of virtual registers of each kind, the
instructions, last first. -/
structure AvoFn where
  name : Text
  text : Text
  sig : Gen.Sig
  gps : Nat
  xs : Nat
  code : List (Nat × List Opd)

structure St where
  clos : List Closure := []
  /-- what has been written to each buffer, last byte first -/
  bufs : List Text := []
  /-- deferred calls of the running function, last first -/
  defers : List (V × List V) := []
  /-- names of the flags defined so far, and whether `flag.Parse` has run -/
  flags : List Text := []
  parsed : Bool := false
  /-- the files created: name and contents -/
  files : List (Text × Text) := []
  stdout : Text := []
  /-- lines of the standard input not yet read, and the current one -/
  input : List Text := []
  line : Text := []
  /-- number of random numbers drawn -/
  draws : Nat := 0
  /-- `avo`: constants of the file, functions (last first), whether `Generate` has run -/
  consts : List (Text × Nat) := []
  fns : List AvoFn := []
  generated : Bool := false

/-- What a program gets from outside, and bounds on its loops. -/
structure World where
  /-- `-name value` on the command line (of a flag that is a `bool`: `-name`, `-name=false`, with the values `true`, `false`) -/
  args : List (Text × Text)
  /-- do creating and reading of files succeed? -/
  canCreate : Bool
  canRead : Bool
  /-- `some k`: writing fails after `k` bytes -/
  writeFails : Option Nat
  /-- the file that `os.Open` finds -/
  disk : Text → Option Text
  getenv : Text → Text
  /-- reading the standard input ends with an error -/
  inputErr : Bool
  /-- what `rand.Uint32()` and `rand.Int()` return if they are the `n`-th to be called -/
  uint32 : Nat → U32
  int63 : Nat → Nat
  fuel : Nat

inductive Res (α : Type) where
  | ok (a : α) (s : St)
  /-- `os.Exit` with this code -/
  | exit (code : Nat) (s : St)
  | panic
  /-- more iterations than `World.fuel` -/
  | fuel
  /-- not covered -/
  | stuck

def M (α : Type) := World → St → Res α

def M.pure {α : Type} (a : α) : M α := fun _ s => .ok a s

def M.bind {α β : Type} (p : M α) (f : α → M β) : M β := fun w s =>
  match p w s with
  | .ok a s' => f a w s'
  | .exit c s' => .exit c s'
  | .panic => .panic
  | .fuel => .fuel
  | .stuck => .stuck

instance : Pure M := ⟨M.pure⟩
instance : Bind M := ⟨M.bind⟩

def stuck {α : Type} : M α := fun _ _ => .stuck
def panicking {α : Type} : M α := fun _ _ => .panic
def exit {α : Type} (c : Nat) : M α := fun _ s => .exit c s
def get : M St := fun _ s => .ok s s
def world : M World := fun w s => .ok w s
def set (s : St) : M Unit := fun _ _ => .ok () s
def orStuck {α : Type} : Option α → M α
  | some a => pure a
  | none => stuck

/-! ## Integers -/

def Kind.wrap : Kind → Int → Int
  | .const, x => x
  | .int, .ofNat n => bif Nat.ble n 9223372036854775807 then .ofNat n else int64 (.ofNat n)
  | .int, x => int64 x
  | .u8, x => x % 256
  | .u16, x => x % 65536
  | .u32, x => x % 4294967296
  | .u64, x => x % 18446744073709551616

/-- The type of a binary operation: an untyped constant takes the type of the other operand. -/
def Kind.join : Kind → Kind → Option Kind
  | .const, k => some k
  | k, .const => some k
  | .int, .int => some .int
  | .u8, .u8 => some .u8
  | .u16, .u16 => some .u16
  | .u32, .u32 => some .u32
  | .u64, .u64 => some .u64
  | _, _ => none

def kindOf (n : Nat) : Option Kind :=
  bif Nat.beq n n!"uint8" || Nat.beq n n!"byte" then some .u8
  else bif Nat.beq n n!"uint16" then some .u16
  else bif Nat.beq n n!"uint32" then some .u32
  else bif Nat.beq n n!"uint64" then some .u64
  else bif Nat.beq n n!"int" then some .int
  else none

/-- `T(v)` -/
def convert : Ty → V → Option V
  | .named n, .int _ x => (kindOf n).map fun k => .int k (k.wrap x)
  | .slice (.named n), .str t => bif Nat.beq n n!"byte" then some (.bytes t) else none
  | _, _ => none

/-- A value where one of type `t` is required: an untyped constant takes the type. -/
def coerce (t : Ty) (v : V) : V :=
  match v with
  | .int .const x =>
    match t with
    | .named n => match kindOf n with
      | some k => .int k x
      | none => .int .int x
    | _ => .int .int x
  | v => v

/-- A value stored in a variable without a declared type. -/
def declared : V → V
  | .int .const x => .int .int x
  | v => v

/-- A value stored in a variable that had the value `old`. -/
def coerceLike (old v : V) : V :=
  match v with
  | .int .const x => match old with
    | .int k _ => .int k x
    | _ => .int .int x
  | v => v

def zeroOf : Ty → Option V
  | .named n =>
    match kindOf n with
    | some k => some (.int k 0)
    | none => bif Nat.beq n n!"bool" then some (.bool false) else bif Nat.beq n n!"string" then some (.str []) else
      bif Nat.beq n n!"error" then some .nil else none
  | .slice (.named n) => bif Nat.beq n n!"byte" then some (.bytes []) else some (.list [])
  | .slice _ => some (.list [])
  | .qual _ _ => some .nil
  | .ptr _ => some .nil
  | _ => none

/-- Operations on integers of one type. -/
def intOp (k : Kind) (op : Op) (x y : Int) : M V :=
  match op with
  | .add => pure (.int k (k.wrap (x + y)))
  | .sub => pure (.int k (k.wrap (x - y)))
  | .mul => pure (.int k (k.wrap (x * y)))
  | .div => if y = 0 then panicking else pure (.int k (k.wrap (x.tdiv y)))
  | .rem => if y = 0 then panicking else pure (.int k (k.wrap (x.tmod y)))
  | .and => if 0 ≤ x ∧ 0 ≤ y then pure (.int k (Nat.land x.toNat y.toNat)) else stuck
  | .or => if 0 ≤ x ∧ 0 ≤ y then pure (.int k (Nat.lor x.toNat y.toNat)) else stuck
  | .eq => pure (.bool (x == y))
  | .ne => pure (.bool (!(x == y)))
  | .lt => pure (.bool (decide (x < y)))
  | .le => pure (.bool (decide (x ≤ y)))
  | .gt => pure (.bool (decide (x > y)))
  | .ge => pure (.bool (decide (x ≥ y)))
  | _ => stuck

def isNil : V → Option Bool
  | .nil => some true
  | .err => some false
  | _ => none

def binary (op : Op) (a b : V) : M V :=
  match a, b with
  | .int k x, .int l y =>
    match op with
    | .shl => if y < 0 then panicking else pure (.int k (k.wrap (x * 2 ^ y.toNat)))
    | .shr => if y < 0 then panicking else pure (.int k (x / 2 ^ y.toNat))
    | op =>
      match Kind.join k l with
      | some m => intOp m op x y
      | none => stuck
  | .str s, .str t =>
    match op with
    | .eq => pure (.bool (s == t))
    | .ne => pure (.bool (!(s == t)))
    | .add => pure (.str (s ++ t))
    | _ => stuck
  | v, .nil =>
    match op, isNil v with
    | .eq, some b => pure (.bool b)
    | .ne, some b => pure (.bool (!b))
    | _, _ => stuck
  | _, _ => stuck

/-! ## `fmt` -/

/-- A number in base `b` with zeros up to `w` digits. -/
def fmtInt (b w : Nat) (x : Int) : Option Text := if x < 0 then none else some (zeros w (digitsOf b x.toNat))

/-- One verb with its flags and width. -/
def fmtVerb (sharp zero : Bool) (w verb : Nat) (v : V) : Option Text :=
  match v with
  | .int _ x =>
    bif Nat.beq verb 100 then if !sharp && Nat.beq w 0 then fmtInt 10 0 x else none
    else bif Nat.beq verb 120 then
      if sharp && zero then (fmtInt 16 w x).map fun t => 48 :: 120 :: t else none
    else bif Nat.beq verb 98 then if !sharp && zero then fmtInt 2 w x else none
    else none
  | .str t => bif Nat.beq verb 115 && !sharp && Nat.beq w 0 then some t else none
  | _ => none

/-- The state of reading a format: outside of a verb, or behind `%` with the flags and the width so far. -/
inductive FmtSt where
  | plain
  | verb (sharp zero : Bool) (w : Nat)

/-- `fmt.Sprintf`.  A missing or additional argument is not covered. -/
def sprintf : Text → FmtSt → List V → Option Text
  | [], .plain, [] => some []
  | [], _, _ => none
  | c :: cs, .plain, vs =>
    bif Nat.beq c 37 then sprintf cs (.verb false false 0) vs else (sprintf cs .plain vs).map (c :: ·)
  | c :: cs, .verb s z w, vs =>
    bif Nat.beq c 35 then sprintf cs (.verb true z w) vs
    else bif Nat.beq c 48 && Nat.beq w 0 then sprintf cs (.verb s true w) vs
    else bif SVB.Go.isDigit c then sprintf cs (.verb s z (10 * w + (c - 48))) vs
    else match vs with
      | v :: vs => do
        let t ← fmtVerb s z w c v
        let r ← sprintf cs .plain vs
        return t ++ r
      | [] => none

/-- Append to a buffer. -/
def writeBuf (b : Nat) (t : Text) : M Unit := fun _ s =>
  match s.bufs[b]? with
  | some ts => .ok () { s with bufs := s.bufs.set b (t.reverse ++ ts) }
  | none => .stuck

/-- What `fmt.Fprintf` and `fmt.Fprintln` return after writing `t` to a buffer, which does not fail. -/
def writeTo (w : V) (t : Text) : M (List V) :=
  match w with
  | .buf b => do
    writeBuf b t
    return [.int .int t.length, .nil]
  | _ => stuck

/-! ## `avo` -/

/-- `TEXT(name, NOSPLIT, signature)`; the signature is Go source. -/
def sigOf (t : Text) : Option Gen.Sig := do
  let ts ← match Sources.lexLine t [] with
    | .word w :: ts => if w = asc ['f', 'u', 'n', 'c'] then some ts else none
    | _ => none
  let (ps, rs) ← Sources.signatureOf ts
  let f : Text × Option Gen.Ty → Option (String × Gen.Ty) := fun p => p.2.map fun t => (String.ofList (p.1.map Char.ofNat), t)
  let ps ← (Sources.tyOf ps).mapM f
  let rs ← (Sources.tyOf rs).mapM f
  return ⟨ps, rs⟩

/-- Change the function under construction. -/
def withFn {α : Type} (f : AvoFn → Option (α × AvoFn)) : M α := fun _ s =>
  match s.fns with
  | g :: gs =>
    match f g with
    | some (a, g) => .ok a { s with fns := g :: gs }
    | none => .stuck
  | [] => .stuck

def emit (mnemonic : Nat) (os : List Opd) : M Unit := withFn fun g => some ((), { g with code := (mnemonic, os) :: g.code })

def lookupArg (l : List (String × Gen.Ty × Nat)) (name : Text) : Option (Gen.Ty × Nat) :=
  (l.find? fun p => asc p.1.toList == name).map fun p => p.2

/-- `Load(component, register)` -/
def avoLoad (c : V) (r w : Nat) : M (List V) := do
  let k : Nat × Nat ← withFn fun g =>
    (match c with
    | .param n =>
      match lookupArg g.sig.args n with
      | some (.ptr, o) => bif Nat.beq w 64 then some (n!"MOVQ", o) else none
      | some (.u16, o) => bif Nat.beq w 64 then some (n!"MOVWQZX", o) else none
      | _ => none
    | .base n =>
      match lookupArg g.sig.args n with
      | some (.slice, o) => bif Nat.beq w 64 then some (n!"MOVQ", o) else none
      | _ => none
    | _ => none).map fun x => (x, g)
  emit k.1 [.arg k.2, .gp r w]
  return [.opd (.gp r w)]

/-- The instruction functions the generators call. -/
def mnemonics : List Nat :=
  [n!"MOVQ", n!"MOVWQZX", n!"MOVBQZX", n!"SHLQ", n!"SHRQ", n!"ADDQ", n!"VLDDQU", n!"VMOVDQU", n!"VPBROADCASTW",
    n!"VBROADCASTSS", n!"VPMINUB", n!"VPACKUSWB", n!"VPMINSW", n!"VPADDUSW", n!"VPMOVMSKB", n!"VPSHUFB", n!"VPALIGNR",
    n!"VPSUBD", n!"VPADDD", n!"VPSLLDQ", n!"VPSHUFD", n!"RET"]

def operands : List V → Option (List Opd)
  | [] => some []
  | .opd o :: vs => (operands vs).map (o :: ·)
  | _ => none

/-- Functions of `avo/build`. -/
def avoFn (f : Nat) (vs : List V) : M (List V) :=
  bif mnemonics.any (Nat.beq f) then do
    emit f (← orStuck (operands vs))
    return []
  else bif Nat.beq f n!"TEXT" then
    match vs with
    | [.str name, .lib _ _, .str text] => do
      let sig ← orStuck (sigOf text)
      let s ← get
      set { s with fns := ⟨name, text, sig, 0, 0, []⟩ :: s.fns }
      return []
    | _ => stuck
  else bif Nat.beq f n!"XMM" then do
    let r ← withFn fun g => some (g.xs, { g with xs := g.xs + 1 })
    return [.opd (.xmm r)]
  else bif Nat.beq f n!"GP64" then do
    let r ← withFn fun g => some (g.gps, { g with gps := g.gps + 1 })
    return [.opd (.gp r 64)]
  else bif Nat.beq f n!"GP32" then do
    let r ← withFn fun g => some (g.gps, { g with gps := g.gps + 1 })
    return [.opd (.gp r 32)]
  else bif Nat.beq f n!"Param" then
    match vs with
    | [.str n] => return [.param n]
    | _ => stuck
  else bif Nat.beq f n!"Return" then
    match vs with
    | [.str n] => return [.result n]
    | _ => stuck
  else bif Nat.beq f n!"Load" then
    match vs with
    | [c, .opd (.gp r w)] => avoLoad c r w
    | _ => stuck
  else bif Nat.beq f n!"Store" then
    match vs with
    | [.opd (.gp r 16), .result n] => do
      let o ← withFn fun g =>
        match lookupArg g.sig.rets.1 n with
        | some (.u16, o) => some (o, g)
        | _ => none
      emit n!"MOVW" [.gp r 16, .arg o]
      return []
    | _ => stuck
  else bif Nat.beq f n!"ConstData" then
    match vs with
    | [.str n, .u16 x] => do
      let s ← get
      set { s with consts := s.consts ++ [(n, x)] }
      return [.opd (.sym n)]
    | _ => stuck
  else bif Nat.beq f n!"Generate" then do
    let s ← get
    set { s with generated := true }
    return []
  else stuck

/-! ## The other libraries -/

/-- Does `t` begin with `p`? -/
def hasPrefix (t p : Text) : Bool := p.isPrefixOf t

/-- First position of `p` in `t`, counted from `k`. -/
def indexOf (p : Text) : Text → Nat → Option Nat
  | [], k => if p.isEmpty then some k else none
  | c :: cs, k => bif hasPrefix (c :: cs) p then some k else indexOf p cs (k + 1)

def joinTexts (sep : Text) : List V → Option Text
  | [] => some []
  | [.str t] => some t
  | .str t :: vs => (joinTexts sep vs).map fun r => t ++ (sep ++ r)
  | _ => none

/-- Elements of a path. -/
def splitPath : Text → Text → List Text
  | [], cur => [cur.reverse]
  | c :: cs, cur => bif Nat.beq c 47 then cur.reverse :: splitPath cs [] else splitPath cs (c :: cur)

/-- `filepath.Clean` of the elements; `acc` are those kept, last first. -/
def cleanElems (rooted : Bool) : List Text → List Text → List Text
  | [], acc => acc.reverse
  | e :: es, acc =>
    if e == [] || e == [46] then cleanElems rooted es acc
    else if e == [46, 46] then
      match acc with
      | [] => cleanElems rooted es (if rooted then [] else [e])
      | a :: acc' => cleanElems rooted es (if a == [46, 46] then e :: a :: acc' else acc')
    else cleanElems rooted es (e :: acc)

def joinElems : List Text → Text
  | [] => []
  | [e] => e
  | e :: es => e ++ 47 :: joinElems es

/-- `filepath.Clean` for slashes. -/
def cleanPath (t : Text) : Text :=
  let rooted := t.head? == some 47
  let r := joinElems (cleanElems rooted (splitPath t []) [])
  if rooted then 47 :: r else if r == [] then [46] else r

/-- `filepath.Join(a, b)` for a non-empty `b`. -/
def joinPath (a b : Text) : Text := cleanPath (if a.isEmpty then b else a ++ 47 :: b)

/-- `format.Source` as far as `GenTables.lean` describes it. -/
def gofmt (t : Text) : Text := ((GenTables.splitLines t []).map fun l => GenTables.gofmtLine l ++ [10]).flatten

/-- Functions and variables of libraries. -/
def libFn (p f : Nat) (vs : List V) : M (List V) :=
  bif Nat.beq p 0 then avoFn f vs
  else bif Nat.beq p n!"fmt" then
    bif Nat.beq f n!"Fprintf" then
      match vs with
      | w :: .str t :: vs => do writeTo w (← orStuck (sprintf t .plain vs))
      | _ => stuck
    else bif Nat.beq f n!"Fprintln" then
      match vs with
      | [w, .str t] => writeTo w (t ++ [10])
      | _ => stuck
    else bif Nat.beq f n!"Sprintf" then
      match vs with
      | .str t :: vs => do return [.str (← orStuck (sprintf t .plain vs))]
      | _ => stuck
    else stuck
  else bif Nat.beq p n!"log" && Nat.beq f n!"Fatalf" then exit 1
  else bif Nat.beq p n!"errors" && Nat.beq f n!"Wrapf" then
    match vs with
    | .nil :: _ => return [.nil]
    | .err :: _ => return [.err]
    | _ => stuck
  else bif Nat.beq p n!"flag" then
    bif Nat.beq f n!"Parse" then do
      let w ← world
      let s ← get
      if w.args.all fun a => s.flags.any (· == a.1) then do
        set { s with parsed := true }
        return []
      else exit 2
    else bif Nat.beq f n!"String" || Nat.beq f n!"Bool" then
      match vs with
      | [.str n, d, .str _] => do
        let s ← get
        set { s with flags := n :: s.flags }
        return [.flag n d]
      | _ => stuck
    else stuck
  else bif Nat.beq p n!"format" && Nat.beq f n!"Source" then
    match vs with
    | [.bytes t] => return [.bytes (gofmt t), .nil]
    | _ => stuck
  else bif Nat.beq p n!"os" then
    bif Nat.beq f n!"Create" then
      match vs with
      | [.str path] => do
        let w ← world
        if w.canCreate then do
          let s ← get
          set { s with files := s.files ++ [(path, [])] }
          return [.file s.files.length, .nil]
        else return [.nil, .err]
      | _ => stuck
    else bif Nat.beq f n!"Open" then
      match vs with
      | [.str path] => do
        let w ← world
        match w.disk path with
        | some _ => return [.opened path, .nil]
        | none => return [.nil, .err]
      | _ => stuck
    else bif Nat.beq f n!"Getenv" then
      match vs with
      | [.str n] => do
        let w ← world
        return [.str (w.getenv n)]
      | _ => stuck
    else stuck
  else bif Nat.beq p n!"io" && Nat.beq f n!"ReadAll" then
    match vs with
    | [.opened path] => do
      let w ← world
      match w.canRead, w.disk path with
      | true, some t => return [.bytes t, .nil]
      | _, _ => return [.bytes [], .err]
    | _ => stuck
  else bif Nat.beq p n!"filepath" && Nat.beq f n!"Join" then
    match vs with
    | [.str a, .str b] => if b.isEmpty then stuck else return [.str (joinPath a b)]
    | _ => stuck
  else bif Nat.beq p n!"bufio" && Nat.beq f n!"NewScanner" then
    match vs with
    | [.stdin] => return [.scanner]
    | _ => stuck
  else bif Nat.beq p n!"strings" then
    bif Nat.beq f n!"HasPrefix" then
      match vs with
      | [.str s, .str p] => return [.bool (hasPrefix s p)]
      | _ => stuck
    else bif Nat.beq f n!"TrimPrefix" then
      match vs with
      | [.str s, .str p] => return [.str (bif hasPrefix s p then s.drop p.length else s)]
      | _ => stuck
    else bif Nat.beq f n!"Join" then
      match vs with
      | [.list ts, .str sep] => do return [.str (← orStuck (joinTexts sep ts))]
      | _ => stuck
    else stuck
  else bif Nat.beq p n!"bytes" && Nat.beq f n!"Index" then
    match vs with
    | [.bytes s, .bytes p] => return [.int .int (match indexOf p s 0 with | some k => k | none => -1)]
    | _ => stuck
  else bif Nat.beq p n!"rand" then
    bif Nat.beq f n!"Uint32" then do
      let w ← world
      let s ← get
      set { s with draws := s.draws + 1 }
      return [.int .u32 (w.uint32 s.draws).toNat]
    else bif Nat.beq f n!"Int" then do
      let w ← world
      let s ← get
      set { s with draws := s.draws + 1 }
      return [.int .int (w.int63 s.draws)]
    else stuck
  else bif Nat.beq p n!"operand" then
    match vs with
    | [.int _ x] =>
      if x < 0 then stuck
      else bif Nat.beq f n!"Imm" then return [.opd (.imm x.toNat)]
      else bif Nat.beq f n!"U16" then return [.u16 x.toNat]
      else stuck
    | _ => stuck
  else stuck

/-- Values in libraries. -/
def libVal (p n : Nat) : V :=
  bif Nat.beq p n!"math" && Nat.beq n n!"MaxUint32" then .int .const 4294967295
  else bif Nat.beq p n!"os" && Nat.beq n n!"Stdin" then .stdin
  else bif Nat.beq p n!"os" && Nat.beq n n!"Stdout" then .stdout
  else .lib p n

/-- How much of `t` is written, and what `Write` returns. -/
def written (w : World) (t : Text) : Text × List V :=
  match w.writeFails with
  | none => (t, [.int .int t.length, .nil])
  | some k => (t.take k, [.int .int (t.take k).length, .err])

/-- `recv.m(args)` -/
def method (recv : V) (m : Nat) (vs : List V) : M (List V) :=
  match recv, vs with
  | .buf b, [] =>
    bif Nat.beq m n!"Bytes" then do
      let s ← get
      let ts ← orStuck s.bufs[b]?
      return [.bytes ts.reverse]
    else stuck
  | .file k, [.bytes t] =>
    bif Nat.beq m n!"Write" then do
      let w ← world
      let s ← get
      let f ← orStuck s.files[k]?
      set { s with files := s.files.set k (f.1, f.2 ++ (written w t).1) }
      return (written w t).2
    else stuck
  | .stdout, [.bytes t] =>
    bif Nat.beq m n!"Write" then do
      let w ← world
      let s ← get
      set { s with stdout := s.stdout ++ (written w t).1 }
      return (written w t).2
    else stuck
  | .opened _, [] => bif Nat.beq m n!"Close" then return [.nil] else stuck
  | .file _, [] => bif Nat.beq m n!"Close" then return [.nil] else stuck
  | .scanner, [] =>
    bif Nat.beq m n!"Scan" then do
      let s ← get
      match s.input with
      | l :: ls => do
        set { s with input := ls, line := l }
        return [.bool true]
      | [] => return [.bool false]
    else bif Nat.beq m n!"Text" then do
      let s ← get
      return [.str s.line]
    else bif Nat.beq m n!"Err" then do
      let w ← world
      return [if w.inputErr then .err else .nil]
    else stuck
  | .param n, [] =>
    bif Nat.beq m n!"Base" then return [.base n]
    else bif Nat.beq m n!"Resolve" then do
      let o ← withFn fun g =>
        match lookupArg g.sig.args n with
        | some (.u32, o) => some (o, g)
        | _ => none
      return [.basic o, .nil]
    else stuck
  | .opd (.gp r w), [] =>
    bif Nat.beq m n!"As16" then (bif Nat.ble 16 w then return [.opd (.gp r 16)] else stuck)
    else bif Nat.beq m n!"As8" || Nat.beq m n!"As8L" then return [.opd (.gp r 8)]
    else stuck
  | .opd (.mem b d), [.int _ x] =>
    bif Nat.beq m n!"Offset" && decide (0 ≤ x) then return [.opd (.mem b (d + x.toNat))] else stuck
  | _, _ => stuck

/-- `recv.n` without a call. -/
def field (recv : V) (n : Nat) : Option V :=
  match recv with
  | .basic o => bif Nat.beq n n!"Addr" then some (.opd (.arg o)) else none
  | _ => none

/-! ## Programs -/

/-- The files of a program and the values of its package-level variables. -/
structure Ctx where
  files : List File
  vars : List ((Nat × Nat) × V)

def Ctx.func (C : Ctx) (pkg f : Nat) : Option Func :=
  C.files.findSome? fun F => bif Nat.beq F.pkg pkg then F.funcs.find? fun g => Nat.beq g.name f else none

def Ctx.var (C : Ctx) (pkg n : Nat) : Option V :=
  (C.vars.find? fun v => Nat.beq v.1.1 pkg && Nat.beq v.1.2 n).map (·.2)

/-- Package-level variables, constants (which are kept with the variables) and functions. -/
def Ctx.global (C : Ctx) (pkg n : Nat) : Option V :=
  match C.var pkg n with
  | some v => some v
  | none => (C.func pkg n).map fun _ => .fn pkg n

/-- Is `p` the last element of the path? -/
def lastElem (path p : Nat) : Bool :=
  let b := 256 ^ (p.log2 / 8 + 1)
  Nat.beq (path % b) p && (Nat.beq (path / b) 0 || Nat.beq (path / b % 256) 47)

/-- Is `p` the name of a package a file of package `pkg` imports? -/
def Ctx.imported (C : Ctx) (pkg p : Nat) : Bool :=
  C.files.any fun F => Nat.beq F.pkg pkg && F.imports.any fun q => lastElem q p

def Ctx.isPkg (C : Ctx) (p : Nat) : Bool := C.files.any fun F => Nat.beq F.pkg p

/-- Names that are not declared in the package: types, predeclared names, and what is imported by `.`. -/
def Ctx.other (C : Ctx) (pkg n : Nat) : Option V :=
  if (kindOf n).isSome || Nat.beq n n!"string" then some (.type (.named n))
  else bif Nat.beq n n!"true" then some (.bool true)
  else bif Nat.beq n n!"false" then some (.bool false)
  else bif Nat.beq n n!"nil" then some .nil
  else if C.files.any fun F => Nat.beq F.pkg pkg && !F.dots.isEmpty then some (.lib 0 n)
  else none

/-- How a statement ends. -/
inductive Flow where
  | next (env : Env)
  | ret (vs : List V) (env : Env)

def Flow.andThen : Flow → (Env → M Flow) → M Flow
  | .next env, k => k env
  | .ret vs env, _ => pure (.ret vs env)

def one : List V → M V
  | [v] => pure v
  | _ => stuck

def truth : V → M Bool
  | .bool b => pure b
  | _ => stuck

/-- `x, y := vs` -/
def define : List Nat → List V → Env → Option Env
  | [], [], env => some env
  | x :: xs, v :: vs, env => define xs vs (bif Nat.beq x n!"_" then env else (x, declared v) :: env)
  | _, _, _ => none

/-- Arguments and results take the declared types. -/
def bindAll : List (Nat × Ty) → List V → Option Env
  | [], [] => some []
  | (x, t) :: ps, v :: vs => (bindAll ps vs).map ((x, coerce t v) :: ·)
  | _, _ => none

/-- Variables for named results. -/
def resultVars : List (Nat × Ty) → Option Env
  | [] => some []
  | (x, t) :: ps =>
    bif Nat.beq x 0 then resultVars ps
    else do
      let v ← zeroOf t
      let r ← resultVars ps
      return (x, v) :: r

/-- Values of named results. -/
def resultVals (env : Env) : List (Nat × Ty) → Option (List V)
  | [] => some []
  | (x, _) :: ps => do
    let v ← env.get x
    let r ← resultVals env ps
    return v :: r

/-- The result of a function body. -/
def results (rs : List (Nat × Ty)) : Flow → Option (List V × Env)
  | .next env => bif rs.isEmpty then some ([], env) else none
  | .ret [] env => (resultVals env rs).map fun vs => (vs, env)
  | .ret vs env => (bindAll rs vs).map fun e => (e.map Prod.snd, env)

/-- `for …; cond; … { body }` -/
def forLoop (cond : Env → M Bool) (body : Env → M Flow) : Nat → Env → M Flow
  | 0, _ => fun _ _ => .fuel
  | n + 1, env => do
    if ← cond env then do (← body env).andThen (forLoop cond body n)
    else return .next env

/-- `for k, v := range vs { body }` -/
def rangeLoop (k v : Nat) (body : Env → M Flow) : List V → Nat → Env → M Flow
  | [], _, env => return .next env
  | x :: xs, i, env => do
    let e := bif Nat.beq k n!"_" then env else (k, V.int .int i) :: env
    let e := bif Nat.beq v 0 || Nat.beq v n!"_" then e else (v, x) :: e
    (← body e).andThen fun e => rangeLoop k v body xs (i + 1) (e.leave env.length)

def inScope (body : Env → M Flow) (env : Env) : M Flow := do
  (← body env).andThen fun e => return .next (e.leave env.length)

/-- Elements of a slice. -/
def elems : V → Option (List V)
  | .list vs => some vs
  | .bytes t => some (t.map fun (c : Nat) => .int .u8 (c : Int))
  | _ => none

/-- A byte given as a value. -/
def byteOf : V → Option Nat
  | .int _ x => if 0 ≤ x ∧ x < 256 then some x.toNat else none
  | _ => none

/-- `append` -/
def append (a : V) (vs : List V) (spread : Bool) : Option V :=
  match a, vs, spread with
  | .list xs, vs, false => some (.list (xs ++ vs.map declared))
  | .bytes t, vs, false => (vs.mapM byteOf).map fun u => .bytes (t ++ u)
  | .bytes t, [.bytes u], true => some (.bytes (t ++ u))
  | _, _, _ => none

/-- `a[lo:hi]` of a `[]byte` (whose capacity is its length). -/
def sliceOf (a : V) (lo hi : Option V) : M V :=
  match a with
  | .bytes t =>
    let i : Option Int := match lo with | none => some 0 | some (.int _ x) => some x | _ => none
    let j : Option Int := match hi with | none => some t.length | some (.int _ x) => some x | _ => none
    match i, j with
    | some i, some j => if 0 ≤ i ∧ i ≤ j ∧ j ≤ t.length then pure (.bytes ((t.take j.toNat).drop i.toNat)) else panicking
    | _, _ => stuck
  | _ => stuck

def indexOfVal (a i : V) : M V :=
  match a, i with
  | .list vs, .int _ x =>
    if 0 ≤ x then match vs[x.toNat]? with
      | some v => pure v
      | none => panicking
    else panicking
  | _, _ => stuck

/-- `make([]T, n)` -/
def makeSlice (t : Ty) (n : V) : M V :=
  match t, n with
  | .slice t, .int _ x => do
    let z ← orStuck (zeroOf t)
    if x < 0 then panicking else pure (.own (List.replicate x.toNat z))
  | _, _ => stuck

/-- The interpreters of expressions, statements, calls, which call each other. -/
structure Interp where
  /-- the values of an expression; a call may have none or several -/
  multi : Nat → Env → Expr → M (List V)
  evals : Nat → Env → List Expr → M (List V)
  exec : Nat → Env → Stmt → M Flow
  execs : Nat → List Stmt → Env → M Flow
  apply : V → List V → M (List V)

def Interp.none : Interp where
  multi _ _ _ := stuck
  evals _ _ _ := stuck
  exec _ _ _ := stuck
  execs _ _ _ := stuck
  apply _ _ := stuck

def Interp.eval (I : Interp) (pkg : Nat) (env : Env) (e : Expr) : M V := do one (← I.multi pkg env e)

/-- A new function literal. -/
def newClosure (c : Closure) : M (List V) := do
  let s ← get
  set { s with clos := s.clos ++ [c] }
  return [.clos s.clos.length]

/-- Is `p` the name of a package here? -/
def isPkgName (C : Ctx) (pkg : Nat) (env : Env) (p : Nat) : Bool :=
  (env.get p).isNone && (C.global pkg p).isNone && C.imported pkg p

/-- Arguments of a call: a single call may give several. -/
def callArgs (I : Interp) (pkg : Nat) (env : Env) : List Expr → M (List V)
  | [.call f as s] => I.multi pkg env (.call f as s)
  | es => I.evals pkg env es

/-- `f(args...)`: the elements of the last argument become arguments. -/
def spreadArgs (vs : List V) : Option (List V) :=
  match vs.getLast? with
  | some v => (elems v).map fun xs => vs.dropLast ++ xs
  | none => none

def multiStep (C : Ctx) (I : Interp) (pkg : Nat) (env : Env) : Expr → M (List V)
  | .var n =>
    match env.get n with
    | some (.own _) => stuck
    | some v => return [v]
    | .none => match C.global pkg n with
      | some v => return [v]
      | .none => do return [← orStuck (C.other pkg n)]
  | .num n => return [.int .const n]
  | .str t => return [.str t]
  | .dot e n =>
    match e with
    | .var p =>
      bif isPkgName C pkg env p then
        bif C.isPkg p then do return [← orStuck (C.global p n)] else return [libVal p n]
      else do
        let v ← I.eval pkg env e
        return [← orStuck (field v n)]
    | e => do
      let v ← I.eval pkg env e
      return [← orStuck (field v n)]
  | .bin .land a b => do
    if ← truth (← I.eval pkg env a) then do return [.bool (← truth (← I.eval pkg env b))]
    else return [.bool false]
  | .bin .lor a b => do
    if ← truth (← I.eval pkg env a) then return [.bool true]
    else do return [.bool (← truth (← I.eval pkg env b))]
  | .bin op a b => do
    let x ← I.eval pkg env a
    let y ← I.eval pkg env b
    return [← binary op x y]
  | .index a i => do
    let x ← I.eval pkg env a
    let y ← I.eval pkg env i
    return [← indexOfVal x y]
  | .slice a lo hi => do
    let x ← I.eval pkg env a
    let i ← match lo with
      | .none => pure .none
      | some e => do pure (some (← I.eval pkg env e))
    let j ← match hi with
      | .none => pure .none
      | some e => do pure (some (← I.eval pkg env e))
    return [← sliceOf x i j]
  | .type t => return [.type t]
  | .lit t es =>
    match t with
    | .slice t => do
      let vs ← I.evals pkg env (es.map Prod.snd)
      return [.list (vs.map (coerce t))]
    | .qual p n =>
      bif Nat.beq p n!"operand" && Nat.beq n n!"Mem" then
        match es with
        | [(f, e)] =>
          bif Nat.beq f n!"Base" then do
            match ← I.eval pkg env e with
            | .opd (.gp r 64) => return [.opd (.mem r 0)]
            | _ => stuck
          else stuck
        | _ => stuck
      else stuck
    | _ => stuck
  | .func ps rs b => bif env.isEmpty then newClosure ⟨pkg, ps, rs, b, []⟩ else stuck
  | .addr e =>
    match e with
    | .lit (.qual p n) [] =>
      bif Nat.beq p n!"bytes" && Nat.beq n n!"Buffer" then do
        let s ← get
        set { s with bufs := s.bufs ++ [[]] }
        return [.buf s.bufs.length]
      else stuck
    | _ => stuck
  | .deref e => do
    match ← I.eval pkg env e with
    | .flag n d => do
      let w ← world
      let s ← get
      if s.parsed then
        -- the last one counts
        match w.args.reverse.find? (fun a => a.1 == n), d with
        | some a, .str _ => return [.str a.2]
        | some a, .bool _ =>
          if a.2 == asc ['t', 'r', 'u', 'e'] then return [.bool true]
          else if a.2 == asc ['f', 'a', 'l', 's', 'e'] then return [.bool false]
          else stuck
        | .none, d => return [d]
        | _, _ => stuck
      else return [d]
    | _ => stuck
  | .call f as spread =>
    match f with
    | .var n =>
      bif Nat.beq n n!"append" then do
        match ← callArgs I pkg env as with
        | a :: vs => return [← orStuck (append a vs spread)]
        | [] => stuck
      else bif Nat.beq n n!"len" then do
        match ← callArgs I pkg env as with
        | [.str t] => return [.int .int t.length]
        | [.bytes t] => return [.int .int t.length]
        | [.list vs] => return [.int .int vs.length]
        | _ => stuck
      else bif Nat.beq n n!"make" then do
        match ← callArgs I pkg env as with
        | [.type t, n] => return [← makeSlice t n]
        | _ => stuck
      else do
        let g ← I.eval pkg env f
        let vs ← callArgs I pkg env as
        if spread then stuck else I.apply g vs
    | .dot e m =>
      let isPkg := match e with
        | .var p => isPkgName C pkg env p
        | _ => false
      bif isPkg then do
        let g ← I.eval pkg env f
        let vs ← callArgs I pkg env as
        if spread then do I.apply g (← orStuck (spreadArgs vs)) else I.apply g vs
      else do
        let r ← I.eval pkg env e
        let vs ← callArgs I pkg env as
        if spread then stuck else method r m vs
    | f => do
      let g ← I.eval pkg env f
      let vs ← callArgs I pkg env as
      if spread then stuck else I.apply g vs

def evalsStep (I : Interp) (pkg : Nat) (env : Env) : List Expr → M (List V)
  | [] => return []
  | e :: es => do
    let v ← I.eval pkg env e
    let vs ← I.evals pkg env es
    return v :: vs

/-- Assignment to one place. -/
def assignTo (I : Interp) (pkg : Nat) (env : Env) (l : Expr) (v : V) : M Env :=
  match l with
  | .var x =>
    bif Nat.beq x n!"_" then return env
    else do
      let old ← orStuck (env.get x)
      orStuck (env.set x (coerceLike old v))
  | .index (.var x) i => do
    let k ← I.eval pkg env i
    match env.get x, k with
    | some (.own vs), .int _ k =>
      if 0 ≤ k ∧ k < vs.length then
        match vs[k.toNat]? with
        | some old => orStuck (env.set x (.own (vs.set k.toNat (coerceLike old v))))
        | none => panicking
      else panicking
    | _, _ => stuck
  | _ => stuck

def assignAll (I : Interp) (pkg : Nat) : List Expr → List V → Env → M Env
  | [], [], env => return env
  | l :: ls, v :: vs, env => do
    let env ← assignTo I pkg env l v
    assignAll I pkg ls vs env
  | _, _, _ => stuck

/-- The values of a `return` statement. -/
def retVals (I : Interp) (pkg : Nat) (env : Env) : List Expr → M (List V)
  | [.func ps rs b] => newClosure ⟨pkg, ps, rs, b, env⟩
  | [.var x] =>
    match env.get x with
    | some (.own vs) => return [.list vs]
    | _ => I.multi pkg env (.var x)
  | [e] => I.multi pkg env e
  | es => I.evals pkg env es

/-- Condition, and body with the statement behind it, of a `for` loop. -/
def loopCond (I : Interp) (pkg : Nat) (c : Expr) (env : Env) : M Bool := do truth (← I.eval pkg env c)

def loopBody (I : Interp) (pkg : Nat) (post body : List Stmt) (env : Env) : M Flow := do
  (← inScope (I.execs pkg body) env).andThen (I.execs pkg post)

def execStep (I : Interp) (pkg : Nat) (env : Env) : Stmt → M Flow
  | .define xs e => do
    let vs ← I.multi pkg env e
    return .next (← orStuck (define xs vs env))
  | .var x t e =>
    match t, e with
    | .none, some e => do
      let v ← I.eval pkg env e
      return .next ((x, declared v) :: env)
    | some t, .none => do return .next ((x, ← orStuck (zeroOf t)) :: env)
    | some t, some e => do
      let v ← I.eval pkg env e
      return .next ((x, coerce t v) :: env)
    | .none, .none => stuck
  | .assign ls e => do
    let vs ← I.multi pkg env e
    return .next (← assignAll I pkg ls vs env)
  | .update op l e => do
    let x ← I.eval pkg env l
    let y ← I.eval pkg env e
    let v ← binary op x y
    return .next (← assignTo I pkg env l v)
  | .expr e => do
    let _ ← I.multi pkg env e
    return .next env
  | .ret es => do
    let vs ← retVals I pkg env es
    return .ret vs env
  | .ite init c thn els => inScope (fun env => do
      (← I.execs pkg init env).andThen fun env => do
        if ← truth (← I.eval pkg env c) then inScope (I.execs pkg thn) env
        else inScope (I.execs pkg els) env) env
  | .loop init c post body => inScope (fun env => do
      (← I.execs pkg init env).andThen fun env w =>
        forLoop (loopCond I pkg c) (loopBody I pkg post body) w.fuel env w) env
  | .range k v e body => do
    let vs ← match e with
      | .var x => match env.get x with
        | some (.own vs) => pure vs
        | _ => do orStuck (elems (← I.eval pkg env e))
      | e => do orStuck (elems (← I.eval pkg env e))
    rangeLoop k v (I.execs pkg body) vs 0 env
  | .defer e =>
    match e with
    | .call f as _ => do
      let g ← I.eval pkg env f
      let vs ← callArgs I pkg env as
      let s ← get
      set { s with defers := (g, vs) :: s.defers }
      return .next env
    | _ => stuck

def execsStep (I : Interp) (pkg : Nat) : List Stmt → Env → M Flow
  | [], env => return .next env
  | s :: ss, env => do (← I.exec pkg env s).andThen (I.execs pkg ss)

/-- Deferred calls. -/
def runDefers (I : Interp) : List (V × List V) → M Unit
  | [] => return ()
  | (g, vs) :: ds => do
    let _ ← I.apply g vs
    runDefers I ds

/-- A function body with its variables; the deferred calls are those of this function. -/
def runBody (I : Interp) (pkg : Nat) (rs : List (Nat × Ty)) (body : List Stmt) (env : Env) : M (List V × Env) := do
  let s ← get
  let saved := s.defers
  set { s with defers := [] }
  let fl ← I.execs pkg body env
  let r ← orStuck (results rs fl)
  let s ← get
  runDefers I s.defers
  let s ← get
  set { s with defers := saved }
  return r

def applyStep (C : Ctx) (I : Interp) (g : V) (vs : List V) : M (List V) :=
  match g with
  | .fn pkg f => do
    let g ← orStuck (C.func pkg f)
    let env ← orStuck (bindAll g.params vs)
    let res ← orStuck (resultVars g.results)
    let r ← runBody I pkg g.results g.body (env ++ res)
    return r.1
  | .clos k => do
    let s ← get
    let c ← orStuck s.clos[k]?
    let env ← orStuck (bindAll c.params vs)
    let r ← runBody I c.pkg c.results c.body (env ++ c.env)
    let s ← get
    set { s with clos := s.clos.set k { c with env := r.2.leave c.env.length } }
    return r.1
  | .lib p f => libFn p f vs
  | .type t =>
    match vs with
    | [v] => do return [← orStuck (convert t v)]
    | _ => stuck
  | _ => stuck

def Interp.step (C : Ctx) (I : Interp) : Interp where
  multi := multiStep C I
  evals := evalsStep I
  exec := execStep I
  execs := execsStep I
  apply := applyStep C I

/-- Interpreters of nesting depth `n`. -/
def Interp.depth (C : Ctx) : Nat → Interp
  | 0 => .none
  | n + 1 => (Interp.depth C n).step C

/-- Constants and variables of the packages, in the order of the files. -/
def initVars (depth : Nat) (files : List File) : List (Nat × Nat × Expr) → List ((Nat × Nat) × V) → M (List ((Nat × Nat) × V))
  | [], vars => return vars
  | (pkg, x, e) :: l, vars => do
    let v ← (Interp.depth ⟨files, vars⟩ depth).eval pkg [] e
    initVars depth files l (((pkg, x), v) :: vars)

/-- The declarations of constants and variables; packages in the order in which they are initialised. -/
def globals (files : List File) : List (Nat × Nat × Expr) :=
  files.flatMap fun F => (F.consts.map fun c => (F.pkg, c.1, c.2)) ++ F.vars.map fun v => (F.pkg, v.1, v.2)

/-- Start the program: initialise the packages, then `main`. -/
def runMain (depth : Nat) (files : List File) : M (List V) := do
  let vars ← initVars depth files (globals files) []
  (Interp.depth ⟨files, vars⟩ depth).apply (.fn n!"main" n!"main") []

end SVB.Script
