import Verif.Model.ScriptText
import Verif.Model.Dispatch
import Verif.Model.Util

/-!
# Running the tests and benchmarks of `/repo`

The meaning of the `…_test.go` files of `/repo/pkg`: what their tests do with memory, and whether they fail.  A test is run on a
memory, by a CPU, with a source of random numbers; calls of the library are the functions of this model (by C56 they are what
the library's texts say).

* `M` is the type of a piece of a test, in continuation-passing style: what follows it, what follows it if the test ends early
  (`t.Fatalf`, `t.Skipf`), and the state.  A construct that is not understood stops with the panic `.fault`, so a theorem that
  excludes panics shows that everything was understood.
* A subtest that ends early leaves the variables of the surrounding function as they were at its start (in the tests of `/repo`
  no subtest assigns one of them).
* A message passed to `Fatalf` or `Skipf` is not formatted, nor is the name of a subtest.
* A benchmark is run with a given `b.N`.  What it passes to `b.SetBytes` and assigns to variables of the file (the sinks) is
  recorded in the state.  The function passed to `b.Run` is run several times, with the values of `b.N` that `World.rounds`
  gives.  Loops end in `stuck` after `fuel` tests of the condition; the theorems about benchmarks hold for every fuel that is
  larger than the values of `b.N`.
-/

set_option autoImplicit false

namespace SVB.Tests
open SVB.Script (Expr Stmt Ty Op Func File)

/-! ## Values -/

inductive Val where
  | unit
  /-- an untyped constant -/
  | const (n : Int)
  | int (n : Int)
  | byte (v : Byte)
  | u16 (v : U16)
  | u32 (v : U32)
  | bytes (s : Bytes)
  | words (s : U32s)
  | bool (b : Bool)
  | str
  | mode (m : Mode)
  /-- a `float64` with an integral value -/
  | float (n : Int)
  /-- a slice that is `nil` -/
  | nil
  /-- `*testing.T` -/
  | testing
  /-- `*testing.B`, with its field `N` -/
  | bench (n : Nat)

abbrev Env := List (Nat × Val)

def Env.get (env : Env) (x : Nat) : Option Val :=
  match env with
  | [] => none
  | (y, v) :: r => if Nat.beq x y then some v else Env.get r x

def Env.set (env : Env) (x : Nat) (v : Val) : Env :=
  match env with
  | [] => []
  | (y, w) :: r => if Nat.beq x y then (y, v) :: r else (y, w) :: Env.set r x v

/-! ## The circumstances -/

/-- State of a test: draws made so far, heap blocks handed out so far, how the test stands, the last
argument of `b.SetBytes`, and the assignments to variables of the file, the last one first. -/
structure St where
  draws : Nat
  next : Nat
  failed : Bool
  skipped : Bool
  bytes : Int
  sinks : Env

/-- What the tests depend on: the CPU, the numbers `math/rand` draws (the `k`-th draw is `int63 k` if it is a `rand.Int()`,
`uint32 k` if it is a `rand.Uint32()` and `intn k n` if it is a `rand.Intn(n)`; the seed is the time,
`/repo/pkg/pkg_test.go:14-16` and so on), how `sort.Slice` orders the numbers, and how much spare capacity `append` gives to a
slice that has to grow to a given length; and the values of `b.N` with which a function passed to `b.Run` in a given state is
run, one after the other. -/
structure World where
  cpu : Cpu
  int63 : Nat → Nat
  uint32 : Nat → U32
  intn : Nat → Nat → Nat
  sort : List U32 → List U32
  room : Nat → Nat
  rounds : St → List Nat

/-- The documented behaviour of `rand.Intn` and, as far as the tests need it, of `sort.Slice`: it only moves elements. -/
structure World.Ok (W : World) : Prop where
  intn : ∀ k n, 0 < n → W.intn k n < n
  sort : ∀ xs, (W.sort xs).Perm xs

/-! ## Pieces of tests -/

/-- A piece of a test: given what happens when the test ends early, what happens afterwards, and the state. -/
def M (α : Type) : Type := (St → Prog St) → (α → St → Prog St) → St → Prog St

def M.ret {α : Type} (a : α) : M α := fun _ k s => k a s
def M.bind {α β : Type} (x : M α) (f : α → M β) : M β := fun e k s => x e (fun a => f a e k) s

instance : Monad M where
  pure := M.ret
  bind := M.bind

/-- A call that allocates nothing. -/
def call {α : Type} (p : Prog α) : M α := fun _ k s => p.bind fun a => k a s

/-- A call that allocates one block. -/
def alloc {α : Type} (p : Block → Prog α) : M α := fun _ k s =>
  (p (.heap s.next)).bind fun a => k a { s with next := s.next + 1 }

/-- Not understood. -/
def stuck {α : Type} : M α := fun _ _ _ => .panic .fault

/-- `t.Fatalf(…)` -/
def fatal {α : Type} : M α := fun e _ s => e { s with failed := true }

/-- `t.Skipf(…)` -/
def skip {α : Type} : M α := fun e _ s => e { s with skipped := true }

/-- `b.SetBytes(n)` -/
def setBytes (n : Int) : M Unit := fun _ k s => k () { s with bytes := n }

/-- An assignment to a variable of the file. -/
def setSink (x : Nat) (v : Val) : M Unit := fun _ k s => k () { s with sinks := (x, v) :: s.sinks }

/-- `if b { x } else { y }` -/
def branch {α : Type} (b : Bool) (x y : M α) : M α := fun e k s => cond b (x e k s) (y e k s)

/-- `t.Run(name, func(t *testing.T) { x })`: when the subtest ends early the test goes on.  A test with a failed subtest has
failed. -/
def subtest (x : M Unit) : M Unit := fun _ k s => x (fun s => k () s) (fun _ s => k () s) s

/-! ## Slices -/

/-- `make([]uint32, n)` -/
def makeWords (b : Block) (n : Int) : Prog U32s :=
  if 0 ≤ n then do
    zeroFill ⟨b, 0⟩ (4 * n.toNat)
    return ⟨b, 0, n.toNat, n.toNat⟩
  else .panic .slice

/-- `s[i] = v` for the elements `v` of a list, from `i` on. -/
def putWords (s : U32s) : List U32 → Nat → Prog Unit
  | [], _ => return ()
  | v :: vs, i => do
    setW s i v
    putWords s vs (i + 1)

def putBytes (s : Bytes) : List Byte → Nat → Prog Unit
  | [], _ => return ()
  | v :: vs, i => do
    setB s i v
    putBytes s vs (i + 1)

/-- `[]uint32{…}` -/
def litWords (vs : List U32) (b : Block) : Prog U32s := do
  let s ← makeWords b vs.length
  putWords s vs 0
  return s

/-- `[]byte{…}` -/
def litBytes (vs : List Byte) (b : Block) : Prog Bytes := do
  let s ← makeBytes b vs.length
  putBytes s vs 0
  return s

/-- The elements of a slice, from `i` on. -/
def getWords (s : U32s) : Nat → Nat → Prog (List U32)
  | 0, _ => return []
  | n + 1, i => do
    let v ← getW s i
    let vs ← getWords s n (i + 1)
    return v :: vs

/-- `append(s, v)`: in place if there is spare capacity, else a copy in a new block with some spare capacity. -/
def append (W : World) (s : U32s) (v : U32) (b : Block) : Prog U32s :=
  if s.len < s.cap then do
    let r : U32s := ⟨s.blk, s.off, s.len + 1, s.cap⟩
    setW r s.len v
    return r
  else do
    let vs ← getWords s s.len 0
    zeroFill ⟨b, 0⟩ (4 * (s.len + 1 + W.room (s.len + 1)))
    let r : U32s := ⟨b, 0, s.len + 1, s.len + 1 + W.room (s.len + 1)⟩
    putWords r (vs ++ [v]) 0
    return r

/-- `copy(dst, src)` for slices in different blocks. -/
def copyWords (dst src : U32s) : Prog Unit := do
  let vs ← getWords src (min dst.len src.len) 0
  putWords dst vs 0

/-- Are the next `n` elements, from `i` on, equal? -/
def equalWords (a b : U32s) : Nat → Nat → Prog Bool
  | 0, _ => return true
  | n + 1, i => do
    let x ← getW a i
    let y ← getW b i
    if x = y then equalWords a b n (i + 1) else return false

def equalBytes (a b : Bytes) : Nat → Nat → Prog Bool
  | 0, _ => return true
  | n + 1, i => do
    let x ← getB a i
    let y ← getB b i
    if x = y then equalBytes a b n (i + 1) else return false

/-- `reflect.DeepEqual(a, b)` for slices that are not `nil`: length, then the elements. -/
def deepEqualW (a b : U32s) : Prog Bool := if a.len = b.len then equalWords a b a.len 0 else return false

def deepEqualB (a b : Bytes) : Prog Bool := if a.len = b.len then equalBytes a b a.len 0 else return false

/-! ## Package `util` -/

/-- `RandUint32()`, `/repo/pkg/util/rand.go:46-48`: two draws (C59). -/
def World.rand (W : World) (d : Nat) : U32 := randUint32 (W.int63 d) (W.uint32 (d + 1))

/-- `RandUint32()` -/
def randU32 (W : World) : M U32 := fun _ k s => k (W.rand s.draws) { s with draws := s.draws + 2 }

/-- `rand.Intn(n)` -/
def randIntn (W : World) (n : Nat) : M Int := fun _ k s => k (W.intn s.draws n) { s with draws := s.draws + 1 }

/-- `GenUint32(n)`, `/repo/pkg/util/util.go:12-19`, when `d` draws have been made; two draws for every number (C59). -/
def genWords (W : World) (d : Nat) (n : Int) (b : Block) : Prog U32s := do
  let nums ← makeWords b n
  let _ ← loop n.toNat (fun i : Int => decide (i < n))
    (fun i => do
      setW nums i (W.rand (d + 2 * i.toNat))
      return i + 1) 0
  return nums

/-- `GenUint32(n)` -/
def gen (W : World) (n : Int) : M U32s := fun _ k s =>
  (genWords W s.draws n (.heap s.next)).bind fun a =>
    k a { s with next := s.next + 1, draws := s.draws + 2 * n.toNat }

/-- `SortUint32(in)`, `/repo/pkg/util/util.go:21-25`: a call of `sort.Slice`. -/
def sortWords (W : World) (s : U32s) : Prog Unit := do
  let vs ← getWords s s.len 0
  putWords s (W.sort vs) 0

/-! ## Operators -/

/-- The variables left when the scope ends that began with the variables `old`. -/
def Env.leave (env old : Env) : Env := env.drop (env.length - old.length)

/-- An untyped constant becomes an `int` when a variable is defined by it. -/
def Val.settle : Val → Val
  | .const n => .int n
  | v => v

def Val.int? : Val → Option Int
  | .const n => some n
  | .int n => some n
  | _ => none

def Val.u32? : Val → Option U32
  | .const n => if 0 ≤ n ∧ n < 2 ^ 32 then some (BitVec.ofInt 32 n) else none
  | .u32 v => some v
  | _ => none

def Val.byte? : Val → Option Byte
  | .const n => if 0 ≤ n ∧ n < 2 ^ 8 then some (BitVec.ofInt 8 n) else none
  | .byte v => some v
  | _ => none

/-- Operators on untyped constants. -/
def constOp (op : Op) (x y : Int) : Option Val :=
  match op with
  | .add => some (.const (x + y))
  | .sub => some (.const (x - y))
  | .mul => some (.const (x * y))
  | _ => none

/-- Operators on `int`. -/
def intOp (op : Op) (x y : Int) : Option Val :=
  match op with
  | .add => some (.int (int64 (x + y)))
  | .sub => some (.int (int64 (x - y)))
  | .mul => some (.int (int64 (x * y)))
  | .eq => some (.bool (decide (x = y)))
  | .ne => some (.bool !decide (x = y))
  | .lt => some (.bool (decide (x < y)))
  | .gt => some (.bool (decide (y < x)))
  | _ => none

def binop (op : Op) (a b : Val) : Option Val :=
  match a, b with
  | .const x, .const y => constOp op x y
  | .u32 x, .const y =>
    match op with
    | .rem => if 0 < y ∧ y < 2 ^ 32 then some (.u32 (x % BitVec.ofInt 32 y)) else none
    | _ => none
  | .u16 x, .u16 y =>
    match op with
    | .ne => some (.bool !decide (x = y))
    | _ => none
  | .u32 x, .u32 y =>
    match op with
    | .lt => some (.bool (decide (x.toNat < y.toNat)))
    | _ => none
  | .mode x, .mode y =>
    match op with
    | .eq => some (.bool (decide (x = y)))
    | _ => none
  | a, b =>
    match a.int?, b.int? with
    | some x, some y => intOp op x y
    | _, _ => none

/-! ## The library -/

/-- A call with a result of a certain type. -/
def ofU8 (x : M Byte) : M Val := x >>= fun v => pure (.byte v)
def ofU16 (x : M U16) : M Val := x >>= fun v => pure (.u16 v)
def ofInt (x : M Int) : M Val := x >>= fun v => pure (.int v)
def ofBool (x : M Bool) : M Val := x >>= fun v => pure (.bool v)
def ofBytes (x : M Bytes) : M Val := x >>= fun v => pure (.bytes v)
def ofWords (x : M U32s) : M Val := x >>= fun v => pure (.words v)
def ofUnit (x : M Unit) : M Val := x >>= fun _ => pure .unit

/-- With the value of an argument of type `uint32`. -/
def withU32 (v : Val) (f : U32 → M Val) : M Val :=
  match v.u32? with
  | some x => f x
  | none => stuck

/-- With the value of an argument of type `int`. -/
def withInt (v : Val) (f : Int → M Val) : M Val :=
  match v.int? with
  | some x => f x
  | none => stuck

/-- Package `encode`. -/
def libEncode (c : Cpu) (f : Nat) (vs : List Val) : M Val :=
  match vs with
  | [] => if Nat.beq f n!"GetMode" then pure (.mode (encodeMode c)) else stuck
  | [.words i, .bytes o] =>
    if Nat.beq f n!"Put8uint32Scalar" then ofU16 (call (put8uint32Scalar i o))
    else if Nat.beq f n!"Put8uint32Fast" then ofU16 (call (onAmd64 c (put8uint32Fast i o)))
    else if Nat.beq f n!"Put4uint32Scalar" then ofU8 (call (put4uint32Scalar i o))
    else stuck
  | [.words i, .bytes o, v] =>
    if Nat.beq f n!"Put8uint32DeltaScalar" then withU32 v fun p => ofU16 (call (put8uint32DeltaScalar i o p))
    else if Nat.beq f n!"Put8uint32DeltaFast" then withU32 v fun p => ofU16 (call (onAmd64 c (put8uint32DeltaFast i o p)))
    else if Nat.beq f n!"PutUint32Scalar" then withInt v fun n => ofU8 (call (putUint32Scalar i o n))
    else stuck
  | [.words i, .bytes o, n, v] =>
    if Nat.beq f n!"PutUint32DeltaScalar" then
      withInt n fun n => withU32 v fun p => ofU8 (call (putUint32DeltaScalar i o n p))
    else stuck
  | _ => stuck

/-- Package `decode`. -/
def libDecode (c : Cpu) (f : Nat) (vs : List Val) : M Val :=
  match vs with
  | [] => if Nat.beq f n!"GetMode" then pure (.mode (decodeMode c)) else stuck
  | [.bytes i, .words o, .u16 t] =>
    if Nat.beq f n!"Get8uint32Scalar" then ofUnit (call (get8uint32Scalar i o t))
    else if Nat.beq f n!"Get8uint32Fast" then ofUnit (call (onAmd64 c (get8uint32Fast i o t)))
    else stuck
  | [.bytes i, .words o, .u16 t, v] =>
    if Nat.beq f n!"Get8uint32DeltaScalar" then withU32 v fun p => ofUnit (call (get8uint32DeltaScalar i o t p))
    else if Nat.beq f n!"Get8uint32DeltaFast" then withU32 v fun p => ofUnit (call (onAmd64 c (get8uint32DeltaFast i o t p)))
    else stuck
  | [.bytes i, .words o, .byte t, n] =>
    if Nat.beq f n!"GetUint32Scalar" then withInt n fun n => ofInt (call (getUint32Scalar i o t n))
    else stuck
  | [.bytes i, .words o, .byte t, n, v] =>
    if Nat.beq f n!"GetUint32DeltaScalar" then
      withInt n fun n => withU32 v fun p => ofInt (call (getUint32DeltaScalar i o t n p))
    else stuck
  | _ => stuck

/-- Package `shared`. -/
def libShared (f : Nat) (vs : List Val) : M Val :=
  match vs with
  | [.u16 t] => if Nat.beq f n!"ControlByteToSizeTwo" then ofInt (call (controlByteToSizeTwo t)) else stuck
  | [.byte t] => if Nat.beq f n!"ControlByteToSize" then ofInt (call (controlByteToSize t)) else stuck
  | _ => stuck

/-- Package `writer`. -/
def libWriter (c : Cpu) (f : Nat) (vs : List Val) : M Val :=
  match vs with
  | [.words i] =>
    if Nat.beq f n!"WriteAllScalar" then ofBytes (alloc fun b => writeAllScalar b i)
    else if Nat.beq f n!"WriteAllFast" then ofBytes (alloc fun b => onAmd64 c (writeAllFast b i))
    else stuck
  | [.words i, v] =>
    if Nat.beq f n!"WriteAllDeltaScalar" then withU32 v fun p => ofBytes (alloc fun b => writeAllDeltaScalar b i p)
    else if Nat.beq f n!"WriteAllDeltaFast" then
      withU32 v fun p => ofBytes (alloc fun b => onAmd64 c (writeAllDeltaFast b i p))
    else stuck
  | _ => stuck

/-- Package `reader`. -/
def libReader (c : Cpu) (f : Nat) (vs : List Val) : M Val :=
  match vs with
  | [n, .bytes i, .words o] =>
    if Nat.beq f n!"ReadAllScalar" then withInt n fun n => ofUnit (call (readAllScalar n i o))
    else if Nat.beq f n!"ReadAllFast" then withInt n fun n => ofUnit (call (onAmd64 c (readAllFast n i o)))
    else stuck
  | [n, .bytes i, .words o, v] =>
    if Nat.beq f n!"ReadAllDeltaScalar" then
      withInt n fun n => withU32 v fun p => ofUnit (call (readAllDeltaScalar n i o p))
    else if Nat.beq f n!"ReadAllDeltaFast" then
      withInt n fun n => withU32 v fun p => ofUnit (call (onAmd64 c (readAllDeltaFast n i o p)))
    else stuck
  | _ => stuck

/-- Package `util`. -/
def libUtil (W : World) (f : Nat) (vs : List Val) : M Val :=
  match vs with
  | [] => if Nat.beq f n!"RandUint32" then randU32 W >>= fun v => pure (.u32 v) else stuck
  | [.int n] => if Nat.beq f n!"GenUint32" then ofWords (gen W n) else stuck
  | [.words s] => if Nat.beq f n!"SortUint32" then ofUnit (call (sortWords W s)) else stuck
  | [.words a, .words b] => if Nat.beq f n!"Delta" then ofUnit (call (utilDelta a b)) else stuck
  | [.words a, .bytes b] => if Nat.beq f n!"PutVarint" then ofInt (call (putVarint a b)) else stuck
  | [.bytes a, .words b] => if Nat.beq f n!"GetVarint" then ofInt (call (getVarint a b)) else stuck
  | [.words a, .bytes b, v] =>
    if Nat.beq f n!"PutDeltaVarint" then withU32 v fun p => ofInt (call (putDeltaVarint a b p)) else stuck
  | [.bytes a, .words b, v] =>
    if Nat.beq f n!"GetDeltaVarint" then withU32 v fun p => ofInt (call (getDeltaVarint a b p)) else stuck
  | _ => stuck

/-- `math.Pow10(n)`, when the result is an integer that fits into an `int` (then it is exact: `math/pow10.go` has the powers up to
`1e31` as constants, and `float64` represents `10^n` exactly for `n ≤ 22`). -/
def pow10 (n : Int) : M Val := branch (decide (0 ≤ n ∧ n < 19)) (pure (.float (10 ^ n.toNat))) stuck

/-- A function of a package, by the name of the package. -/
def lib (W : World) (pkg f : Nat) (vs : List Val) : M Val :=
  if Nat.beq pkg n!"encode" then libEncode W.cpu f vs
  else if Nat.beq pkg n!"decode" then libDecode W.cpu f vs
  else if Nat.beq pkg n!"shared" then libShared f vs
  else if Nat.beq pkg n!"writer" then libWriter W.cpu f vs
  else if Nat.beq pkg n!"reader" then libReader W.cpu f vs
  else if Nat.beq pkg n!"util" then libUtil W f vs
  else if Nat.beq pkg n!"reflect" then
    match vs with
    | [.words a, .words b] => if Nat.beq f n!"DeepEqual" then ofBool (call (deepEqualW a b)) else stuck
    | [.bytes a, .bytes b] => if Nat.beq f n!"DeepEqual" then ofBool (call (deepEqualB a b)) else stuck
    | _ => stuck
  else if Nat.beq pkg n!"rand" then
    match vs with
    | [.const n] => if Nat.beq f n!"Intn" && decide (0 < n) then ofInt (randIntn W n.toNat) else stuck
    | _ => stuck
  else if Nat.beq pkg n!"math" then
    match vs with
    | [.int n] => if Nat.beq f n!"Pow10" then pow10 n else stuck
    | _ => stuck
  else if Nat.beq pkg n!"fmt" then if Nat.beq f n!"Sprintf" then pure .str else stuck
  else stuck

/-- Constants of the packages: `/repo/pkg/encode/encode.go:9-11`, `/repo/pkg/shared/mode.go:8-13` and `encoding/binary`. -/
def constant (pkg x : Nat) : Option Val :=
  if Nat.beq pkg n!"encode" && Nat.beq x n!"MaxBytesPerNum" then some (.const 4)
  else if Nat.beq pkg n!"binary" && Nat.beq x n!"MaxVarintLen32" then some (.const 5)
  else if Nat.beq pkg n!"shared" && Nat.beq x n!"Normal" then some (.mode .normal)
  else none

/-! ## Expressions and statements -/

def orStuck (v : Option Val) : M Val :=
  match v with
  | some v => pure v
  | none => stuck

/-- Is `p` the last element of the path? -/
def lastElem (path p : Nat) : Bool :=
  let b := 256 ^ (p.log2 / 8 + 1)
  Nat.beq (path % b) p && (Nat.beq (path / b) 0 || Nat.beq (path / b % 256) 47)

/-- The interpreters of expressions and statements, which call each other. -/
structure Ev where
  eval : Env → Expr → M Val
  evals : Env → List Expr → M (List Val)
  exec : Env → Stmt → M Env
  execs : Env → List Stmt → M Env

def Ev.none : Ev where
  eval _ _ := stuck
  evals _ _ := stuck
  exec _ _ := stuck
  execs _ _ := stuck

/-- The elements of a composite literal. -/
def lits {α : Type} (conv : Val → Option α) : List Val → Option (List α)
  | [] => some []
  | v :: vs => match conv v, lits conv vs with
    | some a, some r => some (a :: r)
    | _, _ => .none

/-- Predeclared functions and conversions. -/
def builtin (W : World) (f : Nat) (vs : List Val) : M Val :=
  match vs with
  | [.u32 v] => if Nat.beq f n!"int" then pure (.int v.toNat) else stuck
  | [.float n] => if Nat.beq f n!"int" then pure (.int n) else stuck
  | [.int n] => if Nat.beq f n!"int64" then pure (.int n) else stuck
  | [.words dst, .words src] => if Nat.beq f n!"copy" then ofUnit (call (copyWords dst src)) else stuck
  | [.const n] =>
    if Nat.beq f n!"uint16" && decide (0 ≤ n) && decide (n < 2 ^ 16) then pure (.u16 (BitVec.ofInt 16 n)) else stuck
  | [.words s, v] => if Nat.beq f n!"append" then withU32 v fun v => ofWords (alloc (append W s v)) else stuck
  | [.bool b] => if Nat.beq f n!"!" then pure (.bool !b) else stuck
  | _ => stuck

def isBuiltin (f : Nat) : Bool := [n!"append", n!"copy", n!"int", n!"int64", n!"uint16", n!"!"].any (Nat.beq f)

/-- `make(T, n)` -/
def mk (t : Ty) (v : Val) : M Val :=
  match t with
  | .slice (.named e) =>
    if Nat.beq e n!"byte" then withInt v fun n => ofBytes (alloc fun b => makeBytes b n)
    else if Nat.beq e n!"uint32" then withInt v fun n => ofWords (alloc fun b => makeWords b n)
    else stuck
  | _ => stuck

def evalStep (W : World) (F : File) (r : Ev) (env : Env) : Expr → M Val
  | .num n => pure (.const n)
  | .str _ => pure .str
  | .var x => match env.get x with
    | some v => pure v
    | .none => orStuck (constant F.pkg x)
  | .dot (.var p) x =>
    match env.get p with
    | some (.bench n) => if Nat.beq x n!"N" then pure (.int n) else stuck
    | _ =>
    if (env.get p).isNone && F.imports.any (lastElem · p) then orStuck (constant p x) else stuck
  | .bin op a b => do
    let x ← r.eval env a
    let y ← r.eval env b
    orStuck (binop op x y)
  | .index a i => do
    let x ← r.eval env a
    let n ← r.eval env i
    match x, n with
    | .words s, .int n => call (getW s n) >>= fun v => pure (.u32 v)
    | _, _ => stuck
  | .slice a .none (some i) => do
    let x ← r.eval env a
    let n ← r.eval env i
    match x with
    | .bytes s => withInt n fun n => ofBytes (call (s.range 0 n))
    | .words s => withInt n fun n => ofWords (call (s.range 0 n))
    | _ => stuck
  | .lit (.slice (.named e)) es =>
    if es.all fun p => Nat.beq p.1 0 then do
      let vs ← r.evals env (es.map (·.2))
      if Nat.beq e n!"byte" then
        match lits Val.byte? vs with
        | some l => ofBytes (alloc (litBytes l))
        | .none => stuck
      else if Nat.beq e n!"uint32" then
        match lits Val.u32? vs with
        | some l => ofWords (alloc (litWords l))
        | .none => stuck
      else stuck
    else stuck
  | .call (.var f) [.type t, n] false =>
    if Nat.beq f n!"make" && (env.get f).isNone then do
      let v ← r.eval env n
      mk t v
    else stuck
  | .call (.var f) as false =>
    if (env.get f).isNone then do
      let vs ← r.evals env as
      if isBuiltin f then builtin W f vs else lib W F.pkg f vs
    else stuck
  | .call (.dot (.var p) f) as false =>
    if (env.get p).isNone && F.imports.any (lastElem · p) then do
      let vs ← r.evals env as
      lib W p f vs
    else stuck
  | _ => stuck

def evalsStep (r : Ev) (env : Env) : List Expr → M (List Val)
  | [] => pure []
  | e :: es => do
    let v ← r.eval env e
    let vs ← r.evals env es
    return v :: vs

/-- A `for` loop with at most `fuel` iterations. -/
def forLoop (cond : Env → M Val) (post body : Env → M Env) : Nat → Env → M Env
  | 0, _ => stuck
  | fuel + 1, env => do
    let v ← cond env
    match v with
    | .bool b =>
      let again : M Env := do
        let env' ← body env
        let env' ← post (env'.leave env)
        forLoop cond post body fuel env'
      branch b again (pure env)
    | _ => stuck

/-- A method of `*testing.T`. -/
def method (r : Ev) (env : Env) (f : Nat) (as : List Expr) : M Env :=
  if Nat.beq f n!"Fatalf" then fatal
  else if Nat.beq f n!"Skipf" then skip
  else if Nat.beq f n!"Run" then
    match as with
    | [n, .func [(t, .ptr (.qual p q))] [] body] =>
      if Nat.beq p n!"testing" && Nat.beq q n!"T" then do
        let _ ← r.eval env n
        subtest (r.execs ((t, .testing) :: env) body >>= fun _ => pure ())
        return env
      else stuck
    | _ => stuck
  else stuck

/-- The function passed to `b.Run`, run for each of the values of `b.N`. -/
def eachRound (f : Nat → Env → M Env) : List Nat → Env → M Env
  | [], env => pure env
  | n :: ns, env => do
    let env' ← f n env
    eachRound f ns env'

/-- `b.Run(name, func(b *testing.B) { … })`: with the values of `b.N` for the present state.  The function must not end early. -/
def runRounds (W : World) (f : Nat → Env → M Env) (env : Env) : M Env := fun _ k s =>
  eachRound f (W.rounds s) env (fun _ => .panic .fault) k s

/-- A method of `*testing.B`. -/
def benchMethod (W : World) (r : Ev) (env : Env) (f : Nat) (as : List Expr) : M Env :=
  if Nat.beq f n!"Skipf" then skip
  else if Nat.beq f n!"ResetTimer" then
    match as with
    | [] => pure env
    | _ => stuck
  else if Nat.beq f n!"SetBytes" then
    match as with
    | [e] => do
      let v ← r.eval env e
      match v with
      | .int n => do
        setBytes n
        return env
      | _ => stuck
    | _ => stuck
  else if Nat.beq f n!"Run" then
    match as with
    | [n, .func [(b, .ptr (.qual p q))] [] body] =>
      if Nat.beq p n!"testing" && Nat.beq q n!"B" then do
        let _ ← r.eval env n
        runRounds W (fun n env => do
          let env' ← r.execs ((b, .bench n) :: env) body
          return env'.leave env) env
      else stuck
    | _ => stuck
  else stuck

/-- The value of a variable that is declared without one. -/
def zeroVal (t : Ty) : Option Val :=
  match t with
  | .named e => if Nat.beq e n!"uint16" then some (.u16 0) else .none
  | .slice _ => some .nil
  | _ => .none

def execStep (W : World) (F : File) (fuel : Nat) (r : Ev) (env : Env) : Stmt → M Env
  | .define [x] e => do
    let v ← r.eval env e
    return (x, v.settle) :: env
  | .var x (some t) .none =>
    match zeroVal t with
    | some v => pure ((x, v) :: env)
    | .none => stuck
  | .assign [.var x] e => do
    let v ← r.eval env e
    match env.get x with
    | some _ => pure (env.set x v.settle)
    | .none =>
      if F.vars.any (fun p => Nat.beq p.1 x) then do
        setSink x v.settle
        return env
      else stuck
  | .assign [.index (.var x) i] e => do
    let n ← r.eval env i
    let v ← r.eval env e
    match env.get x, n with
    | some (.words s), .int n =>
      match v.u32? with
      | some v => do
        call (setW s n v)
        return env
      | .none => stuck
    | _, _ => stuck
  | .update op (.var x) e => do
    let v ← r.eval env e
    match env.get x with
    | some w =>
      let u ← orStuck (binop op w v)
      return env.set x u
    | .none => stuck
  | .ite [] c thn [] => do
    let v ← r.eval env c
    match v with
    | .bool b => branch b (r.execs env thn >>= fun env' => pure (env'.leave env)) (pure env)
    | _ => stuck
  | .loop [i] c [p] body => do
    let env' ← r.exec env i
    let env' ← forLoop (r.eval · c) (r.exec · p) (r.execs · body) fuel env'
    return env'.leave env
  | .expr (.call (.dot (.var t) f) as false) =>
    match env.get t with
    | some .testing => method r env f as
    | some (.bench _) => benchMethod W r env f as
    | some _ => stuck
    | .none => r.eval env (.call (.dot (.var t) f) as false) >>= fun _ => pure env
  | .expr e => r.eval env e >>= fun _ => pure env
  | _ => stuck

def execsStep (r : Ev) (env : Env) : List Stmt → M Env
  | [] => pure env
  | s :: ss => do
    let env' ← r.exec env s
    r.execs env' ss

/-- Nesting depth; a list counts with its length. -/
def ev (W : World) (F : File) (fuel : Nat) : Nat → Ev
  | 0 => .none
  | d + 1 =>
    let r := ev W F fuel d
    { eval := evalStep W F r, evals := evalsStep r, exec := execStep W F fuel r, execs := execsStep r }

/-- The test `name` of a file, run in a state. -/
def test (W : World) (F : File) (name : Nat) (s : St) : Prog St :=
  match F.funcs.find? fun f => Nat.beq f.name name with
  | some ⟨_, [(t, .ptr (.qual p q))], [], body⟩ =>
    if Nat.beq p n!"testing" && Nat.beq q n!"T" then
      (ev W F 10 60).execs [(t, .testing)] body .ret (fun _ s => .ret s) s
    else .panic .fault
  | _ => .panic .fault

/-- The benchmark `name` of a file, run in a state with a value of `b.N`. -/
def bench (W : World) (F : File) (fuel name n : Nat) (s : St) : Prog St :=
  match F.funcs.find? fun f => Nat.beq f.name name with
  | some ⟨_, [(b, .ptr (.qual p q))], [], body⟩ =>
    if Nat.beq p n!"testing" && Nat.beq q n!"B" then
      (ev W F fuel 60).execs [(b, .bench n)] body .ret (fun _ s => .ret s) s
    else .panic .fault
  | _ => .panic .fault

end SVB.Tests
