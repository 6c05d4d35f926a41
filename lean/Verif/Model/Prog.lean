/-!
# Memory, programs and their execution

The run-time the Go code of `/repo` is modelled on.  Nothing in this file is specific to Stream VByte.

* Memory is a total map from addresses to bytes.  An address is a block (one allocation) plus a byte
  offset, so distinct allocations never overlap and "past the end of an allocation" is an address of
  the same block with unknown contents.
* A Go function is a `Prog α`: a tree of single-byte loads and stores that ends in a value or a panic.
* `run` executes a program, `trace` lists every address it touches.
-/

namespace SVB

abbrev Byte := BitVec 8
abbrev U16 := BitVec 16
abbrev U32 := BitVec 32
abbrev U64 := BitVec 64

/-- Allocations.  The named ones are the package-level variables of
`/repo/pkg/shared/tables.go` (lines 5, 72, 107, 622) and the read-only data of
`/repo/pkg/encode/encode_amd64.s:5-9`; every other allocation is a `heap` block. -/
inductive Block where
  | encShuf
  | decShuf
  | ctrlLen
  | numLen
  | mask0101
  | mask7F00
  | heap (n : Nat)
deriving DecidableEq, Repr

/-- The blocks that hold package-level constants. -/
def Block.isConst : Block → Bool
  | .heap _ => false
  | _ => true

/-- A byte address. -/
structure Ptr where
  blk : Block
  off : Nat
deriving DecidableEq, Repr

def Ptr.add (p : Ptr) (n : Nat) : Ptr := ⟨p.blk, p.off + n⟩

/-- Memory contents.  Total: every address holds some byte. -/
abbrev Mem := Ptr → Byte

def Mem.set (m : Mem) (p : Ptr) (v : Byte) : Mem := fun q => if q = p then v else m q

/-- Why a program stopped without a result.  `index` and `slice` are Go's run-time bounds panics,
`explicit` is a `panic(msg)` in the source.  `fault` (an instruction applied to an operand of the wrong
kind) and `fuel` (a loop ran longer than its declared bound) do not exist in Go: they mark places where
the model would be meaningless, and theorems show they are never reached. -/
inductive Panic where
  | index
  | slice
  | explicit (msg : String)
  | fault
  | fuel
deriving DecidableEq, Repr

/-- Programs: the free monad over single-byte memory accesses. -/
inductive Prog (α : Type) : Type where
  | ret (a : α)
  | panic (k : Panic)
  | load (p : Ptr) (k : Byte → Prog α)
  | store (p : Ptr) (v : Byte) (k : Prog α)

namespace Prog

def bind {α β : Type} : Prog α → (α → Prog β) → Prog β
  | .ret a, f => f a
  | .panic k, _ => .panic k
  | .load p k, f => .load p (fun b => (k b).bind f)
  | .store p v k, f => .store p v (k.bind f)

instance : Monad Prog where
  pure := Prog.ret
  bind := Prog.bind

@[simp] theorem pure_eq {α : Type} (a : α) : (pure a : Prog α) = .ret a := rfl
@[simp] theorem bind_eq {α β : Type} (p : Prog α) (f : α → Prog β) : (p >>= f) = p.bind f := rfl
@[simp] theorem ret_bind {α β : Type} (a : α) (f : α → Prog β) : (Prog.ret a).bind f = f a := rfl
@[simp] theorem panic_bind {α β : Type} (k : Panic) (f : α → Prog β) :
    (Prog.panic k).bind f = .panic k := rfl

theorem bind_assoc {α β γ : Type} (p : Prog α) (f : α → Prog β) (g : β → Prog γ) :
    (p.bind f).bind g = p.bind (fun a => (f a).bind g) := by
  induction p with
  | ret a => rfl
  | panic k => rfl
  | load p k ih => simp only [bind]; congr; funext b; exact ih b
  | store p v k ih => simp only [bind]; congr

end Prog

/-- How a program ended. -/
inductive Outcome (α : Type) where
  | ok (a : α)
  | panic (k : Panic)
deriving DecidableEq, Repr

/-- Sequential execution: outcome and final memory (also after a panic). -/
def run {α : Type} : Prog α → Mem → Outcome α × Mem
  | .ret a, m => (.ok a, m)
  | .panic k, m => (.panic k, m)
  | .load p k, m => run (k (m p)) m
  | .store p v k, m => run k (m.set p v)

/-- A memory access. -/
inductive Event where
  | rd (p : Ptr)
  | wr (p : Ptr)
deriving DecidableEq, Repr

/-- All memory accesses of a sequential execution, in order. -/
def trace {α : Type} : Prog α → Mem → List Event
  | .ret _, _ => []
  | .panic _, _ => []
  | .load p k, m => .rd p :: trace (k (m p)) m
  | .store p v k, m => .wr p :: trace k (m.set p v)

/-- A while loop with an explicit bound on the number of iterations.  Running out of `fuel` is the
special panic `.fuel`, so a theorem that excludes it proves termination. -/
def loop {σ : Type} (fuel : Nat) (cond : σ → Bool) (body : σ → Prog σ) (s : σ) : Prog σ :=
  if cond s then
    match fuel with
    | 0 => .panic .fuel
    | n + 1 => body s >>= loop n cond body
  else .ret s

/-! ## Slices -/

/-- A Go slice of elements of `esz` bytes: block, byte offset of element 0, length and capacity (in
elements). -/
structure Slice (esz : Nat) where
  blk : Block
  off : Nat
  len : Nat
  cap : Nat
deriving DecidableEq, Repr

/-- `[]byte` -/
abbrev Bytes := Slice 1
/-- `[]uint32` (little-endian in memory, as on amd64) -/
abbrev U32s := Slice 4

/-- Address of element 0. -/
def Slice.ptr {e : Nat} (s : Slice e) : Ptr := ⟨s.blk, s.off⟩

/-- `s[a:]`; the Go run-time checks `0 ≤ a ≤ len(s)`. -/
def Slice.from {e : Nat} (s : Slice e) (a : Int) : Prog (Slice e) :=
  if 0 ≤ a ∧ a ≤ s.len then
    .ret ⟨s.blk, s.off + e * a.toNat, s.len - a.toNat, s.cap - a.toNat⟩
  else .panic .slice

/-- `s[a:b]`; the Go run-time checks `0 ≤ a ≤ b ≤ cap(s)` (capacity, not length). -/
def Slice.range {e : Nat} (s : Slice e) (a b : Int) : Prog (Slice e) :=
  if 0 ≤ a ∧ a ≤ b ∧ b ≤ s.cap then
    .ret ⟨s.blk, s.off + e * a.toNat, b.toNat - a.toNat, s.cap - a.toNat⟩
  else .panic .slice

/-- One-byte load at a raw address. -/
def load8 (p : Ptr) : Prog Byte := .load p .ret
/-- One-byte store at a raw address. -/
def store8 (p : Ptr) (v : Byte) : Prog Unit := .store p v (.ret ())

/-- Little-endian 32-bit load at a raw address. -/
def load32 (p : Ptr) : Prog U32 := do
  let b0 ← load8 p
  let b1 ← load8 (p.add 1)
  let b2 ← load8 (p.add 2)
  let b3 ← load8 (p.add 3)
  return b3 ++ b2 ++ b1 ++ b0

/-- Little-endian 32-bit store at a raw address. -/
def store32 (p : Ptr) (v : U32) : Prog Unit := do
  store8 p (v.extractLsb' 0 8)
  store8 (p.add 1) (v.extractLsb' 8 8)
  store8 (p.add 2) (v.extractLsb' 16 8)
  store8 (p.add 3) (v.extractLsb' 24 8)

/-- `s[i]` for `[]byte`, as a value. -/
def getB (s : Bytes) (i : Int) : Prog Byte :=
  if 0 ≤ i ∧ i < s.len then load8 ⟨s.blk, s.off + i.toNat⟩ else .panic .index

/-- `s[i] = v` for `[]byte`. -/
def setB (s : Bytes) (i : Int) (v : Byte) : Prog Unit :=
  if 0 ≤ i ∧ i < s.len then store8 ⟨s.blk, s.off + i.toNat⟩ v else .panic .index

/-- `s[i]` for `[]uint32`, as a value. -/
def getW (s : U32s) (i : Int) : Prog U32 :=
  if 0 ≤ i ∧ i < s.len then load32 ⟨s.blk, s.off + 4 * i.toNat⟩ else .panic .index

/-- `s[i] = v` for `[]uint32`. -/
def setW (s : U32s) (i : Int) (v : U32) : Prog Unit :=
  if 0 ≤ i ∧ i < s.len then store32 ⟨s.blk, s.off + 4 * i.toNat⟩ v else .panic .index

/-- Store `n` zero bytes from `p` on. -/
def zeroFill (p : Ptr) : Nat → Prog Unit
  | 0 => .ret ()
  | n + 1 => store8 p 0 >>= fun _ => zeroFill (p.add 1) n

/-- `make([]byte, n)`.  The allocator is modelled by the caller handing in the block the run-time would
return; theorems assume it is fresh (used by nobody else) where that matters. -/
def makeBytes (fresh : Block) (n : Int) : Prog Bytes :=
  if 0 ≤ n then do
    zeroFill ⟨fresh, 0⟩ n.toNat
    return ⟨fresh, 0, n.toNat, n.toNat⟩
  else .panic .slice

/-! ## 64-bit `int` -/

/-- The `int` value of an integer computation: wrap-around to 64-bit two's complement. -/
def int64 (x : Int) : Int := (BitVec.ofInt 64 x).toInt

/-- Go's `x &^ y` on 64-bit `int`. -/
def andNot (x y : Int) : Int := (BitVec.ofInt 64 x &&& ~~~ BitVec.ofInt 64 y).toInt

/-- Go's `x / y` on `int`: truncates toward zero. -/
def goDiv (x y : Int) : Int := Int.tdiv x y

end SVB
