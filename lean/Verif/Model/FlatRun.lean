import Verif.Model.Flat

/-!
# The library on flat memory

The Go functions on the memory of `Model/Flat.lean`: a byte of an allocation is the byte at its address, and a call of an assembly
function puts the arguments on the stack (`/repo/pkg/encode/encode_amd64.go:195-198, 212-215`,
`/repo/pkg/decode/decode_amd64.go:47-50, 64-67`), executes its instructions with whatever is in the registers, and takes the result
from the stack.
-/

set_option autoImplicit false

namespace SVB.Flat
open Asm

/-- At the first instruction of a function called with the arguments `fr`, when the memory is `mem`: the machine's memory differs
from it only on the stack, the `n` bytes of arguments and result are on the stack, and the arguments are there.  The registers
and the rest of the stack may hold anything. -/
structure Entry (L : Layout) (stk : Addr → Prop) (fr : Frame) (n : Nat) (mem : FMem) (t : Mach) : Prop where
  mem : ∀ q, ¬ stk q → t.mem q = mem q
  room : ∀ k < n, stk (t.fp + BitVec.ofNat 64 k)
  frame : ∀ off sl, fr.get off = some sl → L.holds t.mem (t.arg off) sl
  sb : ∀ b : Block, b.isConst = true → t.sb b = L.base b

/-- The constants no Go code reads: the shuffle tables, of which the assembly gets the addresses, and the assembly's masks. -/
def asmOnly : Block → Bool
  | .encShuf | .decShuf | .mask0101 | .mask7F00 => true
  | _ => false

/-- The executions of a program on flat memory, with the outcome and the memory afterwards.  The last four rules are calls of the
assembly functions.  There is no other way to execute these: the loads of the Go code are not from the shuffle tables. -/
inductive FRun (L : Layout) (stk : Addr → Prop) : {α : Type} → Prog α → FMem → Outcome α → FMem → Prop
  | ret {α : Type} (a : α) (mem : FMem) : FRun L stk (.ret a) mem (.ok a) mem
  | panic {α : Type} (k : Panic) (mem : FMem) : FRun L stk (.panic k : Prog α) mem (.panic k) mem
  | load {α : Type} {p : Ptr} {k : Byte → Prog α} {mem mem' : FMem} {o : Outcome α} (hp : asmOnly p.blk = false)
      (h : FRun L stk (k (mem (L.addr p))) mem o mem') : FRun L stk (.load p k) mem o mem'
  | store {α : Type} {p : Ptr} {v : Byte} {k : Prog α} {mem mem' : FMem} {o : Outcome α}
      (h : FRun L stk k (fun q => if q = L.addr p then v else mem q) o mem') : FRun L stk (.store p v k) mem o mem'
  | put8 {α : Type} {inn : U32s} {out : Bytes} {k : U16 → Prog α} {mem mem' : FMem} {o : Outcome α} {t : Mach}
      (he : Entry L stk (put8Args inn out) 66 mem t)
      (h : FRun L stk (k (readLE (fexec t put8uint32FastText).mem (t.arg 64) 2)) (fexec t put8uint32FastText).mem o mem') :
      FRun L stk ((put8uint32Fast inn out).bind k) mem o mem'
  | put8Delta {α : Type} {inn : U32s} {out : Bytes} {prev : U32} {k : U16 → Prog α} {mem mem' : FMem} {o : Outcome α} {t : Mach}
      (he : Entry L stk (put8DeltaArgs inn out prev) 74 mem t)
      (h : FRun L stk (k (readLE (fexec t put8uint32DeltaFastText).mem (t.arg 72) 2)) (fexec t put8uint32DeltaFastText).mem
        o mem') :
      FRun L stk ((put8uint32DeltaFast inn out prev).bind k) mem o mem'
  | get8 {α : Type} {inn : Bytes} {out : U32s} {ctrl : U16} {k : Unit → Prog α} {mem mem' : FMem} {o : Outcome α} {t : Mach}
      (he : Entry L stk (get8Args inn out ctrl) 72 mem t)
      (h : FRun L stk (k ()) (fexec t get8uint32FastText).mem o mem') :
      FRun L stk ((get8uint32Fast inn out ctrl).bind k) mem o mem'
  | get8Delta {α : Type} {inn : Bytes} {out : U32s} {ctrl : U16} {prev : U32} {k : Unit → Prog α} {mem mem' : FMem}
      {o : Outcome α} {t : Mach}
      (he : Entry L stk (get8DeltaArgs inn out ctrl prev) 72 mem t)
      (h : FRun L stk (k ()) (fexec t get8uint32DeltaFastText).mem o mem') :
      FRun L stk ((get8uint32DeltaFast inn out ctrl prev).bind k) mem o mem'

/-- The bytes of the layout are at different addresses, off the stack, and none of the constants is to be written. -/
structure Fits (L : Layout) (stk : Addr → Prop) : Prop where
  inj : ∀ p q, L.dom p → L.dom q → L.addr p = L.addr q → p = q
  off : ∀ p, L.dom p → ¬ stk (L.addr p)
  heap : ∀ p, L.W p → p.blk.isConst = false

/-- The bytes of the layout are those of `m`. -/
def Shows (L : Layout) (mem : FMem) (m : Mem) : Prop := ∀ p, L.dom p → mem (L.addr p) = m p

/-- The model's view of a flat memory. -/
def Layout.view (L : Layout) (mem : FMem) : Mem := fun p => mem (L.addr p)

/-- Nothing has changed but bytes to be written and the stack. -/
def Still (L : Layout) (stk : Addr → Prop) (mem mem' : FMem) : Prop :=
  ∀ q, (∀ p, L.W p → L.addr p ≠ q) → ¬ stk q → mem' q = mem q

/-- The stack has room for arguments and result of an assembly function. -/
def Room (stk : Addr → Prop) : Prop := ∃ fp : Addr, ∀ k < 74, stk (fp + BitVec.ofNat 64 k)

end SVB.Flat
