import Verif.Model.FlatRun

/-!
# Memory accesses on flat memory

Which addresses the instructions of `Model/Flat.lean` and the executions of `Model/FlatRun.lean` read and write, and memory
protection: a processor with pages, of which some cannot be read and some cannot be written.
-/

set_option autoImplicit false

namespace SVB.Flat
open Asm

/-- One byte read or written. -/
inductive Acc
  | rd (a : Addr)
  | wr (a : Addr)
  deriving DecidableEq

/-- `n` bytes from address `a` on. -/
def rdN (a : Addr) (n : Nat) : List Acc := (List.range n).map fun k => .rd (a + BitVec.ofNat 64 k)
def wrN (a : Addr) (n : Nat) : List Acc := (List.range n).map fun k => .wr (a + BitVec.ofNat 64 k)

/-- The data accesses of an instruction: operand sizes of the Intel SDM, volume 2. -/
def faccs (t : Mach) : Instr → List Acc
  | .MOVQ_arg off _ => rdN (t.arg off) 8
  | .MOVWQZX_arg off _ => rdN (t.arg off) 2
  | .MOVBQZX_mem b _ => rdN (t.gp b) 1
  | .MOVW_ret _ off => wrN (t.arg off) 2
  | .VLDDQU disp b _ => rdN (t.gp b + BitVec.ofNat 64 disp) 16
  | .VMOVDQU _ disp b => wrN (t.gp b + BitVec.ofNat 64 disp) 16
  | .VPBROADCASTW sym _ => rdN (t.sb sym) 2
  | .VBROADCASTSS_arg off _ => rdN (t.arg off) 4
  | .VPSHUFB b _ _ => rdN (t.gp b) 16
  | .MOVQ .. | .MOVWQZX .. | .MOVBQZX .. | .SHLQ .. | .SHRQ .. | .ADDQ .. | .VPMINUB .. | .VPACKUSWB .. | .VPMINSW .. | .VPADDUSW ..
  | .VPMOVMSKB .. | .VPALIGNR .. | .VPSUBD .. | .VPADDD .. | .VPSLLDQ .. | .VPSHUFD .. => []

/-- The data accesses of straight-line code. -/
def ftrace (t : Mach) : List Instr → List Acc
  | [] => []
  | i :: is => faccs t i ++ ftrace (fstep t i) is

/-- Some execution (the rules of `FRun`, not necessarily up to the end) makes this access. -/
inductive FAcc (L : Layout) (stk : Addr → Prop) : {α : Type} → Prog α → FMem → Acc → Prop
  | load {α : Type} {p : Ptr} {k : Byte → Prog α} {mem : FMem} (hp : asmOnly p.blk = false) :
      FAcc L stk (.load p k) mem (.rd (L.addr p))
  | loadThen {α : Type} {p : Ptr} {k : Byte → Prog α} {mem : FMem} {x : Acc} (hp : asmOnly p.blk = false)
      (h : FAcc L stk (k (mem (L.addr p))) mem x) : FAcc L stk (.load p k) mem x
  | store {α : Type} {p : Ptr} {v : Byte} {k : Prog α} {mem : FMem} : FAcc L stk (.store p v k) mem (.wr (L.addr p))
  | storeThen {α : Type} {p : Ptr} {v : Byte} {k : Prog α} {mem : FMem} {x : Acc}
      (h : FAcc L stk k (fun q => if q = L.addr p then v else mem q) x) : FAcc L stk (.store p v k) mem x
  | put8 {α : Type} {inn : U32s} {out : Bytes} {k : U16 → Prog α} {mem : FMem} {x : Acc} {t : Mach}
      (he : Entry L stk (put8Args inn out) 66 mem t) (h : x ∈ ftrace t put8uint32FastText) :
      FAcc L stk ((put8uint32Fast inn out).bind k) mem x
  | put8Then {α : Type} {inn : U32s} {out : Bytes} {k : U16 → Prog α} {mem : FMem} {x : Acc} {t : Mach}
      (he : Entry L stk (put8Args inn out) 66 mem t)
      (h : FAcc L stk (k (readLE (fexec t put8uint32FastText).mem (t.arg 64) 2)) (fexec t put8uint32FastText).mem x) :
      FAcc L stk ((put8uint32Fast inn out).bind k) mem x
  | put8Delta {α : Type} {inn : U32s} {out : Bytes} {prev : U32} {k : U16 → Prog α} {mem : FMem} {x : Acc} {t : Mach}
      (he : Entry L stk (put8DeltaArgs inn out prev) 74 mem t) (h : x ∈ ftrace t put8uint32DeltaFastText) :
      FAcc L stk ((put8uint32DeltaFast inn out prev).bind k) mem x
  | put8DeltaThen {α : Type} {inn : U32s} {out : Bytes} {prev : U32} {k : U16 → Prog α} {mem : FMem} {x : Acc} {t : Mach}
      (he : Entry L stk (put8DeltaArgs inn out prev) 74 mem t)
      (h : FAcc L stk (k (readLE (fexec t put8uint32DeltaFastText).mem (t.arg 72) 2)) (fexec t put8uint32DeltaFastText).mem x) :
      FAcc L stk ((put8uint32DeltaFast inn out prev).bind k) mem x
  | get8 {α : Type} {inn : Bytes} {out : U32s} {ctrl : U16} {k : Unit → Prog α} {mem : FMem} {x : Acc} {t : Mach}
      (he : Entry L stk (get8Args inn out ctrl) 72 mem t) (h : x ∈ ftrace t get8uint32FastText) :
      FAcc L stk ((get8uint32Fast inn out ctrl).bind k) mem x
  | get8Then {α : Type} {inn : Bytes} {out : U32s} {ctrl : U16} {k : Unit → Prog α} {mem : FMem} {x : Acc} {t : Mach}
      (he : Entry L stk (get8Args inn out ctrl) 72 mem t) (h : FAcc L stk (k ()) (fexec t get8uint32FastText).mem x) :
      FAcc L stk ((get8uint32Fast inn out ctrl).bind k) mem x
  | get8Delta {α : Type} {inn : Bytes} {out : U32s} {ctrl : U16} {prev : U32} {k : Unit → Prog α} {mem : FMem} {x : Acc} {t : Mach}
      (he : Entry L stk (get8DeltaArgs inn out ctrl prev) 72 mem t) (h : x ∈ ftrace t get8uint32DeltaFastText) :
      FAcc L stk ((get8uint32DeltaFast inn out ctrl prev).bind k) mem x
  | get8DeltaThen {α : Type} {inn : Bytes} {out : U32s} {ctrl : U16} {prev : U32} {k : Unit → Prog α} {mem : FMem} {x : Acc}
      {t : Mach} (he : Entry L stk (get8DeltaArgs inn out ctrl prev) 72 mem t)
      (h : FAcc L stk (k ()) (fexec t get8uint32DeltaFastText).mem x) :
      FAcc L stk ((get8uint32DeltaFast inn out ctrl prev).bind k) mem x

/-! ## Pages -/

def pageSize : Nat := 4096
/-- The page of an address. -/
def page (a : Addr) : Nat := a.toNat / pageSize

/-- Which pages may be read and which may be written. -/
structure Pages where
  r : Nat → Prop
  w : Nat → Prop

/-- The access does not fault. -/
def Pages.allow (P : Pages) : Acc → Prop
  | .rd a => P.r (page a)
  | .wr a => P.w (page a)

/-- The stack can be read and written. -/
def Pages.stack (P : Pages) (stk : Addr → Prop) : Prop := ∀ a, stk a → P.r (page a) ∧ P.w (page a)
/-- These bytes can be read. -/
def Pages.reads (P : Pages) (L : Layout) (R : Ptr → Prop) : Prop := ∀ q, R q → P.r (page (L.addr q))
/-- These bytes can be written. -/
def Pages.writes (P : Pages) (L : Layout) (W : Ptr → Prop) : Prop := ∀ q, W q → P.w (page (L.addr q))

end SVB.Flat
