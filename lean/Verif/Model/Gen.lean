import Verif.Model.Asm

/-!
# Model of the assembly generators

`/repo/pkg/encode/main/asm.go`, `/repo/pkg/decode/main/asm.go`, `/repo/pkg/shared/asm.go`: Go programs that use the
package `avo` to print `encode_amd64.s` and `decode_amd64.s`.  They emit instructions over virtual registers; `avo`
lays out the argument frame and chooses the physical registers.

Not modelled: `avo` itself.  What is assumed of it: `GP64()`, `GP32()` and `XMM()` make a new register; an instruction
function appends that instruction; `Load(Param(x), r)` is `MOVQ` for a pointer, slice base or other 8-byte parameter
and `MOVWQZX` for a `uint16` into a 64-bit register; `Store(r, Return(x))` of a `uint16` is `MOVW`; and parameters are
laid out by the rules of Go's ABI0.  `As8`, `As8L`, `As16` name the low bits of a register, which here is part of the
instruction (`MOVBQZX`, `MOVWQZX`, `MOVW`).
-/

set_option autoImplicit false

namespace SVB.Gen
open Asm

/-! ## Instructions over any kind of registers -/

/-- The instructions of `Asm.Instr` with registers of type `G` and `X`. -/
inductive GInstr (G X : Type) where
  | MOVQ_arg (off : Nat) (dst : G)
  | MOVQ (src dst : G)
  | MOVWQZX_arg (off : Nat) (dst : G)
  | MOVWQZX (src dst : G)
  | MOVBQZX (src dst : G)
  | MOVBQZX_mem (base dst : G)
  | MOVW_ret (src : G) (off : Nat)
  | SHLQ (imm : Nat) (dst : G)
  | SHRQ (imm : Nat) (dst : G)
  | ADDQ (src dst : G)
  | VLDDQU (disp : Nat) (base : G) (dst : X)
  | VMOVDQU (src : X) (disp : Nat) (base : G)
  | VPBROADCASTW (sym : Block) (dst : X)
  | VBROADCASTSS_arg (off : Nat) (dst : X)
  | VPMINUB (src2 src1 dst : X)
  | VPACKUSWB (src2 src1 dst : X)
  | VPMINSW (src2 src1 dst : X)
  | VPADDUSW (src2 src1 dst : X)
  | VPMOVMSKB (src : X) (dst : G)
  | VPSHUFB (mask : G) (src dst : X)
  | VPALIGNR (imm : Nat) (src2 src1 dst : X)
  | VPSUBD (src2 src1 dst : X)
  | VPADDD (src2 src1 dst : X)
  | VPSLLDQ (imm : Nat) (src dst : X)
  | VPSHUFD (imm : Nat) (src dst : X)
deriving DecidableEq

/-- With physical registers `f`, `g` for the registers of `G`, `X`: an instruction of the processor. -/
def GInstr.on {G X : Type} (f : G → GP) (g : X → XR) : GInstr G X → Instr
  | .MOVQ_arg o d => .MOVQ_arg o (f d)
  | .MOVQ a d => .MOVQ (f a) (f d)
  | .MOVWQZX_arg o d => .MOVWQZX_arg o (f d)
  | .MOVWQZX a d => .MOVWQZX (f a) (f d)
  | .MOVBQZX a d => .MOVBQZX (f a) (f d)
  | .MOVBQZX_mem a d => .MOVBQZX_mem (f a) (f d)
  | .MOVW_ret a o => .MOVW_ret (f a) o
  | .SHLQ n d => .SHLQ n (f d)
  | .SHRQ n d => .SHRQ n (f d)
  | .ADDQ a d => .ADDQ (f a) (f d)
  | .VLDDQU n b d => .VLDDQU n (f b) (g d)
  | .VMOVDQU a n b => .VMOVDQU (g a) n (f b)
  | .VPBROADCASTW s d => .VPBROADCASTW s (g d)
  | .VBROADCASTSS_arg o d => .VBROADCASTSS_arg o (g d)
  | .VPMINUB b a d => .VPMINUB (g b) (g a) (g d)
  | .VPACKUSWB b a d => .VPACKUSWB (g b) (g a) (g d)
  | .VPMINSW b a d => .VPMINSW (g b) (g a) (g d)
  | .VPADDUSW b a d => .VPADDUSW (g b) (g a) (g d)
  | .VPMOVMSKB a d => .VPMOVMSKB (g a) (f d)
  | .VPSHUFB m a d => .VPSHUFB (f m) (g a) (g d)
  | .VPALIGNR n b a d => .VPALIGNR n (g b) (g a) (g d)
  | .VPSUBD b a d => .VPSUBD (g b) (g a) (g d)
  | .VPADDD b a d => .VPADDD (g b) (g a) (g d)
  | .VPSLLDQ n a d => .VPSLLDQ n (g a) (g d)
  | .VPSHUFD n a d => .VPSHUFD n (g a) (g d)

/-- Machine state with registers of any kind; compare `Asm.St`. -/
structure GSt (G X : Type) where
  gp : G → Val
  x : X → Vec
  res : List (Nat × U16)

section
variable {G X : Type} [DecidableEq G] [DecidableEq X]

def GSt.setGP (s : GSt G X) (r : G) (v : Val) : GSt G X := { s with gp := fun q => if q = r then v else s.gp q }
def GSt.setX (s : GSt G X) (r : X) (v : Vec) : GSt G X := { s with x := fun q => if q = r then v else s.x q }

/-- One instruction; the text of `Asm.step`.  `step_holds` in `Proofs/Gen.lean` proves that it does what `Asm.step` does
to the physical registers that stand for these. -/
def gstep (fr : Frame) (s : GSt G X) : GInstr G X → Prog (GSt G X)
  | .MOVQ_arg off d =>
    match fr.get off with
    | some (.ptr p) => return s.setGP d (.ptr p)
    | some (.q v) => return s.setGP d (.int v)
    | _ => .panic .fault
  | .MOVQ a d => return s.setGP d (s.gp a)
  | .MOVWQZX_arg off d =>
    match fr.get off with
    | some (.w v) => return s.setGP d (.int (v.setWidth 64))
    | _ => .panic .fault
  | .MOVWQZX a d =>
    match s.gp a with
    | .int v => return s.setGP d (.int ((v.setWidth 16).setWidth 64))
    | _ => .panic .fault
  | .MOVBQZX a d =>
    match s.gp a with
    | .int v => return s.setGP d (.int ((v.setWidth 8).setWidth 64))
    | _ => .panic .fault
  | .MOVBQZX_mem b d =>
    match s.gp b with
    | .ptr p => do
      let v ← load8 p
      return s.setGP d (.int (v.setWidth 64))
    | _ => .panic .fault
  | .MOVW_ret a off =>
    match s.gp a with
    | .int v => return { s with res := (off, v.setWidth 16) :: s.res }
    | _ => .panic .fault
  | .SHLQ n d =>
    match s.gp d with
    | .int v => return s.setGP d (.int (v <<< n))
    | _ => .panic .fault
  | .SHRQ n d =>
    match s.gp d with
    | .int v => return s.setGP d (.int (v >>> n))
    | _ => .panic .fault
  | .ADDQ a d =>
    match s.gp a, s.gp d with
    | .int v, .int w => return s.setGP d (.int (w + v))
    | .ptr p, .int w => return s.setGP d (.ptr (p.add w.toNat))
    | .int v, .ptr p => return s.setGP d (.ptr (p.add v.toNat))
    | _, _ => .panic .fault
  | .VLDDQU disp b d =>
    match s.gp b with
    | .ptr p => do
      let v ← load16 (p.add disp)
      return s.setX d v
    | _ => .panic .fault
  | .VMOVDQU a disp b =>
    match s.gp b with
    | .ptr p => do
      store16 (p.add disp) (s.x a)
      return s
    | _ => .panic .fault
  | .VPBROADCASTW sym d => do
    let b0 ← load8 ⟨sym, 0⟩
    let b1 ← load8 ⟨sym, 1⟩
    return s.setX d (of16 fun _ => b1 ++ b0)
  | .VBROADCASTSS_arg off d =>
    match fr.get off with
    | some (.d v) => return s.setX d (of32 fun _ => v)
    | _ => .panic .fault
  | .VPMINUB b a d => return s.setX d (fun i => minU8 (s.x a i) (s.x b i))
  | .VPACKUSWB b a d => return s.setX d (fun i =>
      if i < 8 then satU8 (lane16 (s.x a) i) else satU8 (lane16 (s.x b) (i - 8)))
  | .VPMINSW b a d => return s.setX d (of16 fun i => minS16 (lane16 (s.x a) i) (lane16 (s.x b) i))
  | .VPADDUSW b a d => return s.setX d (of16 fun i => addUS16 (lane16 (s.x a) i) (lane16 (s.x b) i))
  | .VPMOVMSKB a d => return s.setGP d (.int (BitVec.ofNat 64 (movmsk (s.x a))))
  | .VPSHUFB b a d =>
    match s.gp b with
    | .ptr p => do
      let mask ← load16 p
      return s.setX d (pshufb mask (s.x a))
    | _ => .panic .fault
  | .VPALIGNR imm b a d => return s.setX d (palignr imm (s.x a) (s.x b))
  | .VPSUBD b a d => return s.setX d (of32 fun i => lane32 (s.x a) i - lane32 (s.x b) i)
  | .VPADDD b a d => return s.setX d (of32 fun i => lane32 (s.x a) i + lane32 (s.x b) i)
  | .VPSLLDQ imm a d => return s.setX d (pslldq imm (s.x a))
  | .VPSHUFD imm a d => return s.setX d (pshufd imm (s.x a))

def gexec (fr : Frame) : List (GInstr G X) → GSt G X → Prog (GSt G X)
  | [], s => .ret s
  | i :: is, s => do
    let s' ← gstep fr s i
    gexec fr is s'

end

/-! ## Signatures -/

/-- The parameter types that occur. -/
inductive Ty where
  | slice
  | ptr
  | u16
  | u32
deriving DecidableEq

def Ty.size : Ty → Nat
  | .slice => 24
  | .ptr => 8
  | .u16 => 2
  | .u32 => 4

def Ty.align : Ty → Nat
  | .slice => 8
  | .ptr => 8
  | .u16 => 2
  | .u32 => 4

def roundUp (n a : Nat) : Nat := (n + a - 1) / a * a

/-- Names, types and offsets of the fields of a structure that starts at offset `o`, and the offset of its end. -/
def layout : Nat → List (String × Ty) → List (String × Ty × Nat) × Nat
  | o, [] => ([], o)
  | o, (s, t) :: l =>
    let r := layout (roundUp o t.align + t.size) l
    ((s, t, roundUp o t.align) :: r.1, r.2)

/-- A function signature. -/
structure Sig where
  params : List (String × Ty)
  results : List (String × Ty)

/-- Parameters from offset 0 on. -/
def Sig.args (s : Sig) : List (String × Ty × Nat) := (layout 0 s.params).1
/-- Results from the next multiple of 8 on. -/
def Sig.rets (s : Sig) : List (String × Ty × Nat) × Nat := layout (roundUp (layout 0 s.params).2 8) s.results
/-- Size of the argument frame: the number after the `-` in the `TEXT` line. -/
def Sig.size (s : Sig) : Nat := s.rets.2

/-- An argument. -/
inductive Arg where
  | slice (p : Ptr) (len cap : Nat)
  | ptr (p : Ptr)
  | u16 (v : U16)
  | u32 (v : U32)

/-- The caller puts an argument at its offset. -/
def slots : Ty × Nat → Arg → Option Frame
  | (.slice, o), .slice p n c =>
    some [(o, .ptr p), (o + 8, .q (BitVec.ofNat 64 n)), (o + 16, .q (BitVec.ofNat 64 c))]
  | (.ptr, o), .ptr p => some [(o, .ptr p)]
  | (.u16, o), .u16 v => some [(o, .w v)]
  | (.u32, o), .u32 v => some [(o, .d v)]
  | _, _ => none

/-- The frame of a call with the given arguments, in the order of the parameters. -/
def frame : List (String × Ty × Nat) → List Arg → Option Frame
  | [], [] => some []
  | (_, to) :: ps, a :: as => do
    let x ← slots to a
    let y ← frame ps as
    return x ++ y
  | _, _ => none

/-! ## The `avo` context -/

/-- Virtual registers are numbered; the code so far. -/
structure Ctx where
  gps : Nat
  xs : Nat
  code : List (GInstr Nat Nat)

/-- A piece of a generator, inside a `TEXT` with a signature.  `none`: `log.Fatalf` or an error of `avo`. -/
abbrev Gen (α : Type) := Sig → Ctx → Option (α × Ctx)

instance : Monad Gen where
  pure a := fun _ c => some (a, c)
  bind p f := fun s c => match p s c with
    | some (a, c') => f a s c'
    | none => none

/-- `GP64()`, `GP32()` -/
def newGP : Gen Nat := fun _ c => some (c.gps, { c with gps := c.gps + 1 })
/-- `XMM()` -/
def newX : Gen Nat := fun _ c => some (c.xs, { c with xs := c.xs + 1 })
/-- An instruction function. -/
def emit (i : GInstr Nat Nat) : Gen Unit := fun _ c => some ((), { c with code := c.code ++ [i] })
/-- `Param(name).Resolve()` of a `uint32`: its offset. -/
def paramU32 (name : String) : Gen Nat := fun s c =>
  match s.args.lookup name with
  | some (.u32, o) => some (o, c)
  | _ => none
/-- `Load(Param(name).Base(), r)` of a slice. -/
def loadBase (name : String) (r : Nat) : Gen Nat := fun s c =>
  match s.args.lookup name with
  | some (.slice, o) => some (r, { c with code := c.code ++ [.MOVQ_arg o r] })
  | _ => none
/-- `Load(Param(name), r)` of a pointer or a `uint16`, with `r` a 64-bit register. -/
def load (name : String) (r : Nat) : Gen Nat := fun s c =>
  match s.args.lookup name with
  | some (.ptr, o) => some (r, { c with code := c.code ++ [.MOVQ_arg o r] })
  | some (.u16, o) => some (r, { c with code := c.code ++ [.MOVWQZX_arg o r] })
  | _ => none
/-- `Store(r.As16(), Return(name))` -/
def store (r : Nat) (name : String) : Gen Unit := fun s c =>
  match s.rets.1.lookup name with
  | some (.u16, o) => some ((), { c with code := c.code ++ [.MOVW_ret r o] })
  | _ => none

/-- `TEXT(name, NOSPLIT, signature)` and what follows. -/
def text (sig : Sig) (body : Gen Unit) : Option (List (GInstr Nat Nat)) := (body sig ⟨0, 0, []⟩).map fun r => r.2.code

/-! ## `/repo/pkg/shared/asm.go` -/

/-- `CalculateShuffleAddrFromCtrl`, `/repo/pkg/shared/asm.go:9-23`.  The result is the base register of the memory
operand. -/
def calculateShuffleAddrFromCtrl (shuffleBase ctrl : Nat) (upper : Bool) : Gen Nat := do
  let addr ← newGP
  if upper then
    emit (.MOVWQZX ctrl addr)
    emit (.SHRQ 8 addr)
  else
    emit (.MOVBQZX ctrl addr)
  emit (.SHLQ 4 addr)
  emit (.ADDQ shuffleBase addr)
  return addr

/-- `LenValueAddr`, `/repo/pkg/shared/asm.go:25-37`.  Both results are `lenValueAddr`. -/
def lenValueAddr (ctrl : Nat) (upper : Bool) (lenTableParam : String) : Gen (Nat × Nat) := do
  let lenTableBase ← newGP
  let lenTableBase ← load lenTableParam lenTableBase
  let lenValueAddr ← newGP
  if upper then
    emit (.MOVWQZX ctrl lenValueAddr)
    emit (.SHRQ 8 lenValueAddr)
  else
    emit (.MOVBQZX ctrl lenValueAddr)
  emit (.ADDQ lenTableBase lenValueAddr)
  return (lenValueAddr, lenValueAddr)

/-- `Load8`, `/repo/pkg/shared/asm.go:39-49`. -/
def load8 (paramName : String) : Gen (Nat × Nat) := do
  let r ← newGP
  let arrBase ← loadBase paramName r
  let firstFour ← newX
  let secondFour ← newX
  emit (.VLDDQU 0 arrBase firstFour)
  emit (.VLDDQU 16 arrBase secondFour)
  return (firstFour, secondFour)

/-! ## `/repo/pkg/encode/main/asm.go` -/

namespace Enc

/-- `signature`, `/repo/pkg/encode/main/asm.go:25-27`. -/
def signature : Sig :=
  ⟨[("in", .slice), ("outBytes", .slice), ("shuffle", .ptr), ("lenTable", .ptr)], [("r", .u16)]⟩
/-- `signatureDelta`, `/repo/pkg/encode/main/asm.go:29-31`. -/
def signatureDelta : Sig :=
  ⟨[("in", .slice), ("outBytes", .slice), ("prev", .u32), ("shuffle", .ptr), ("lenTable", .ptr)], [("r", .u16)]⟩

/-- `coreAlgorithm`, `/repo/pkg/encode/main/asm.go:68-108`. -/
def coreAlgorithm (firstFour secondFour : Nat) : Gen Unit := do
  let onesMask ← newX
  let sevenFzerozero ← newX
  emit (.VPBROADCASTW .mask0101 onesMask)
  emit (.VPBROADCASTW .mask7F00 sevenFzerozero)
  let minFirstFour ← newX
  let minSecondFour ← newX
  emit (.VPMINUB onesMask firstFour minFirstFour)
  emit (.VPMINUB onesMask secondFour minSecondFour)
  emit (.VPACKUSWB minSecondFour minFirstFour minFirstFour)
  emit (.VPMINSW onesMask minFirstFour minFirstFour)
  emit (.VPADDUSW sevenFzerozero minFirstFour minFirstFour)
  let ctrl ← newGP
  emit (.VPMOVMSKB minFirstFour ctrl)
  store ctrl "r"
  let r ← newGP
  let shuffleBase ← load "shuffle" r
  let firstShuffle ← calculateShuffleAddrFromCtrl shuffleBase ctrl false
  let secondShuffle ← calculateShuffleAddrFromCtrl shuffleBase ctrl true
  emit (.VPSHUFB firstShuffle firstFour firstFour)
  emit (.VPSHUFB secondShuffle secondFour secondFour)
  let r ← newGP
  let firstAddr ← loadBase "outBytes" r
  let secondAddr ← newGP
  emit (.MOVQ firstAddr secondAddr)
  let (lenAddr, lenValue) ← lenValueAddr ctrl false "lenTable"
  emit (.MOVBQZX_mem lenAddr lenValue)
  emit (.ADDQ lenValue secondAddr)
  emit (.VMOVDQU firstFour 0 firstAddr)
  emit (.VMOVDQU secondFour 0 secondAddr)

/-- `regular`, `/repo/pkg/encode/main/asm.go:63-66`. -/
def regular : Option (List (GInstr Nat Nat)) := text signature do
  let (firstFour, secondFour) ← load8 "in"
  coreAlgorithm firstFour secondFour

/-- `differential`, `/repo/pkg/encode/main/asm.go:43-61`. -/
def differential : Option (List (GInstr Nat Nat)) := text signatureDelta do
  let prevSingular ← paramU32 "prev"
  let (firstFour, secondFour) ← load8 "in"
  let prev ← newX
  emit (.VPALIGNR 12 firstFour secondFour prev)
  emit (.VPSUBD prev secondFour secondFour)
  emit (.VBROADCASTSS_arg prevSingular prev)
  emit (.VPALIGNR 12 prev firstFour prev)
  emit (.VPSUBD prev firstFour firstFour)
  coreAlgorithm firstFour secondFour

end Enc

/-! ## `/repo/pkg/decode/main/asm.go` -/

namespace Dec

/-- `signature`, `/repo/pkg/decode/main/asm.go:26-28`. -/
def signature : Sig :=
  ⟨[("in", .slice), ("out", .slice), ("ctrl", .u16), ("shuffle", .ptr), ("lenTable", .ptr)], []⟩
/-- `signatureDelta`, `/repo/pkg/decode/main/asm.go:30-32`. -/
def signatureDelta : Sig :=
  ⟨[("in", .slice), ("out", .slice), ("ctrl", .u16), ("prev", .u32), ("shuffle", .ptr), ("lenTable", .ptr)], []⟩

/-- `coreAlgorithm`, `/repo/pkg/decode/main/asm.go:86-111`. -/
def coreAlgorithm : Gen (Nat × Nat) := do
  let ctrl ← newGP
  let _ ← load "ctrl" ctrl
  let r ← newGP
  let shuffleBase ← load "shuffle" r
  let shuffleA ← calculateShuffleAddrFromCtrl shuffleBase ctrl false
  let shuffleB ← calculateShuffleAddrFromCtrl shuffleBase ctrl true
  let r ← newGP
  let firstBlock ← loadBase "in" r
  let secondBlock ← newGP
  emit (.MOVQ firstBlock secondBlock)
  let (lowerAddr, lowerSize) ← lenValueAddr ctrl false "lenTable"
  emit (.MOVBQZX_mem lowerAddr lowerSize)
  emit (.ADDQ lowerSize secondBlock)
  let firstFour ← newX
  let secondFour ← newX
  emit (.VLDDQU 0 firstBlock firstFour)
  emit (.VLDDQU 0 secondBlock secondFour)
  emit (.VPSHUFB shuffleA firstFour firstFour)
  emit (.VPSHUFB shuffleB secondFour secondFour)
  return (firstFour, secondFour)

/-- `undoDelta`, `/repo/pkg/decode/main/asm.go:77-84`. -/
def undoDelta (four prev : Nat) : Gen Unit := do
  let adder ← newX
  emit (.VPSLLDQ 4 four adder)
  emit (.VPADDD four adder four)
  emit (.VPSLLDQ 8 four adder)
  emit (.VPADDD four prev four)
  emit (.VPADDD four adder four)

/-- `regular`, `/repo/pkg/decode/main/asm.go:41-51`. -/
def regular : Option (List (GInstr Nat Nat)) := text signature do
  let (firstFour, secondFour) ← coreAlgorithm
  let r ← newGP
  let outBase ← loadBase "out" r
  emit (.VMOVDQU firstFour 0 outBase)
  emit (.VMOVDQU secondFour 16 outBase)

/-- `differential`, `/repo/pkg/decode/main/asm.go:53-75`. -/
def differential : Option (List (GInstr Nat Nat)) := text signatureDelta do
  let (firstFour, secondFour) ← coreAlgorithm
  let prevSingular ← paramU32 "prev"
  let prev ← newX
  emit (.VBROADCASTSS_arg prevSingular prev)
  undoDelta firstFour prev
  emit (.VPSHUFD 255 firstFour prev)
  undoDelta secondFour prev
  let r ← newGP
  let outBase ← loadBase "out" r
  emit (.VMOVDQU firstFour 0 outBase)
  emit (.VMOVDQU secondFour 16 outBase)

end Dec

end SVB.Gen
