import Verif.Model.Shared

/-!
# Model of the assembly: `/repo/pkg/encode/encode_amd64.s`, `/repo/pkg/decode/decode_amd64.s`

A deep embedding: one constructor per instruction form used, in Go operand order (sources first,
destination last), and the four routines transcribed line by line.  Instruction semantics follow the
Intel SDM (volume 2) for the 128-bit VEX forms; the zeroing of YMM bits 255:128 is not modelled because
nothing reads them.  Memory operands are unchecked: a load or store goes to whatever address results.
-/

namespace SVB.Asm

/-- General purpose registers used. -/
inductive GP where
  | AX | BX | CX | DX | SI | DI
deriving DecidableEq, Repr

/-- Vector registers used. -/
inductive XR where
  | X0 | X1 | X2 | X3 | X4 | X5
deriving DecidableEq, Repr

/-- Contents of a 64-bit register: nothing yet, a plain integer, or an address. -/
inductive Val where
  | undef
  | int (v : U64)
  | ptr (p : Ptr)

/-- An XMM register: byte lanes 0..15 (lane 0 least significant).  Lanes from 16 on do not exist; no
instruction lets them influence lanes 0..15. -/
abbrev Vec := Nat → Byte

/-- 16-bit lane `i`. -/
def lane16 (v : Vec) (i : Nat) : U16 := v (2 * i + 1) ++ v (2 * i)
/-- Vector from 16-bit lanes. -/
def of16 (f : Nat → U16) : Vec := fun i =>
  if i % 2 = 0 then (f (i / 2)).extractLsb' 0 8 else (f (i / 2)).extractLsb' 8 8
/-- 32-bit lane `i`. -/
def lane32 (v : Vec) (i : Nat) : U32 := v (4 * i + 3) ++ v (4 * i + 2) ++ v (4 * i + 1) ++ v (4 * i)
/-- Vector from 32-bit lanes. -/
def of32 (f : Nat → U32) : Vec := fun i => (f (i / 4)).extractLsb' (8 * (i % 4)) 8

/-- What the caller pushed at an FP offset (Go ABI0 argument frame). -/
inductive Slot where
  | ptr (p : Ptr)
  | q (v : U64)
  | d (v : U32)
  | w (v : U16)

/-- Argument frame: FP offset ↦ argument. -/
abbrev Frame := List (Nat × Slot)

def Frame.get (fr : Frame) (off : Nat) : Option Slot := fr.lookup off

/-- Instructions, Go operand order. -/
inductive Instr where
  /-- `MOVQ name+off(FP), dst` -/
  | MOVQ_arg (off : Nat) (dst : GP)
  /-- `MOVQ src, dst` -/
  | MOVQ (src dst : GP)
  /-- `MOVWQZX name+off(FP), dst` -/
  | MOVWQZX_arg (off : Nat) (dst : GP)
  /-- `MOVWQZX src, dst`: zero-extend the low 16 bits -/
  | MOVWQZX (src dst : GP)
  /-- `MOVBQZX srcL, dst`: zero-extend the low 8 bits -/
  | MOVBQZX (src dst : GP)
  /-- `MOVBQZX (base), dst`: zero-extending byte load -/
  | MOVBQZX_mem (base dst : GP)
  /-- `MOVW src, name+off(FP)`: store the low 16 bits as result -/
  | MOVW_ret (src : GP) (off : Nat)
  | SHLQ (imm : Nat) (dst : GP)
  | SHRQ (imm : Nat) (dst : GP)
  /-- `ADDQ src, dst`: dst += src -/
  | ADDQ (src dst : GP)
  /-- `VLDDQU disp(base), dst`: unaligned 16-byte load -/
  | VLDDQU (disp : Nat) (base : GP) (dst : XR)
  /-- `VMOVDQU src, disp(base)`: unaligned 16-byte store -/
  | VMOVDQU (src : XR) (disp : Nat) (base : GP)
  /-- `VPBROADCASTW sym<>+0(SB), dst` -/
  | VPBROADCASTW (sym : Block) (dst : XR)
  /-- `VBROADCASTSS name+off(FP), dst` -/
  | VBROADCASTSS_arg (off : Nat) (dst : XR)
  | VPMINUB (src2 src1 dst : XR)
  | VPACKUSWB (src2 src1 dst : XR)
  | VPMINSW (src2 src1 dst : XR)
  | VPADDUSW (src2 src1 dst : XR)
  | VPMOVMSKB (src : XR) (dst : GP)
  /-- `VPSHUFB (mask), src, dst` with the mask in memory -/
  | VPSHUFB (mask : GP) (src dst : XR)
  | VPALIGNR (imm : Nat) (src2 src1 dst : XR)
  | VPSUBD (src2 src1 dst : XR)
  | VPADDD (src2 src1 dst : XR)
  | VPSLLDQ (imm : Nat) (src dst : XR)
  | VPSHUFD (imm : Nat) (src dst : XR)

/-- Machine state local to a call: registers and the result slots written so far. -/
structure St where
  gp : GP → Val
  x : XR → Vec
  res : List (Nat × U16)

def St.setGP (s : St) (r : GP) (v : Val) : St := { s with gp := fun q => if q = r then v else s.gp q }
def St.setX (s : St) (r : XR) (v : Vec) : St := { s with x := fun q => if q = r then v else s.x q }

/-- Load `n` consecutive bytes. -/
def loadN (p : Ptr) : Nat → Prog (List Byte)
  | 0 => .ret []
  | n + 1 => do
    let b ← load8 p
    let bs ← loadN (p.add 1) n
    return b :: bs

/-- 16-byte vector load. -/
def load16 (p : Ptr) : Prog Vec := do
  let bs ← loadN p 16
  return fun i => bs.getD i 0

/-- Store lanes `i, i+1, …, i+n-1` of `v` at `p+i, …`. -/
def storeN (p : Ptr) (v : Vec) (i : Nat) : Nat → Prog Unit
  | 0 => .ret ()
  | n + 1 => do
    store8 (p.add i) (v i)
    storeN p v (i + 1) n

/-- 16-byte vector store. -/
def store16 (p : Ptr) (v : Vec) : Prog Unit := storeN p v 0 16

/-- Saturation of a signed 16-bit value to an unsigned byte (PACKUSWB). -/
def satU8 (w : U16) : Byte :=
  if w.toInt < 0 then 0 else if w.toInt > 255 then 255 else w.setWidth 8

/-- Unsigned saturating 16-bit addition (PADDUSW). -/
def addUS16 (a b : U16) : U16 := if a.toNat + b.toNat > 65535 then 65535 else a + b

/-- Signed 16-bit minimum (PMINSW). -/
def minS16 (a b : U16) : U16 := if a.toInt < b.toInt then a else b

/-- Unsigned byte minimum (PMINUB). -/
def minU8 (a b : Byte) : Byte := if a.toNat < b.toNat then a else b

/-- PSHUFB: lane `i` is 0 if bit 7 of the mask byte is set, else the source lane named by its low four
bits. -/
def pshufb (mask src : Vec) : Vec := fun i =>
  if (mask i).msb then 0 else src ((mask i).toNat % 16)

/-- PMOVMSKB: bit `i` of the result is the top bit of byte lane `i`. -/
def movmsk (v : Vec) : Nat :=
  (List.range 16).foldl (fun acc i => acc + (if (v i).msb then 2 ^ i else 0)) 0

/-- PALIGNR: bytes `imm … imm+15` of the 32-byte value `hi:lo`. -/
def palignr (imm : Nat) (hi lo : Vec) : Vec := fun i =>
  if i + imm < 16 then lo (i + imm) else if i + imm < 32 then hi (i + imm - 16) else 0

/-- PSLLDQ: shift left by `imm` bytes. -/
def pslldq (imm : Nat) (v : Vec) : Vec := fun i => if i < imm then 0 else v (i - imm)

/-- PSHUFD: 32-bit lane `i` is the source lane selected by bits `2i+1:2i` of `imm`. -/
def pshufd (imm : Nat) (v : Vec) : Vec := of32 fun i => lane32 v (imm / 4 ^ i % 4)

/-- One instruction. -/
def step (fr : Frame) (s : St) : Instr → Prog St
  | .MOVQ_arg off d =>
    match fr.get off with
    | some (.ptr p) => return s.setGP d (.ptr p)
    | some (.q v) => return s.setGP d (.int v)
    | _ => .panic .fault
  | .MOVQ a d => return s.setGP d (s.gp a)
  | .MOVWQZX_arg off d =>
    match fr.get off with
    | some (.w v) => return s.setGP d (.int (v.setWidth 64))
    | _ => .panic .fault
  | .MOVWQZX a d =>
    match s.gp a with
    | .int v => return s.setGP d (.int ((v.setWidth 16).setWidth 64))
    | _ => .panic .fault
  | .MOVBQZX a d =>
    match s.gp a with
    | .int v => return s.setGP d (.int ((v.setWidth 8).setWidth 64))
    | _ => .panic .fault
  | .MOVBQZX_mem b d =>
    match s.gp b with
    | .ptr p => do
      let v ← load8 p
      return s.setGP d (.int (v.setWidth 64))
    | _ => .panic .fault
  | .MOVW_ret a off =>
    match s.gp a with
    | .int v => return { s with res := (off, v.setWidth 16) :: s.res }
    | _ => .panic .fault
  | .SHLQ n d =>
    match s.gp d with
    | .int v => return s.setGP d (.int (v <<< n))
    | _ => .panic .fault
  | .SHRQ n d =>
    match s.gp d with
    | .int v => return s.setGP d (.int (v >>> n))
    | _ => .panic .fault
  | .ADDQ a d =>
    match s.gp a, s.gp d with
    | .int v, .int w => return s.setGP d (.int (w + v))
    | .ptr p, .int w => return s.setGP d (.ptr (p.add w.toNat))
    | .int v, .ptr p => return s.setGP d (.ptr (p.add v.toNat))
    | _, _ => .panic .fault
  | .VLDDQU disp b d =>
    match s.gp b with
    | .ptr p => do
      let v ← load16 (p.add disp)
      return s.setX d v
    | _ => .panic .fault
  | .VMOVDQU a disp b =>
    match s.gp b with
    | .ptr p => do
      store16 (p.add disp) (s.x a)
      return s
    | _ => .panic .fault
  | .VPBROADCASTW sym d => do
    let b0 ← load8 ⟨sym, 0⟩
    let b1 ← load8 ⟨sym, 1⟩
    return s.setX d (of16 fun _ => b1 ++ b0)
  | .VBROADCASTSS_arg off d =>
    match fr.get off with
    | some (.d v) => return s.setX d (of32 fun _ => v)
    | _ => .panic .fault
  | .VPMINUB b a d => return s.setX d (fun i => minU8 (s.x a i) (s.x b i))
  | .VPACKUSWB b a d => return s.setX d (fun i =>
      if i < 8 then satU8 (lane16 (s.x a) i) else satU8 (lane16 (s.x b) (i - 8)))
  | .VPMINSW b a d => return s.setX d (of16 fun i => minS16 (lane16 (s.x a) i) (lane16 (s.x b) i))
  | .VPADDUSW b a d => return s.setX d (of16 fun i => addUS16 (lane16 (s.x a) i) (lane16 (s.x b) i))
  | .VPMOVMSKB a d => return s.setGP d (.int (BitVec.ofNat 64 (movmsk (s.x a))))
  | .VPSHUFB b a d =>
    match s.gp b with
    | .ptr p => do
      let mask ← load16 p
      return s.setX d (pshufb mask (s.x a))
    | _ => .panic .fault
  | .VPALIGNR imm b a d => return s.setX d (palignr imm (s.x a) (s.x b))
  | .VPSUBD b a d => return s.setX d (of32 fun i => lane32 (s.x a) i - lane32 (s.x b) i)
  | .VPADDD b a d => return s.setX d (of32 fun i => lane32 (s.x a) i + lane32 (s.x b) i)
  | .VPSLLDQ imm a d => return s.setX d (pslldq imm (s.x a))
  | .VPSHUFD imm a d => return s.setX d (pshufd imm (s.x a))

/-- Straight-line execution up to `RET`. -/
def exec (fr : Frame) : List Instr → St → Prog St
  | [], s => .ret s
  | i :: is, s => do
    let s' ← step fr s i
    exec fr is s'

/-- Registers on entry: general purpose registers hold nothing usable; vector registers hold zeros (no
routine reads one before writing it). -/
def St.init : St := { gp := fun _ => .undef, x := fun _ _ => 0, res := [] }

open Instr GP XR

/-- `/repo/pkg/encode/encode_amd64.s:17-24`: control-bit generation (shared text of lines 17-24 and
58-65). -/
def ctrlInstrs : List Instr := [
  VPBROADCASTW .mask0101 X2,     -- VPBROADCASTW mask0101<>+0(SB), X2
  VPBROADCASTW .mask7F00 X3,     -- VPBROADCASTW mask7F00<>+0(SB), X3
  VPMINUB X2 X0 X4,              -- VPMINUB      X2, X0, X4
  VPMINUB X2 X1 X5,              -- VPMINUB      X2, X1, X5
  VPACKUSWB X5 X4 X4,            -- VPACKUSWB    X5, X4, X4
  VPMINSW X2 X4 X4,              -- VPMINSW      X2, X4, X4
  VPADDUSW X3 X4 X4,             -- VPADDUSW     X3, X4, X4
  VPMOVMSKB X4 AX]               -- VPMOVMSKB    X4, AX

/-- `Put8uint32FastAsm`, `/repo/pkg/encode/encode_amd64.s:13-45`. -/
def put8uint32FastText : List Instr := [
  MOVQ_arg 0 AX,                 -- MOVQ         in_base+0(FP), AX
  VLDDQU 0 AX X0,                -- VLDDQU       (AX), X0
  VLDDQU 16 AX X1] ++            -- VLDDQU       16(AX), X1
  ctrlInstrs ++ [                -- lines 17-24
  MOVW_ret AX 64,                -- MOVW         AX, r+64(FP)
  MOVQ_arg 48 CX,                -- MOVQ         shuffle+48(FP), CX
  MOVBQZX AX DX,                 -- MOVBQZX      AL, DX
  SHLQ 4 DX,                     -- SHLQ         $0x04, DX
  ADDQ CX DX,                    -- ADDQ         CX, DX
  MOVWQZX AX BX,                 -- MOVWQZX      AX, BX
  SHRQ 8 BX,                     -- SHRQ         $0x08, BX
  SHLQ 4 BX,                     -- SHLQ         $0x04, BX
  ADDQ CX BX,                    -- ADDQ         CX, BX
  VPSHUFB DX X0 X0,              -- VPSHUFB      (DX), X0, X0
  VPSHUFB BX X1 X1,              -- VPSHUFB      (BX), X1, X1
  MOVQ_arg 24 CX,                -- MOVQ         outBytes_base+24(FP), CX
  MOVQ CX DX,                    -- MOVQ         CX, DX
  MOVQ_arg 56 BX,                -- MOVQ         lenTable+56(FP), BX
  MOVBQZX AX AX,                 -- MOVBQZX      AL, AX
  ADDQ BX AX,                    -- ADDQ         BX, AX
  MOVBQZX_mem AX AX,             -- MOVBQZX      (AX), AX
  ADDQ AX DX,                    -- ADDQ         AX, DX
  VMOVDQU X0 0 CX,               -- VMOVDQU      X0, (CX)
  VMOVDQU X1 0 DX]               -- VMOVDQU      X1, (DX)

/-- `Put8uint32DeltaFastAsm`, `/repo/pkg/encode/encode_amd64.s:49-86`. -/
def put8uint32DeltaFastText : List Instr := [
  MOVQ_arg 0 AX,                 -- MOVQ         in_base+0(FP), AX
  VLDDQU 0 AX X0,                -- VLDDQU       (AX), X0
  VLDDQU 16 AX X1,               -- VLDDQU       16(AX), X1
  VPALIGNR 12 X0 X1 X2,          -- VPALIGNR     $0x0c, X0, X1, X2
  VPSUBD X2 X1 X1,               -- VPSUBD       X2, X1, X1
  VBROADCASTSS_arg 48 X2,        -- VBROADCASTSS prev+48(FP), X2
  VPALIGNR 12 X2 X0 X2,          -- VPALIGNR     $0x0c, X2, X0, X2
  VPSUBD X2 X0 X0] ++            -- VPSUBD       X2, X0, X0
  ctrlInstrs ++ [                -- lines 58-65
  MOVW_ret AX 72,                -- MOVW         AX, r+72(FP)
  MOVQ_arg 56 CX,                -- MOVQ         shuffle+56(FP), CX
  MOVBQZX AX DX,                 -- MOVBQZX      AL, DX
  SHLQ 4 DX,                     -- SHLQ         $0x04, DX
  ADDQ CX DX,                    -- ADDQ         CX, DX
  MOVWQZX AX BX,                 -- MOVWQZX      AX, BX
  SHRQ 8 BX,                     -- SHRQ         $0x08, BX
  SHLQ 4 BX,                     -- SHLQ         $0x04, BX
  ADDQ CX BX,                    -- ADDQ         CX, BX
  VPSHUFB DX X0 X0,              -- VPSHUFB      (DX), X0, X0
  VPSHUFB BX X1 X1,              -- VPSHUFB      (BX), X1, X1
  MOVQ_arg 24 CX,                -- MOVQ         outBytes_base+24(FP), CX
  MOVQ CX DX,                    -- MOVQ         CX, DX
  MOVQ_arg 64 BX,                -- MOVQ         lenTable+64(FP), BX
  MOVBQZX AX AX,                 -- MOVBQZX      AL, AX
  ADDQ BX AX,                    -- ADDQ         BX, AX
  MOVBQZX_mem AX AX,             -- MOVBQZX      (AX), AX
  ADDQ AX DX,                    -- ADDQ         AX, DX
  VMOVDQU X0 0 CX,               -- VMOVDQU      X0, (CX)
  VMOVDQU X1 0 DX]               -- VMOVDQU      X1, (DX)

/-- The common prefix of both decoders, `/repo/pkg/decode/decode_amd64.s:8-27` and `:36-55`. -/
def decCoreText : List Instr := [
  MOVWQZX_arg 48 AX,             -- MOVWQZX ctrl+48(FP), AX
  MOVQ_arg 56 CX,                -- MOVQ    shuffle+56(FP), CX
  MOVBQZX AX DX,                 -- MOVBQZX AL, DX
  SHLQ 4 DX,                     -- SHLQ    $0x04, DX
  ADDQ CX DX,                    -- ADDQ    CX, DX
  MOVWQZX AX BX,                 -- MOVWQZX AX, BX
  SHRQ 8 BX,                     -- SHRQ    $0x08, BX
  SHLQ 4 BX,                     -- SHLQ    $0x04, BX
  ADDQ CX BX,                    -- ADDQ    CX, BX
  MOVQ_arg 0 CX,                 -- MOVQ    in_base+0(FP), CX
  MOVQ CX SI,                    -- MOVQ    CX, SI
  MOVQ_arg 64 DI,                -- MOVQ    lenTable+64(FP), DI
  MOVBQZX AX AX,                 -- MOVBQZX AL, AX
  ADDQ DI AX,                    -- ADDQ    DI, AX
  MOVBQZX_mem AX AX,             -- MOVBQZX (AX), AX
  ADDQ AX SI,                    -- ADDQ    AX, SI
  VLDDQU 0 CX X0,                -- VLDDQU  (CX), X0
  VLDDQU 0 SI X1,                -- VLDDQU  (SI), X1
  VPSHUFB DX X0 X0,              -- VPSHUFB (DX), X0, X0
  VPSHUFB BX X1 X1]              -- VPSHUFB (BX), X1, X1

/-- The common suffix of both decoders, `/repo/pkg/decode/decode_amd64.s:28-30` and `:68-70`. -/
def decStoreText : List Instr := [
  MOVQ_arg 24 AX,                -- MOVQ    out_base+24(FP), AX
  VMOVDQU X0 0 AX,               -- VMOVDQU X0, (AX)
  VMOVDQU X1 16 AX]              -- VMOVDQU X1, 16(AX)

/-- `Get8uint32FastAsm`, `/repo/pkg/decode/decode_amd64.s:7-31`. -/
def get8uint32FastText : List Instr := decCoreText ++ decStoreText

/-- `Get8uint32DeltaFastAsm`, `/repo/pkg/decode/decode_amd64.s:35-71`. -/
def get8uint32DeltaFastText : List Instr := decCoreText ++ [
  VBROADCASTSS_arg 52 X2,        -- VBROADCASTSS prev+52(FP), X2
  VPSLLDQ 4 X0 X3,               -- VPSLLDQ      $0x04, X0, X3
  VPADDD X0 X3 X0,               -- VPADDD       X0, X3, X0
  VPSLLDQ 8 X0 X3,               -- VPSLLDQ      $0x08, X0, X3
  VPADDD X0 X2 X0,               -- VPADDD       X0, X2, X0
  VPADDD X0 X3 X0,               -- VPADDD       X0, X3, X0
  VPSHUFD 255 X0 X2,             -- VPSHUFD      $0xff, X0, X2
  VPSLLDQ 4 X1 X3,               -- VPSLLDQ      $0x04, X1, X3
  VPADDD X1 X3 X1,               -- VPADDD       X1, X3, X1
  VPSLLDQ 8 X1 X3,               -- VPSLLDQ      $0x08, X1, X3
  VPADDD X1 X2 X1,               -- VPADDD       X1, X2, X1
  VPADDD X1 X3 X1] ++            -- VPADDD       X1, X3, X1
  decStoreText

/-- Argument slots of a slice at FP offset `o`: base, len, cap. -/
def sliceArg {e : Nat} (o : Nat) (s : Slice e) : Frame :=
  [(o, .ptr s.ptr), (o + 8, .q (BitVec.ofNat 64 s.len)), (o + 16, .q (BitVec.ofNat 64 s.cap))]

/-- The Go declaration `Put8uint32FastAsm(in, outBytes, shuffle, lenTable) (r uint16)`,
`/repo/pkg/encode/encode_amd64.go:195-198`; frame layout per Go ABI0 (in 0, outBytes 24, shuffle 48,
lenTable 56, r 64). -/
def put8uint32FastAsm (inn : U32s) (out : Bytes) (shuffle lenTable : Ptr) : Prog U16 := do
  let fr : Frame := sliceArg 0 inn ++ sliceArg 24 out ++ [(48, .ptr shuffle), (56, .ptr lenTable)]
  let s ← exec fr put8uint32FastText St.init
  match s.res.lookup 64 with
  | some r => return r
  | none => .panic .fault

/-- `Put8uint32DeltaFastAsm`, declared at `/repo/pkg/encode/encode_amd64.go:212-215`; frame: in 0,
outBytes 24, prev 48 (4 bytes, padded), shuffle 56, lenTable 64, r 72. -/
def put8uint32DeltaFastAsm (inn : U32s) (out : Bytes) (prev : U32) (shuffle lenTable : Ptr) :
    Prog U16 := do
  let fr : Frame := sliceArg 0 inn ++ sliceArg 24 out ++
    [(48, .d prev), (56, .ptr shuffle), (64, .ptr lenTable)]
  let s ← exec fr put8uint32DeltaFastText St.init
  match s.res.lookup 72 with
  | some r => return r
  | none => .panic .fault

/-- `Get8uint32FastAsm`, declared at `/repo/pkg/decode/decode_amd64.go:47-50`; frame: in 0, out 24,
ctrl 48 (2 bytes, padded), shuffle 56, lenTable 64. -/
def get8uint32FastAsm (inn : Bytes) (out : U32s) (ctrl : U16) (shuffle lenTable : Ptr) :
    Prog Unit := do
  let fr : Frame := sliceArg 0 inn ++ sliceArg 24 out ++
    [(48, .w ctrl), (56, .ptr shuffle), (64, .ptr lenTable)]
  let _ ← exec fr get8uint32FastText St.init
  return ()

/-- `Get8uint32DeltaFastAsm`, declared at `/repo/pkg/decode/decode_amd64.go:64-67`; frame: in 0, out 24,
ctrl 48 (2 bytes), prev 52 (4 bytes), shuffle 56, lenTable 64. -/
def get8uint32DeltaFastAsm (inn : Bytes) (out : U32s) (ctrl : U16) (prev : U32)
    (shuffle lenTable : Ptr) : Prog Unit := do
  let fr : Frame := sliceArg 0 inn ++ sliceArg 24 out ++
    [(48, .w ctrl), (52, .d prev), (56, .ptr shuffle), (64, .ptr lenTable)]
  let _ ← exec fr get8uint32DeltaFastText St.init
  return ()

end SVB.Asm

namespace SVB
open Asm

/-- `shared.EncodeShuffleTable` etc. as pointers. -/
def encShufPtr : Ptr := ⟨.encShuf, 0⟩
def decShufPtr : Ptr := ⟨.decShuf, 0⟩
def ctrlLenPtr : Ptr := ⟨.ctrlLen, 0⟩

/-- `Put8uint32Fast`, `/repo/pkg/encode/encode_amd64.go:24-29`. -/
def put8uint32Fast (inn : U32s) (out : Bytes) : Prog U16 :=
  put8uint32FastAsm inn out encShufPtr ctrlLenPtr

/-- `Put8uint32DeltaFast`, `/repo/pkg/encode/encode_amd64.go:33-39`. -/
def put8uint32DeltaFast (inn : U32s) (out : Bytes) (prev : U32) : Prog U16 :=
  put8uint32DeltaFastAsm inn out prev encShufPtr ctrlLenPtr

/-- `Get8uint32Fast`, `/repo/pkg/decode/decode_amd64.go:24-29`. -/
def get8uint32Fast (inn : Bytes) (out : U32s) (ctrl : U16) : Prog Unit :=
  get8uint32FastAsm inn out ctrl decShufPtr ctrlLenPtr

/-- `Get8uint32DeltaFast`, `/repo/pkg/decode/decode_amd64.go:33-39`. -/
def get8uint32DeltaFast (inn : Bytes) (out : U32s) (ctrl : U16) (prev : U32) : Prog Unit :=
  get8uint32DeltaFastAsm inn out ctrl prev decShufPtr ctrlLenPtr

end SVB
