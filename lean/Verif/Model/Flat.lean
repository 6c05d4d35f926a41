import Verif.Model.Asm
import Verif.Model.Shared

/-!
# The assembly on a machine with flat memory

A second semantics of the instructions in `/repo/pkg/encode/encode_amd64.s` and `/repo/pkg/decode/decode_amd64.s`, closer to the
processor than `Model/Asm.lean`: addresses are 64-bit numbers, general purpose registers hold nothing but numbers, arguments and
the result are bytes on the stack, vector registers have 256 bits, and the vector instructions are the pseudo-code of the Intel
SDM (volume 2) on 128-bit numbers.  Every instruction can be executed in every state.  Not modelled: flags (no instruction
reads them), page faults (which addresses are touched is the subject of C12, C13, C15, C16, C40), and the other registers.
-/

set_option autoImplicit false

namespace SVB.Flat
open Asm

abbrev Addr := BitVec 64
/-- Memory: every address holds a byte. -/
abbrev FMem := Addr → Byte

/-- `n` bytes from address `a` on as a little-endian number. -/
def readLE (m : FMem) (a : Addr) : (n : Nat) → BitVec (8 * n)
  | 0 => 0
  | n + 1 => readLE m (a + 1) n ++ m a

/-- Memory after the low `n` bytes of a number have been stored at address `a`. -/
def writeLE {w : Nat} (m : FMem) (a : Addr) (n : Nat) (v : BitVec w) : FMem := fun q =>
  if (q - a).toNat < n then v.extractLsb' (8 * (q - a).toNat) 8 else m q

/-- The state of a processor as far as the instructions see it. -/
structure Mach where
  gp : GP → U64
  /-- the YMM registers; XMM is the lower half -/
  y : XR → BitVec 256
  mem : FMem
  /-- The assembler's `FP`: the address of the first argument (above the return address). -/
  fp : Addr
  /-- The assembler's `sym(SB)`: where the linker has put the constants. -/
  sb : Block → Addr

/-! ## Pseudo-code of the manual -/

/-- `SRC[w*i+w-1 : w*i]` -/
def fld (w : Nat) (x : BitVec 128) (i : Nat) : BitVec w := x.extractLsb' (w * i) w

/-- `DEST[w-1:0] := f 0; DEST[2w-1:w] := f 1; …` up to field `n - 1`. -/
def pack (w : Nat) : Nat → (Nat → BitVec w) → BitVec 128
  | 0, _ => 0
  | n + 1, f => pack w n f ||| (f n).setWidth 128 <<< (w * n)

/-- `SaturateSignedWordToUnsignedByte` -/
def satSB (x : U16) : Byte := if x.slt 0 then 0 else if (255 : U16).slt x then 0xff else x.setWidth 8
/-- `SaturateToUnsignedWord` of a sum -/
def satUW (s : BitVec 17) : U16 := if 0xffff < s then 0xffff else s.setWidth 16

/-- VPMINUB: `IF SRC1[7:0] < SRC2[7:0] THEN DEST[7:0] := SRC1[7:0]; ELSE DEST[7:0] := SRC2[7:0]; …` -/
def vpminub (a b : BitVec 128) : BitVec 128 := pack 8 16 fun i => if fld 8 a i < fld 8 b i then fld 8 a i else fld 8 b i
/-- VPMINSW: the same for signed words. -/
def vpminsw (a b : BitVec 128) : BitVec 128 :=
  pack 16 8 fun i => if (fld 16 a i).slt (fld 16 b i) then fld 16 a i else fld 16 b i
/-- VPACKUSWB: `DEST[7:0] := SaturateSignedWordToUnsignedByte(SRC1[15:0]) …
DEST[71:64] := SaturateSignedWordToUnsignedByte(SRC2[15:0]) …` -/
def vpackuswb (a b : BitVec 128) : BitVec 128 :=
  pack 8 16 fun i => if i < 8 then satSB (fld 16 a i) else satSB (fld 16 b (i - 8))
/-- VPADDUSW: `DEST[15:0] := SaturateToUnsignedWord(SRC1[15:0] + SRC2[15:0]); …` -/
def vpaddusw (a b : BitVec 128) : BitVec 128 :=
  pack 16 8 fun i => satUW ((fld 16 a i).setWidth 17 + (fld 16 b i).setWidth 17)
/-- VPADDD: `DEST[31:0] := SRC1[31:0] + SRC2[31:0]; …` -/
def vpaddd (a b : BitVec 128) : BitVec 128 := pack 32 4 fun i => fld 32 a i + fld 32 b i
/-- VPSUBD: `DEST[31:0] := SRC1[31:0] - SRC2[31:0]; …` -/
def vpsubd (a b : BitVec 128) : BitVec 128 := pack 32 4 fun i => fld 32 a i - fld 32 b i
/-- VPSHUFB: `IF SRC2[(i*8)+7] = 1 THEN DEST[(i*8)+7:(i*8)] := 0; ELSE index[3:0] := SRC2[(i*8)+3:(i*8)];
DEST[(i*8)+7:(i*8)] := SRC1[(index*8+7):(index*8)]` -/
def vpshufb (src mask : BitVec 128) : BitVec 128 :=
  pack 8 16 fun i =>
    if mask.getLsbD (8 * i + 7) then 0 else src.extractLsb' ((mask.extractLsb' (8 * i) 4).toNat * 8) 8
/-- VPALIGNR: `temp[255:0] := ((SRC1[127:0] << 128) OR SRC2[127:0]) >> (imm8*8); DEST[127:0] := temp[127:0]` -/
def vpalignr (imm : BitVec 8) (src1 src2 : BitVec 128) : BitVec 128 :=
  ((src1.setWidth 256 <<< 128 ||| src2.setWidth 256) >>> (imm.toNat * 8)).setWidth 128
/-- VPSLLDQ: `TEMP := COUNT; IF (TEMP > 15) THEN TEMP := 16; DEST := SRC << (TEMP * 8)` -/
def vpslldq (imm : BitVec 8) (src : BitVec 128) : BitVec 128 :=
  src <<< ((if 15 < imm.toNat then 16 else imm.toNat) * 8)
/-- VPSHUFD: `DEST[31:0] := (SRC[127:0] >> (ORDER[1:0]*32))[31:0]; DEST[63:32] := (SRC[127:0] >> (ORDER[3:2]*32))[31:0]; …` -/
def vpshufd (imm : BitVec 8) (src : BitVec 128) : BitVec 128 :=
  pack 32 4 fun i => (src >>> ((imm.extractLsb' (2 * i) 2).toNat * 32)).setWidth 32
/-- VPMOVMSKB: `r[0] := SRC[7]; r[1] := SRC[15]; …; r[15] := SRC[127]; ZERO_EXTEND` -/
def vpmovmskb (src : BitVec 128) : U64 :=
  (pack 1 16 fun i => BitVec.ofBool (src.getLsbD (8 * i + 7))).setWidth 64
/-- VPBROADCASTW and VBROADCASTSS: all fields the same. -/
def vpbroadcastw (w : U16) : BitVec 128 := pack 16 8 fun _ => w
def vbroadcastss (d : U32) : BitVec 128 := pack 32 4 fun _ => d

/-! ## Instructions -/

def Mach.setGP (t : Mach) (r : GP) (v : U64) : Mach := { t with gp := fun q => if q = r then v else t.gp q }
/-- A VEX-encoded instruction writes 128 bits and clears the upper half: `DEST[MAXVL-1:128] := 0`. -/
def Mach.setX (t : Mach) (r : XR) (v : BitVec 128) : Mach :=
  { t with y := fun q => if q = r then v.setWidth 256 else t.y q }
def Mach.x (t : Mach) (r : XR) : BitVec 128 := (t.y r).setWidth 128
/-- The address of `name+off(FP)`. -/
def Mach.arg (t : Mach) (off : Nat) : Addr := t.fp + BitVec.ofNat 64 off

/-- One instruction. -/
def fstep (t : Mach) : Instr → Mach
  | .MOVQ_arg off d => t.setGP d (readLE t.mem (t.arg off) 8)
  | .MOVQ a d => t.setGP d (t.gp a)
  | .MOVWQZX_arg off d => t.setGP d ((readLE t.mem (t.arg off) 2).setWidth 64)
  | .MOVWQZX a d => t.setGP d (((t.gp a).setWidth 16).setWidth 64)
  | .MOVBQZX a d => t.setGP d (((t.gp a).setWidth 8).setWidth 64)
  | .MOVBQZX_mem b d => t.setGP d ((t.mem (t.gp b)).setWidth 64)
  | .MOVW_ret a off => { t with mem := writeLE t.mem (t.arg off) 2 (t.gp a) }
  -- the processor uses the low six bits of the count
  | .SHLQ n d => t.setGP d (t.gp d <<< (n % 64))
  | .SHRQ n d => t.setGP d (t.gp d >>> (n % 64))
  | .ADDQ a d => t.setGP d (t.gp d + t.gp a)
  | .VLDDQU disp b d => t.setX d (readLE t.mem (t.gp b + BitVec.ofNat 64 disp) 16)
  | .VMOVDQU a disp b => { t with mem := writeLE t.mem (t.gp b + BitVec.ofNat 64 disp) 16 (t.x a) }
  | .VPBROADCASTW sym d => t.setX d (vpbroadcastw (readLE t.mem (t.sb sym) 2))
  | .VBROADCASTSS_arg off d => t.setX d (vbroadcastss (readLE t.mem (t.arg off) 4))
  | .VPMINUB b a d => t.setX d (vpminub (t.x a) (t.x b))
  | .VPACKUSWB b a d => t.setX d (vpackuswb (t.x a) (t.x b))
  | .VPMINSW b a d => t.setX d (vpminsw (t.x a) (t.x b))
  | .VPADDUSW b a d => t.setX d (vpaddusw (t.x a) (t.x b))
  | .VPMOVMSKB a d => t.setGP d (vpmovmskb (t.x a))
  | .VPSHUFB b a d => t.setX d (vpshufb (t.x a) (readLE t.mem (t.gp b) 16))
  -- immediates are bytes of the instruction
  | .VPALIGNR imm b a d => t.setX d (vpalignr (BitVec.ofNat 8 imm) (t.x a) (t.x b))
  | .VPSUBD b a d => t.setX d (vpsubd (t.x a) (t.x b))
  | .VPADDD b a d => t.setX d (vpaddd (t.x a) (t.x b))
  | .VPSLLDQ imm a d => t.setX d (vpslldq (BitVec.ofNat 8 imm) (t.x a))
  | .VPSHUFD imm a d => t.setX d (vpshufd (BitVec.ofNat 8 imm) (t.x a))

/-- Straight-line execution up to `RET`. -/
def fexec (t : Mach) : List Instr → Mach
  | [] => t
  | i :: is => fexec (fstep t i) is

/-! ## Where things are -/

/-- Where the allocations of the model are in the flat memory, and which of their bytes are meant to be read and written. -/
structure Layout where
  base : Block → Addr
  R : Ptr → Prop
  W : Ptr → Prop

def Layout.addr (L : Layout) (p : Ptr) : Addr := L.base p.blk + BitVec.ofNat 64 p.off
def Layout.dom (L : Layout) (p : Ptr) : Prop := L.R p ∨ L.W p

def slotSize : Slot → Nat
  | .ptr _ => 8
  | .q _ => 8
  | .d _ => 4
  | .w _ => 2

/-- An argument lies at an address. -/
def Layout.holds (L : Layout) (mem : FMem) (a : Addr) : Slot → Prop
  | .ptr p => readLE mem a 8 = L.addr p
  | .q v => readLE mem a 8 = v
  | .d v => readLE mem a 4 = v
  | .w v => readLE mem a 2 = v

/-- The bytes are at different addresses, the arguments `fr` end before the offset `ro` (of the result, of `rs` bytes), and the
arguments and the result are not among the bytes. -/
structure Placed (L : Layout) (fr : Frame) (ro rs : Nat) (fp : Addr) : Prop where
  inj : ∀ p q, L.dom p → L.dom q → L.addr p = L.addr q → p = q
  slots : ∀ off sl, fr.get off = some sl → off + slotSize sl ≤ ro
  small : ro + rs < 2 ^ 64
  stack : ∀ p, L.dom p → ∀ k < ro + rs, L.addr p ≠ fp + BitVec.ofNat 64 k

/-- The machine is about to execute a function with the arguments `fr`, and the bytes of the layout are those of `m`. -/
structure Called (L : Layout) (fr : Frame) (m : Mem) (t : Mach) : Prop where
  mem : ∀ p, L.dom p → t.mem (L.addr p) = m p
  frame : ∀ off sl, fr.get off = some sl → L.holds t.mem (t.arg off) sl
  sb : ∀ b : Block, b.isConst = true → t.sb b = L.base b

/-! ## The arguments -/

/-- `/repo/pkg/encode/encode_amd64.go:195-198` -/
def put8Args (inn : U32s) (out : Bytes) : Frame :=
  sliceArg 0 inn ++ sliceArg 24 out ++ [(48, .ptr encShufPtr), (56, .ptr ctrlLenPtr)]
/-- `/repo/pkg/encode/encode_amd64.go:212-215` -/
def put8DeltaArgs (inn : U32s) (out : Bytes) (prev : U32) : Frame :=
  sliceArg 0 inn ++ sliceArg 24 out ++ [(48, .d prev), (56, .ptr encShufPtr), (64, .ptr ctrlLenPtr)]
/-- `/repo/pkg/decode/decode_amd64.go:47-50` -/
def get8Args (inn : Bytes) (out : U32s) (ctrl : U16) : Frame :=
  sliceArg 0 inn ++ sliceArg 24 out ++ [(48, .w ctrl), (56, .ptr decShufPtr), (64, .ptr ctrlLenPtr)]
/-- `/repo/pkg/decode/decode_amd64.go:64-67` -/
def get8DeltaArgs (inn : Bytes) (out : U32s) (ctrl : U16) (prev : U32) : Frame :=
  sliceArg 0 inn ++ sliceArg 24 out ++ [(48, .w ctrl), (52, .d prev), (56, .ptr decShufPtr), (64, .ptr ctrlLenPtr)]

/-! ## Calls, without reference to the model's memory -/

/-- The program's constants are where the linker has put them. -/
def Loaded (t : Mach) : Prop := TablesLoaded fun p => t.mem (t.sb p.blk + BitVec.ofNat 64 p.off)

/-- Start and size of the pieces of memory that matter: `n` bytes of arguments and result, 32 bytes each at `a` and `b`, and the
constants (sizes as in `/repo/pkg/shared/tables.go:5, 72, 107, 622` and `/repo/pkg/encode/encode_amd64.s:5-9`). -/
def regions (t : Mach) (n : Nat) (a b : Addr) : List (Addr × Nat) :=
  [(t.fp, n), (a, 32), (b, 32), (t.sb .encShuf, 4096), (t.sb .decShuf, 4096), (t.sb .ctrlLen, 256), (t.sb .numLen, 1024),
   (t.sb .mask0101, 2), (t.sb .mask7F00, 2)]

/-- No two pieces have an address in common. -/
def Apart (rs : List (Addr × Nat)) : Prop :=
  rs.Pairwise fun r s => ∀ i < r.2, ∀ j < s.2, r.1 + BitVec.ofNat 64 i ≠ s.1 + BitVec.ofNat 64 j

/-- `n` numbers from address `a` on. -/
def words (m : FMem) (a : Addr) (n : Nat) : List U32 := (List.range n).map fun k => readLE m (a + BitVec.ofNat 64 (4 * k)) 4
/-- `n` bytes from address `a` on. -/
def bytes (m : FMem) (a : Addr) (n : Nat) : List Byte := (List.range n).map fun i => m (a + BitVec.ofNat 64 i)

/-- The argument `name+off(FP)` if it is a pointer. -/
def Mach.ptrArg (t : Mach) (off : Nat) : Addr := readLE t.mem (t.arg off) 8

end SVB.Flat
