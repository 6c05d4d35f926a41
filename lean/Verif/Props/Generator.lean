import Verif.Proofs.Gen

/-! # C44: the checked-in assembly is what the generators print

The generators' programs, run with a register of its own for every `GP64()`, `GP32()` and `XMM()` and with the argument
frame that the signature implies, make exactly the accesses of the checked-in routines and return their results. -/

set_option autoImplicit false

namespace SVB.Props
open Asm Gen GP XR

/-- A slice as an argument. -/
def sliceA {e : Nat} (s : Slice e) : Arg := .slice s.ptr s.len s.cap

/-- What a call of generated code does: it finds the arguments where the signature puts them, runs from an entry state
`s`, and the caller reads the `uint16` result named `r`. -/
def callR (sig : Sig) (code : Option (List (GInstr Nat Nat))) (args : List Arg) (s : GSt Nat Nat) : Option (Prog U16) :=
  match code, frame sig.args args, sig.rets.1 with
  | some is, some fr, [("r", .u16, o)] => some do
      let s' ← gexec fr is s
      match s'.res.lookup o with
      | some r => pure r
      | none => .panic .fault
  | _, _, _ => none

/-- The same without a result. -/
def call0 (sig : Sig) (code : Option (List (GInstr Nat Nat))) (args : List Arg) (s : GSt Nat Nat) : Option (Prog Unit) :=
  match code, frame sig.args args, sig.rets.1 with
  | some is, some fr, [] => some do
      let _ ← gexec fr is s
      pure ()
  | _, _, _ => none

/-- Physical registers of the virtual ones, in the order of their creation: `encode_amd64.s`. -/
def encG (u : Nat) : GP := [AX, AX, CX, DX, BX, CX, DX, BX, AX].getD u AX
def encX (u : Nat) : XR := [X0, X1, X2, X3, X4, X5].getD u X0
def encDX (u : Nat) : XR := [X0, X1, X2, X2, X3, X4, X5].getD u X0
/-- The same for `decode_amd64.s`. -/
def decG (u : Nat) : GP := [AX, CX, DX, BX, CX, SI, DI, AX, AX].getD u AX
def decX (u : Nat) : XR := [X0, X1, X2, X3, X3].getD u X0

/-- C44, the texts: up to the names of registers the generators print the checked-in instructions. -/
theorem C44_text :
    Enc.regular.map (List.map (GInstr.on encG encX)) = some put8uint32FastText ∧
    Enc.differential.map (List.map (GInstr.on encG encDX)) = some put8uint32DeltaFastText ∧
    Dec.regular.map (List.map (GInstr.on decG decX)) = some get8uint32FastText ∧
    Dec.differential.map (List.map (GInstr.on decG decX)) = some get8uint32DeltaFastText :=
  ⟨rfl, rfl, rfl, rfl⟩

/-- C44, the sizes of the argument frames in the `TEXT` lines: `$0-66`, `$0-74`, `$0-72`, `$0-72`
(`/repo/pkg/encode/encode_amd64.s:13`, `:49`, `/repo/pkg/decode/decode_amd64.s:7`, `:35`). -/
theorem C44_frames :
    Enc.signature.size = 66 ∧ Enc.signatureDelta.size = 74 ∧ Dec.signature.size = 72 ∧ Dec.signatureDelta.size = 72 := by
  decide

/-- C44 for `Put8uint32FastAsm`: no value is lost by the choice of registers. -/
theorem C44_put8uint32Fast (s : GSt Nat Nat) (inn : U32s) (out : Bytes) (shuffle lenTable : Ptr) :
    callR Enc.signature Enc.regular [sliceA inn, sliceA out, .ptr shuffle, .ptr lenTable] s =
      some (put8uint32FastAsm inn out shuffle lenTable) :=
  congrArg some (gexec_result encG encX
    (sliceArg 0 inn ++ sliceArg 24 out ++ [(48, .ptr shuffle), (56, .ptr lenTable)]) _ 64 (by decide +kernel) s St.init
    fun r => match r with | some r => pure r | none => .panic .fault)

/-- C44 for `Put8uint32DeltaFastAsm`. -/
theorem C44_put8uint32DeltaFast (s : GSt Nat Nat) (inn : U32s) (out : Bytes) (prev : U32) (shuffle lenTable : Ptr) :
    callR Enc.signatureDelta Enc.differential [sliceA inn, sliceA out, .u32 prev, .ptr shuffle, .ptr lenTable] s =
      some (put8uint32DeltaFastAsm inn out prev shuffle lenTable) :=
  congrArg some (gexec_result encG encDX
    (sliceArg 0 inn ++ sliceArg 24 out ++ [(48, .d prev), (56, .ptr shuffle), (64, .ptr lenTable)]) _ 72
    (by decide +kernel) s St.init fun r => match r with | some r => pure r | none => .panic .fault)

/-- C44 for `Get8uint32FastAsm`. -/
theorem C44_get8uint32Fast (s : GSt Nat Nat) (inn : Bytes) (out : U32s) (ctrl : U16) (shuffle lenTable : Ptr) :
    call0 Dec.signature Dec.regular [sliceA inn, sliceA out, .u16 ctrl, .ptr shuffle, .ptr lenTable] s =
      some (get8uint32FastAsm inn out ctrl shuffle lenTable) :=
  congrArg some (gexec_unit decG decX
    (sliceArg 0 inn ++ sliceArg 24 out ++ [(48, .w ctrl), (56, .ptr shuffle), (64, .ptr lenTable)]) _
    (by decide +kernel) s St.init (pure ()))

/-- C44 for `Get8uint32DeltaFastAsm`. -/
theorem C44_get8uint32DeltaFast (s : GSt Nat Nat) (inn : Bytes) (out : U32s) (ctrl : U16) (prev : U32)
    (shuffle lenTable : Ptr) :
    call0 Dec.signatureDelta Dec.differential
        [sliceA inn, sliceA out, .u16 ctrl, .u32 prev, .ptr shuffle, .ptr lenTable] s =
      some (get8uint32DeltaFastAsm inn out ctrl prev shuffle lenTable) :=
  congrArg some (gexec_unit decG decX
    (sliceArg 0 inn ++ sliceArg 24 out ++ [(48, .w ctrl), (52, .d prev), (56, .ptr shuffle), (64, .ptr lenTable)]) _
    (by decide +kernel) s St.init (pure ()))

/-! The checks are not idle. -/

/-- The generators use more registers than the processor code: three virtual registers share `AX` in the encoder. -/
example : encG 0 = encG 1 ∧ encG 1 = encG 8 ∧ encG 0 = AX := ⟨rfl, rfl, rfl⟩

/-- Keeping the shuffle table's base in the register of the control word would be wrong. -/
example : (Dec.regular.map (allocOk (fun u => if u = 1 then AX else decG u) decX [] [] [] [])) = some false := by
  decide +kernel

/-- So would be two vectors of the encoder in one register. -/
example : (Enc.regular.map (allocOk encG (fun u => if u = 5 then X1 else encX u) [64] [] [] [])) = some false := by
  decide +kernel

/-- Parameters: `prev` shares a word with `ctrl` in the decoder but not in the encoder. -/
example : Dec.signatureDelta.args.lookup "prev" = some (.u32, 52) ∧ Enc.signatureDelta.args.lookup "prev" = some (.u32, 48) ∧
    Enc.signatureDelta.args.lookup "shuffle" = some (.ptr, 56) := by decide

end SVB.Props
