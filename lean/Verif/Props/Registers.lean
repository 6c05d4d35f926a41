import Verif.Proofs.AsmRegs

/-! # C43: the assembly routines do not depend on what the registers held on entry -/

set_option autoImplicit false

namespace SVB.Props
open Asm

/-- Some entry state that is nothing like `St.init`: integers in every general purpose register, 0xEE in every
vector lane, garbage in the result slots. -/
def dirty : St where
  gp _ := .int 0xDEADBEEF
  x _ _ := 0xEE
  res := [(64, 0xBAAD), (72, 0xF00D)]

/-- C43 for `Put8uint32FastAsm`: from any entry state, the routine makes the same accesses and the caller reads
the same result. -/
theorem C43_put8uint32Fast (s : St) (inn : U32s) (out : Bytes) (shuffle lenTable : Ptr) :
    (do
      let s' ← exec (sliceArg 0 inn ++ sliceArg 24 out ++ [(48, .ptr shuffle), (56, .ptr lenTable)])
        put8uint32FastText s
      match s'.res.lookup 64 with
      | some r => pure r
      | none => .panic .fault) = put8uint32FastAsm inn out shuffle lenTable :=
  exec_result _ _ 64 (by decide +kernel) s St.init fun r => match r with | some r => pure r | none => .panic .fault

/-- C43 for `Put8uint32DeltaFastAsm`. -/
theorem C43_put8uint32DeltaFast (s : St) (inn : U32s) (out : Bytes) (prev : U32) (shuffle lenTable : Ptr) :
    (do
      let s' ← exec (sliceArg 0 inn ++ sliceArg 24 out ++ [(48, .d prev), (56, .ptr shuffle), (64, .ptr lenTable)])
        put8uint32DeltaFastText s
      match s'.res.lookup 72 with
      | some r => pure r
      | none => .panic .fault) = put8uint32DeltaFastAsm inn out prev shuffle lenTable :=
  exec_result _ _ 72 (by decide +kernel) s St.init fun r => match r with | some r => pure r | none => .panic .fault

/-- C43 for `Get8uint32FastAsm`. -/
theorem C43_get8uint32Fast (s : St) (inn : Bytes) (out : U32s) (ctrl : U16) (shuffle lenTable : Ptr) :
    (do
      let _ ← exec (sliceArg 0 inn ++ sliceArg 24 out ++ [(48, .w ctrl), (56, .ptr shuffle), (64, .ptr lenTable)])
        get8uint32FastText s
      pure ()) = get8uint32FastAsm inn out ctrl shuffle lenTable :=
  exec_unit _ _ (by decide +kernel) s St.init (pure ())

/-- C43 for `Get8uint32DeltaFastAsm`. -/
theorem C43_get8uint32DeltaFast (s : St) (inn : Bytes) (out : U32s) (ctrl : U16) (prev : U32)
    (shuffle lenTable : Ptr) :
    (do
      let _ ← exec (sliceArg 0 inn ++ sliceArg 24 out ++
        [(48, .w ctrl), (52, .d prev), (56, .ptr shuffle), (64, .ptr lenTable)]) get8uint32DeltaFastText s
      pure ()) = get8uint32DeltaFastAsm inn out ctrl prev shuffle lenTable :=
  exec_unit _ _ (by decide +kernel) s St.init (pure ())

/-- The entry state the theorems speak of can differ from the model's in every register. -/
example : dirty.gp .CX ≠ St.init.gp .CX ∧ dirty.x .X3 7 ≠ St.init.x .X3 7 ∧ dirty.res ≠ St.init.res := by
  refine ⟨by simp [dirty, St.init], by decide, by decide⟩

/-- The check is not idle: without its first instruction the encoder would use whatever `AX` held. -/
example : defined [64] [] [] [] put8uint32FastText.tail = false := by decide +kernel

/-- Nor without the instruction that stores the result. -/
example : defined [64] [] [] [] (put8uint32FastText.eraseIdx 11) = false := by decide +kernel

end SVB.Props
