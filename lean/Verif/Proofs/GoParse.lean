import Lean.Elab.Tactic.Basic
import Verif.Model.GoFiles
import Verif.Model.Sources
import Verif.Model.GoSources

/-! # The parsed files of `GoFiles.lean` are what the parser makes of the texts -/

set_option autoImplicit false

namespace SVB.Go
open SVB.Sources

/-- Close `a = b` by computation in the kernel alone. -/
syntax (name := kernelRfl) "kernel_rfl" : tactic

open Lean Elab Tactic Meta in
@[tactic kernelRfl] def evalKernelRfl : Tactic := fun _ => do
  let g ← getMainGoal
  let t ← instantiateMVars (← g.getType)
  let some (ty, a, _) := t.eq? | throwError "not an equation"
  let u ← getLevel ty
  g.assign (mkApp2 (.const ``Eq.refl [u]) ty a)

theorem gen_parsed : parseGo genGo = some Files.gen := by kernel_rfl
theorem mode_parsed : parseGo modeGo = some Files.mode := by kernel_rfl
theorem enc_parsed : parseGo encodeMainGo = some Files.enc := by kernel_rfl
theorem encAmd64_parsed : parseGo encodeGo = some Files.encAmd64 := by kernel_rfl
theorem encBase_parsed : parseGo encodeBaseGo = some Files.encBase := by kernel_rfl
theorem dec_parsed : parseGo decodeMainGo = some Files.dec := by kernel_rfl
theorem decAmd64_parsed : parseGo decodeGo = some Files.decAmd64 := by kernel_rfl
theorem decBase_parsed : parseGo decodeBaseGo = some Files.decBase := by kernel_rfl
theorem wr_parsed : parseGo writerGo = some Files.wr := by kernel_rfl
theorem wrAmd64_parsed : parseGo writerAmd64Go = some Files.wrAmd64 := by kernel_rfl
theorem wrBase_parsed : parseGo writerBaseGo = some Files.wrBase := by kernel_rfl
theorem rd_parsed : parseGo readerGo = some Files.rd := by kernel_rfl
theorem rdAmd64_parsed : parseGo readerAmd64Go = some Files.rdAmd64 := by kernel_rfl
theorem rdBase_parsed : parseGo readerBaseGo = some Files.rdBase := by kernel_rfl
theorem vint_parsed : parseGo varintGo = some Files.vint := by kernel_rfl
theorem util_parsed : parseGo utilGo = some Files.util := by kernel_rfl

end SVB.Go
