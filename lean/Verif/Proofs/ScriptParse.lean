import Verif.Proofs.GoParse
import Verif.Model.ScriptFiles
import Verif.Model.ScriptSources

/-! # The parsed files of `ScriptFiles.lean` are what the parser makes of the texts -/

set_option autoImplicit false

namespace SVB.Script
open SVB.Sources

theorem gentables_parsed : parse gentablesGo = some Files.gentables := by kernel_rfl
theorem sharedAsm_parsed : parse sharedAsmGo = some Files.sharedAsm := by kernel_rfl
theorem encAsm_parsed : parse encodeAsmGo = some Files.encAsm := by kernel_rfl
theorem decAsm_parsed : parse decodeAsmGo = some Files.decAsm := by kernel_rfl
theorem rand_parsed : parse randGo = some Files.rand := by kernel_rfl
theorem util_parsed : parse utilGo = some Files.util := by kernel_rfl
theorem bench_parsed : parse benchGo = some Files.bench := by kernel_rfl

end SVB.Script
