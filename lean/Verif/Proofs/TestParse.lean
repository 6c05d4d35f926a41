import Verif.Proofs.GoParse
import Verif.Model.TestFiles
import Verif.Model.TestSources

/-! # The parsed files of `TestFiles.lean` are what the parser makes of the texts -/

set_option autoImplicit false

namespace SVB.Tests
open SVB.Sources SVB.Script

theorem pkgTest_parsed : parse pkgTestGo = some Files.pkgTest := by kernel_rfl
theorem encTest_parsed : parse encodeTestGo = some Files.encTest := by kernel_rfl
theorem decTest_parsed : parse decodeTestGo = some Files.decTest := by kernel_rfl
theorem wrTest_parsed : parse writerTestGo = some Files.wrTest := by kernel_rfl
theorem rdTest_parsed : parse readerTestGo = some Files.rdTest := by kernel_rfl
theorem vintTest_parsed : parse varintTestGo = some Files.vintTest := by kernel_rfl

end SVB.Tests
