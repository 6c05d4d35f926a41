import Verif.Proofs.ScriptTables

/-! # Rows of the table for decoding, as `gentables` writes them -/

set_option autoImplicit false
set_option maxRecDepth 100000

namespace SVB.Script.Tables

chunks decode decodeTable

end SVB.Script.Tables
