import Verif.Proofs.ScriptTables

/-! # Rows of the table for encoding, as `gentables` writes them -/

set_option autoImplicit false
set_option maxRecDepth 100000

namespace SVB.Script.Tables

chunks encode encodeTable

end SVB.Script.Tables
