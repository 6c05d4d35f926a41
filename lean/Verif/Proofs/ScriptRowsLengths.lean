import Verif.Proofs.ScriptTables

/-! # Rows of the two tables of lengths, as `gentables` writes them -/

set_option autoImplicit false
set_option maxRecDepth 100000

namespace SVB.Script.Tables

chunks perNum perNumTable
chunks perQuad perQuadTable

end SVB.Script.Tables
