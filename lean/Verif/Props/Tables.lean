import Verif.Model.Shared
import Verif.Spec

/-! # Properties of the lookup tables: C25 -/

set_option autoImplicit false

namespace SVB.Props
open Spec

/-! ## The tables are what the generator prints -/

/-- C25: `PerNumLenTable` row by row. -/
theorem C25_perNumLen : perNumLenTable = (List.range 256).map genPerNumRow := by decide +kernel

/-- C25: `PerControlLenTable`. -/
theorem C25_perControlLen : perControlLenTable = (List.range 256).map genPerQuad := by decide +kernel

/-- C25: `EncodeShuffleTable` row by row. -/
theorem C25_encodeShuffle : encodeShuffleTable = (List.range 256).map genEncRow := by decide +kernel

/-- C25: `DecodeShuffleTable` row by row. -/
theorem C25_decodeShuffle : decodeShuffleTable = (List.range 256).map genDecRow := by decide +kernel

/-! ## The same in terms of the format

`codeLens 4 c` are the four lengths announced by control byte `c`; number `n` of a group occupies the data
bytes `start c n … start c n + length - 1`. -/

/-- First data byte of number `n` of a group with control byte `c`. -/
def start (c n : Nat) : Nat := (codeLens n c).sum

/-- C25: `PerNumLenTable[c]` is the four announced lengths. -/
theorem C25_numLen_format : ∀ c < 256, perNumLenTable[c]? = some (codeLens 4 c) := by decide +kernel

/-- C25: `PerControlLenTable[c]` is their sum. -/
theorem C25_ctrlLen_format : ∀ c < 256, perControlLenTable[c]? = some (codeLens 4 c).sum := by decide +kernel

/-- C25: row `c` of `EncodeShuffleTable` has 16 entries; the one at place `start c n + r` selects byte `r`
of lane `n`, and all entries after the last number have the top bit set (`VPSHUFB` writes zero). -/
theorem C25_encShuf_format : ∀ c < 256, ∃ row, encodeShuffleTable[c]? = some row ∧ row.length = 16 ∧
    (∀ n < 4, ∀ r < (codeLens 4 c).getD n 0, row[start c n + r]? = some (4 * n + r)) ∧
    ∀ j < 16, (codeLens 4 c).sum ≤ j → row[j]? = some 0xff := by
  have : ∀ c < 256, encodeShuffleTable[c]? = some (encodeShuffleTable.getD c []) ∧
      (encodeShuffleTable.getD c []).length = 16 ∧
      (∀ n < 4, ∀ r < (codeLens 4 c).getD n 0,
        (encodeShuffleTable.getD c [])[start c n + r]? = some (4 * n + r)) ∧
      ∀ j < 16, (codeLens 4 c).sum ≤ j → (encodeShuffleTable.getD c [])[j]? = some 0xff := by
    decide +kernel
  exact fun c hc => ⟨_, this c hc⟩

/-- C25: row `c` of `DecodeShuffleTable` has 16 entries; entry `k` of lane `n` selects data byte
`start c n + k` if number `n` has that many bytes, and has the top bit set otherwise. -/
theorem C25_decShuf_format : ∀ c < 256, ∃ row, decodeShuffleTable[c]? = some row ∧ row.length = 16 ∧
    ∀ n < 4, ∀ k < 4, row[4 * n + k]? =
      some (if k < (codeLens 4 c).getD n 0 then start c n + k else 0xff) := by
  have : ∀ c < 256, decodeShuffleTable[c]? = some (decodeShuffleTable.getD c []) ∧
      (decodeShuffleTable.getD c []).length = 16 ∧
      ∀ n < 4, ∀ k < 4, (decodeShuffleTable.getD c [])[4 * n + k]? =
        some (if k < (codeLens 4 c).getD n 0 then start c n + k else 0xff) := by decide +kernel
  exact fun c hc => ⟨_, this c hc⟩

/-- C25: the tables have exactly 256 rows. -/
theorem C25_rows : perNumLenTable.length = 256 ∧ perControlLenTable.length = 256 ∧
    encodeShuffleTable.length = 256 ∧ decodeShuffleTable.length = 256 := by decide +kernel

-- Control byte 0xe4 announces lengths 1, 2, 3, 4.
example : codeLens 4 0xe4 = [1, 2, 3, 4] := by decide
example : encodeShuffleTable[0xe4]? =
    some [0, 4, 5, 8, 9, 10, 12, 13, 14, 15, 255, 255, 255, 255, 255, 255] := by decide +kernel

end SVB.Props
