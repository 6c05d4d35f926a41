/-!
# The lookup tables of `/repo/pkg/shared/tables.go`

GENERATED by `/verif/scripts/gen_tables.py`: a literal copy of every entry of the Go file.
-/
namespace SVB

set_option maxRecDepth 100000

/-- `PerNumLenTable`, `/repo/pkg/shared/tables.go:5-70`. -/
def perNumLenTable : List (List Nat) := [
  [1, 1, 1, 1],
  [2, 1, 1, 1],
  [3, 1, 1, 1],
  [4, 1, 1, 1],
  [1, 2, 1, 1],
  [2, 2, 1, 1],
  [3, 2, 1, 1],
  [4, 2, 1, 1],
  [1, 3, 1, 1],
  [2, 3, 1, 1],
  [3, 3, 1, 1],
  [4, 3, 1, 1],
  [1, 4, 1, 1],
  [2, 4, 1, 1],
  [3, 4, 1, 1],
  [4, 4, 1, 1],
  [1, 1, 2, 1],
  [2, 1, 2, 1],
  [3, 1, 2, 1],
  [4, 1, 2, 1],
  [1, 2, 2, 1],
  [2, 2, 2, 1],
  [3, 2, 2, 1],
  [4, 2, 2, 1],
  [1, 3, 2, 1],
  [2, 3, 2, 1],
  [3, 3, 2, 1],
  [4, 3, 2, 1],
  [1, 4, 2, 1],
  [2, 4, 2, 1],
  [3, 4, 2, 1],
  [4, 4, 2, 1],
  [1, 1, 3, 1],
  [2, 1, 3, 1],
  [3, 1, 3, 1],
  [4, 1, 3, 1],
  [1, 2, 3, 1],
  [2, 2, 3, 1],
  [3, 2, 3, 1],
  [4, 2, 3, 1],
  [1, 3, 3, 1],
  [2, 3, 3, 1],
  [3, 3, 3, 1],
  [4, 3, 3, 1],
  [1, 4, 3, 1],
  [2, 4, 3, 1],
  [3, 4, 3, 1],
  [4, 4, 3, 1],
  [1, 1, 4, 1],
  [2, 1, 4, 1],
  [3, 1, 4, 1],
  [4, 1, 4, 1],
  [1, 2, 4, 1],
  [2, 2, 4, 1],
  [3, 2, 4, 1],
  [4, 2, 4, 1],
  [1, 3, 4, 1],
  [2, 3, 4, 1],
  [3, 3, 4, 1],
  [4, 3, 4, 1],
  [1, 4, 4, 1],
  [2, 4, 4, 1],
  [3, 4, 4, 1],
  [4, 4, 4, 1],
  [1, 1, 1, 2],
  [2, 1, 1, 2],
  [3, 1, 1, 2],
  [4, 1, 1, 2],
  [1, 2, 1, 2],
  [2, 2, 1, 2],
  [3, 2, 1, 2],
  [4, 2, 1, 2],
  [1, 3, 1, 2],
  [2, 3, 1, 2],
  [3, 3, 1, 2],
  [4, 3, 1, 2],
  [1, 4, 1, 2],
  [2, 4, 1, 2],
  [3, 4, 1, 2],
  [4, 4, 1, 2],
  [1, 1, 2, 2],
  [2, 1, 2, 2],
  [3, 1, 2, 2],
  [4, 1, 2, 2],
  [1, 2, 2, 2],
  [2, 2, 2, 2],
  [3, 2, 2, 2],
  [4, 2, 2, 2],
  [1, 3, 2, 2],
  [2, 3, 2, 2],
  [3, 3, 2, 2],
  [4, 3, 2, 2],
  [1, 4, 2, 2],
  [2, 4, 2, 2],
  [3, 4, 2, 2],
  [4, 4, 2, 2],
  [1, 1, 3, 2],
  [2, 1, 3, 2],
  [3, 1, 3, 2],
  [4, 1, 3, 2],
  [1, 2, 3, 2],
  [2, 2, 3, 2],
  [3, 2, 3, 2],
  [4, 2, 3, 2],
  [1, 3, 3, 2],
  [2, 3, 3, 2],
  [3, 3, 3, 2],
  [4, 3, 3, 2],
  [1, 4, 3, 2],
  [2, 4, 3, 2],
  [3, 4, 3, 2],
  [4, 4, 3, 2],
  [1, 1, 4, 2],
  [2, 1, 4, 2],
  [3, 1, 4, 2],
  [4, 1, 4, 2],
  [1, 2, 4, 2],
  [2, 2, 4, 2],
  [3, 2, 4, 2],
  [4, 2, 4, 2],
  [1, 3, 4, 2],
  [2, 3, 4, 2],
  [3, 3, 4, 2],
  [4, 3, 4, 2],
  [1, 4, 4, 2],
  [2, 4, 4, 2],
  [3, 4, 4, 2],
  [4, 4, 4, 2],
  [1, 1, 1, 3],
  [2, 1, 1, 3],
  [3, 1, 1, 3],
  [4, 1, 1, 3],
  [1, 2, 1, 3],
  [2, 2, 1, 3],
  [3, 2, 1, 3],
  [4, 2, 1, 3],
  [1, 3, 1, 3],
  [2, 3, 1, 3],
  [3, 3, 1, 3],
  [4, 3, 1, 3],
  [1, 4, 1, 3],
  [2, 4, 1, 3],
  [3, 4, 1, 3],
  [4, 4, 1, 3],
  [1, 1, 2, 3],
  [2, 1, 2, 3],
  [3, 1, 2, 3],
  [4, 1, 2, 3],
  [1, 2, 2, 3],
  [2, 2, 2, 3],
  [3, 2, 2, 3],
  [4, 2, 2, 3],
  [1, 3, 2, 3],
  [2, 3, 2, 3],
  [3, 3, 2, 3],
  [4, 3, 2, 3],
  [1, 4, 2, 3],
  [2, 4, 2, 3],
  [3, 4, 2, 3],
  [4, 4, 2, 3],
  [1, 1, 3, 3],
  [2, 1, 3, 3],
  [3, 1, 3, 3],
  [4, 1, 3, 3],
  [1, 2, 3, 3],
  [2, 2, 3, 3],
  [3, 2, 3, 3],
  [4, 2, 3, 3],
  [1, 3, 3, 3],
  [2, 3, 3, 3],
  [3, 3, 3, 3],
  [4, 3, 3, 3],
  [1, 4, 3, 3],
  [2, 4, 3, 3],
  [3, 4, 3, 3],
  [4, 4, 3, 3],
  [1, 1, 4, 3],
  [2, 1, 4, 3],
  [3, 1, 4, 3],
  [4, 1, 4, 3],
  [1, 2, 4, 3],
  [2, 2, 4, 3],
  [3, 2, 4, 3],
  [4, 2, 4, 3],
  [1, 3, 4, 3],
  [2, 3, 4, 3],
  [3, 3, 4, 3],
  [4, 3, 4, 3],
  [1, 4, 4, 3],
  [2, 4, 4, 3],
  [3, 4, 4, 3],
  [4, 4, 4, 3],
  [1, 1, 1, 4],
  [2, 1, 1, 4],
  [3, 1, 1, 4],
  [4, 1, 1, 4],
  [1, 2, 1, 4],
  [2, 2, 1, 4],
  [3, 2, 1, 4],
  [4, 2, 1, 4],
  [1, 3, 1, 4],
  [2, 3, 1, 4],
  [3, 3, 1, 4],
  [4, 3, 1, 4],
  [1, 4, 1, 4],
  [2, 4, 1, 4],
  [3, 4, 1, 4],
  [4, 4, 1, 4],
  [1, 1, 2, 4],
  [2, 1, 2, 4],
  [3, 1, 2, 4],
  [4, 1, 2, 4],
  [1, 2, 2, 4],
  [2, 2, 2, 4],
  [3, 2, 2, 4],
  [4, 2, 2, 4],
  [1, 3, 2, 4],
  [2, 3, 2, 4],
  [3, 3, 2, 4],
  [4, 3, 2, 4],
  [1, 4, 2, 4],
  [2, 4, 2, 4],
  [3, 4, 2, 4],
  [4, 4, 2, 4],
  [1, 1, 3, 4],
  [2, 1, 3, 4],
  [3, 1, 3, 4],
  [4, 1, 3, 4],
  [1, 2, 3, 4],
  [2, 2, 3, 4],
  [3, 2, 3, 4],
  [4, 2, 3, 4],
  [1, 3, 3, 4],
  [2, 3, 3, 4],
  [3, 3, 3, 4],
  [4, 3, 3, 4],
  [1, 4, 3, 4],
  [2, 4, 3, 4],
  [3, 4, 3, 4],
  [4, 4, 3, 4],
  [1, 1, 4, 4],
  [2, 1, 4, 4],
  [3, 1, 4, 4],
  [4, 1, 4, 4],
  [1, 2, 4, 4],
  [2, 2, 4, 4],
  [3, 2, 4, 4],
  [4, 2, 4, 4],
  [1, 3, 4, 4],
  [2, 3, 4, 4],
  [3, 3, 4, 4],
  [4, 3, 4, 4],
  [1, 4, 4, 4],
  [2, 4, 4, 4],
  [3, 4, 4, 4],
  [4, 4, 4, 4]]

/-- `EncodeShuffleTable`, `/repo/pkg/shared/tables.go:107-620` (0xff = 255). -/
def encodeShuffleTable : List (List Nat) := [
  [0, 4, 8, 12, 255, 255, 255, 255, 255, 255, 255, 255, 255, 255, 255, 255],
  [0, 1, 4, 8, 12, 255, 255, 255, 255, 255, 255, 255, 255, 255, 255, 255],
  [0, 1, 2, 4, 8, 12, 255, 255, 255, 255, 255, 255, 255, 255, 255, 255],
  [0, 1, 2, 3, 4, 8, 12, 255, 255, 255, 255, 255, 255, 255, 255, 255],
  [0, 4, 5, 8, 12, 255, 255, 255, 255, 255, 255, 255, 255, 255, 255, 255],
  [0, 1, 4, 5, 8, 12, 255, 255, 255, 255, 255, 255, 255, 255, 255, 255],
  [0, 1, 2, 4, 5, 8, 12, 255, 255, 255, 255, 255, 255, 255, 255, 255],
  [0, 1, 2, 3, 4, 5, 8, 12, 255, 255, 255, 255, 255, 255, 255, 255],
  [0, 4, 5, 6, 8, 12, 255, 255, 255, 255, 255, 255, 255, 255, 255, 255],
  [0, 1, 4, 5, 6, 8, 12, 255, 255, 255, 255, 255, 255, 255, 255, 255],
  [0, 1, 2, 4, 5, 6, 8, 12, 255, 255, 255, 255, 255, 255, 255, 255],
  [0, 1, 2, 3, 4, 5, 6, 8, 12, 255, 255, 255, 255, 255, 255, 255],
  [0, 4, 5, 6, 7, 8, 12, 255, 255, 255, 255, 255, 255, 255, 255, 255],
  [0, 1, 4, 5, 6, 7, 8, 12, 255, 255, 255, 255, 255, 255, 255, 255],
  [0, 1, 2, 4, 5, 6, 7, 8, 12, 255, 255, 255, 255, 255, 255, 255],
  [0, 1, 2, 3, 4, 5, 6, 7, 8, 12, 255, 255, 255, 255, 255, 255],
  [0, 4, 8, 9, 12, 255, 255, 255, 255, 255, 255, 255, 255, 255, 255, 255],
  [0, 1, 4, 8, 9, 12, 255, 255, 255, 255, 255, 255, 255, 255, 255, 255],
  [0, 1, 2, 4, 8, 9, 12, 255, 255, 255, 255, 255, 255, 255, 255, 255],
  [0, 1, 2, 3, 4, 8, 9, 12, 255, 255, 255, 255, 255, 255, 255, 255],
  [0, 4, 5, 8, 9, 12, 255, 255, 255, 255, 255, 255, 255, 255, 255, 255],
  [0, 1, 4, 5, 8, 9, 12, 255, 255, 255, 255, 255, 255, 255, 255, 255],
  [0, 1, 2, 4, 5, 8, 9, 12, 255, 255, 255, 255, 255, 255, 255, 255],
  [0, 1, 2, 3, 4, 5, 8, 9, 12, 255, 255, 255, 255, 255, 255, 255],
  [0, 4, 5, 6, 8, 9, 12, 255, 255, 255, 255, 255, 255, 255, 255, 255],
  [0, 1, 4, 5, 6, 8, 9, 12, 255, 255, 255, 255, 255, 255, 255, 255],
  [0, 1, 2, 4, 5, 6, 8, 9, 12, 255, 255, 255, 255, 255, 255, 255],
  [0, 1, 2, 3, 4, 5, 6, 8, 9, 12, 255, 255, 255, 255, 255, 255],
  [0, 4, 5, 6, 7, 8, 9, 12, 255, 255, 255, 255, 255, 255, 255, 255],
  [0, 1, 4, 5, 6, 7, 8, 9, 12, 255, 255, 255, 255, 255, 255, 255],
  [0, 1, 2, 4, 5, 6, 7, 8, 9, 12, 255, 255, 255, 255, 255, 255],
  [0, 1, 2, 3, 4, 5, 6, 7, 8, 9, 12, 255, 255, 255, 255, 255],
  [0, 4, 8, 9, 10, 12, 255, 255, 255, 255, 255, 255, 255, 255, 255, 255],
  [0, 1, 4, 8, 9, 10, 12, 255, 255, 255, 255, 255, 255, 255, 255, 255],
  [0, 1, 2, 4, 8, 9, 10, 12, 255, 255, 255, 255, 255, 255, 255, 255],
  [0, 1, 2, 3, 4, 8, 9, 10, 12, 255, 255, 255, 255, 255, 255, 255],
  [0, 4, 5, 8, 9, 10, 12, 255, 255, 255, 255, 255, 255, 255, 255, 255],
  [0, 1, 4, 5, 8, 9, 10, 12, 255, 255, 255, 255, 255, 255, 255, 255],
  [0, 1, 2, 4, 5, 8, 9, 10, 12, 255, 255, 255, 255, 255, 255, 255],
  [0, 1, 2, 3, 4, 5, 8, 9, 10, 12, 255, 255, 255, 255, 255, 255],
  [0, 4, 5, 6, 8, 9, 10, 12, 255, 255, 255, 255, 255, 255, 255, 255],
  [0, 1, 4, 5, 6, 8, 9, 10, 12, 255, 255, 255, 255, 255, 255, 255],
  [0, 1, 2, 4, 5, 6, 8, 9, 10, 12, 255, 255, 255, 255, 255, 255],
  [0, 1, 2, 3, 4, 5, 6, 8, 9, 10, 12, 255, 255, 255, 255, 255],
  [0, 4, 5, 6, 7, 8, 9, 10, 12, 255, 255, 255, 255, 255, 255, 255],
  [0, 1, 4, 5, 6, 7, 8, 9, 10, 12, 255, 255, 255, 255, 255, 255],
  [0, 1, 2, 4, 5, 6, 7, 8, 9, 10, 12, 255, 255, 255, 255, 255],
  [0, 1, 2, 3, 4, 5, 6, 7, 8, 9, 10, 12, 255, 255, 255, 255],
  [0, 4, 8, 9, 10, 11, 12, 255, 255, 255, 255, 255, 255, 255, 255, 255],
  [0, 1, 4, 8, 9, 10, 11, 12, 255, 255, 255, 255, 255, 255, 255, 255],
  [0, 1, 2, 4, 8, 9, 10, 11, 12, 255, 255, 255, 255, 255, 255, 255],
  [0, 1, 2, 3, 4, 8, 9, 10, 11, 12, 255, 255, 255, 255, 255, 255],
  [0, 4, 5, 8, 9, 10, 11, 12, 255, 255, 255, 255, 255, 255, 255, 255],
  [0, 1, 4, 5, 8, 9, 10, 11, 12, 255, 255, 255, 255, 255, 255, 255],
  [0, 1, 2, 4, 5, 8, 9, 10, 11, 12, 255, 255, 255, 255, 255, 255],
  [0, 1, 2, 3, 4, 5, 8, 9, 10, 11, 12, 255, 255, 255, 255, 255],
  [0, 4, 5, 6, 8, 9, 10, 11, 12, 255, 255, 255, 255, 255, 255, 255],
  [0, 1, 4, 5, 6, 8, 9, 10, 11, 12, 255, 255, 255, 255, 255, 255],
  [0, 1, 2, 4, 5, 6, 8, 9, 10, 11, 12, 255, 255, 255, 255, 255],
  [0, 1, 2, 3, 4, 5, 6, 8, 9, 10, 11, 12, 255, 255, 255, 255],
  [0, 4, 5, 6, 7, 8, 9, 10, 11, 12, 255, 255, 255, 255, 255, 255],
  [0, 1, 4, 5, 6, 7, 8, 9, 10, 11, 12, 255, 255, 255, 255, 255],
  [0, 1, 2, 4, 5, 6, 7, 8, 9, 10, 11, 12, 255, 255, 255, 255],
  [0, 1, 2, 3, 4, 5, 6, 7, 8, 9, 10, 11, 12, 255, 255, 255],
  [0, 4, 8, 12, 13, 255, 255, 255, 255, 255, 255, 255, 255, 255, 255, 255],
  [0, 1, 4, 8, 12, 13, 255, 255, 255, 255, 255, 255, 255, 255, 255, 255],
  [0, 1, 2, 4, 8, 12, 13, 255, 255, 255, 255, 255, 255, 255, 255, 255],
  [0, 1, 2, 3, 4, 8, 12, 13, 255, 255, 255, 255, 255, 255, 255, 255],
  [0, 4, 5, 8, 12, 13, 255, 255, 255, 255, 255, 255, 255, 255, 255, 255],
  [0, 1, 4, 5, 8, 12, 13, 255, 255, 255, 255, 255, 255, 255, 255, 255],
  [0, 1, 2, 4, 5, 8, 12, 13, 255, 255, 255, 255, 255, 255, 255, 255],
  [0, 1, 2, 3, 4, 5, 8, 12, 13, 255, 255, 255, 255, 255, 255, 255],
  [0, 4, 5, 6, 8, 12, 13, 255, 255, 255, 255, 255, 255, 255, 255, 255],
  [0, 1, 4, 5, 6, 8, 12, 13, 255, 255, 255, 255, 255, 255, 255, 255],
  [0, 1, 2, 4, 5, 6, 8, 12, 13, 255, 255, 255, 255, 255, 255, 255],
  [0, 1, 2, 3, 4, 5, 6, 8, 12, 13, 255, 255, 255, 255, 255, 255],
  [0, 4, 5, 6, 7, 8, 12, 13, 255, 255, 255, 255, 255, 255, 255, 255],
  [0, 1, 4, 5, 6, 7, 8, 12, 13, 255, 255, 255, 255, 255, 255, 255],
  [0, 1, 2, 4, 5, 6, 7, 8, 12, 13, 255, 255, 255, 255, 255, 255],
  [0, 1, 2, 3, 4, 5, 6, 7, 8, 12, 13, 255, 255, 255, 255, 255],
  [0, 4, 8, 9, 12, 13, 255, 255, 255, 255, 255, 255, 255, 255, 255, 255],
  [0, 1, 4, 8, 9, 12, 13, 255, 255, 255, 255, 255, 255, 255, 255, 255],
  [0, 1, 2, 4, 8, 9, 12, 13, 255, 255, 255, 255, 255, 255, 255, 255],
  [0, 1, 2, 3, 4, 8, 9, 12, 13, 255, 255, 255, 255, 255, 255, 255],
  [0, 4, 5, 8, 9, 12, 13, 255, 255, 255, 255, 255, 255, 255, 255, 255],
  [0, 1, 4, 5, 8, 9, 12, 13, 255, 255, 255, 255, 255, 255, 255, 255],
  [0, 1, 2, 4, 5, 8, 9, 12, 13, 255, 255, 255, 255, 255, 255, 255],
  [0, 1, 2, 3, 4, 5, 8, 9, 12, 13, 255, 255, 255, 255, 255, 255],
  [0, 4, 5, 6, 8, 9, 12, 13, 255, 255, 255, 255, 255, 255, 255, 255],
  [0, 1, 4, 5, 6, 8, 9, 12, 13, 255, 255, 255, 255, 255, 255, 255],
  [0, 1, 2, 4, 5, 6, 8, 9, 12, 13, 255, 255, 255, 255, 255, 255],
  [0, 1, 2, 3, 4, 5, 6, 8, 9, 12, 13, 255, 255, 255, 255, 255],
  [0, 4, 5, 6, 7, 8, 9, 12, 13, 255, 255, 255, 255, 255, 255, 255],
  [0, 1, 4, 5, 6, 7, 8, 9, 12, 13, 255, 255, 255, 255, 255, 255],
  [0, 1, 2, 4, 5, 6, 7, 8, 9, 12, 13, 255, 255, 255, 255, 255],
  [0, 1, 2, 3, 4, 5, 6, 7, 8, 9, 12, 13, 255, 255, 255, 255],
  [0, 4, 8, 9, 10, 12, 13, 255, 255, 255, 255, 255, 255, 255, 255, 255],
  [0, 1, 4, 8, 9, 10, 12, 13, 255, 255, 255, 255, 255, 255, 255, 255],
  [0, 1, 2, 4, 8, 9, 10, 12, 13, 255, 255, 255, 255, 255, 255, 255],
  [0, 1, 2, 3, 4, 8, 9, 10, 12, 13, 255, 255, 255, 255, 255, 255],
  [0, 4, 5, 8, 9, 10, 12, 13, 255, 255, 255, 255, 255, 255, 255, 255],
  [0, 1, 4, 5, 8, 9, 10, 12, 13, 255, 255, 255, 255, 255, 255, 255],
  [0, 1, 2, 4, 5, 8, 9, 10, 12, 13, 255, 255, 255, 255, 255, 255],
  [0, 1, 2, 3, 4, 5, 8, 9, 10, 12, 13, 255, 255, 255, 255, 255],
  [0, 4, 5, 6, 8, 9, 10, 12, 13, 255, 255, 255, 255, 255, 255, 255],
  [0, 1, 4, 5, 6, 8, 9, 10, 12, 13, 255, 255, 255, 255, 255, 255],
  [0, 1, 2, 4, 5, 6, 8, 9, 10, 12, 13, 255, 255, 255, 255, 255],
  [0, 1, 2, 3, 4, 5, 6, 8, 9, 10, 12, 13, 255, 255, 255, 255],
  [0, 4, 5, 6, 7, 8, 9, 10, 12, 13, 255, 255, 255, 255, 255, 255],
  [0, 1, 4, 5, 6, 7, 8, 9, 10, 12, 13, 255, 255, 255, 255, 255],
  [0, 1, 2, 4, 5, 6, 7, 8, 9, 10, 12, 13, 255, 255, 255, 255],
  [0, 1, 2, 3, 4, 5, 6, 7, 8, 9, 10, 12, 13, 255, 255, 255],
  [0, 4, 8, 9, 10, 11, 12, 13, 255, 255, 255, 255, 255, 255, 255, 255],
  [0, 1, 4, 8, 9, 10, 11, 12, 13, 255, 255, 255, 255, 255, 255, 255],
  [0, 1, 2, 4, 8, 9, 10, 11, 12, 13, 255, 255, 255, 255, 255, 255],
  [0, 1, 2, 3, 4, 8, 9, 10, 11, 12, 13, 255, 255, 255, 255, 255],
  [0, 4, 5, 8, 9, 10, 11, 12, 13, 255, 255, 255, 255, 255, 255, 255],
  [0, 1, 4, 5, 8, 9, 10, 11, 12, 13, 255, 255, 255, 255, 255, 255],
  [0, 1, 2, 4, 5, 8, 9, 10, 11, 12, 13, 255, 255, 255, 255, 255],
  [0, 1, 2, 3, 4, 5, 8, 9, 10, 11, 12, 13, 255, 255, 255, 255],
  [0, 4, 5, 6, 8, 9, 10, 11, 12, 13, 255, 255, 255, 255, 255, 255],
  [0, 1, 4, 5, 6, 8, 9, 10, 11, 12, 13, 255, 255, 255, 255, 255],
  [0, 1, 2, 4, 5, 6, 8, 9, 10, 11, 12, 13, 255, 255, 255, 255],
  [0, 1, 2, 3, 4, 5, 6, 8, 9, 10, 11, 12, 13, 255, 255, 255],
  [0, 4, 5, 6, 7, 8, 9, 10, 11, 12, 13, 255, 255, 255, 255, 255],
  [0, 1, 4, 5, 6, 7, 8, 9, 10, 11, 12, 13, 255, 255, 255, 255],
  [0, 1, 2, 4, 5, 6, 7, 8, 9, 10, 11, 12, 13, 255, 255, 255],
  [0, 1, 2, 3, 4, 5, 6, 7, 8, 9, 10, 11, 12, 13, 255, 255],
  [0, 4, 8, 12, 13, 14, 255, 255, 255, 255, 255, 255, 255, 255, 255, 255],
  [0, 1, 4, 8, 12, 13, 14, 255, 255, 255, 255, 255, 255, 255, 255, 255],
  [0, 1, 2, 4, 8, 12, 13, 14, 255, 255, 255, 255, 255, 255, 255, 255],
  [0, 1, 2, 3, 4, 8, 12, 13, 14, 255, 255, 255, 255, 255, 255, 255],
  [0, 4, 5, 8, 12, 13, 14, 255, 255, 255, 255, 255, 255, 255, 255, 255],
  [0, 1, 4, 5, 8, 12, 13, 14, 255, 255, 255, 255, 255, 255, 255, 255],
  [0, 1, 2, 4, 5, 8, 12, 13, 14, 255, 255, 255, 255, 255, 255, 255],
  [0, 1, 2, 3, 4, 5, 8, 12, 13, 14, 255, 255, 255, 255, 255, 255],
  [0, 4, 5, 6, 8, 12, 13, 14, 255, 255, 255, 255, 255, 255, 255, 255],
  [0, 1, 4, 5, 6, 8, 12, 13, 14, 255, 255, 255, 255, 255, 255, 255],
  [0, 1, 2, 4, 5, 6, 8, 12, 13, 14, 255, 255, 255, 255, 255, 255],
  [0, 1, 2, 3, 4, 5, 6, 8, 12, 13, 14, 255, 255, 255, 255, 255],
  [0, 4, 5, 6, 7, 8, 12, 13, 14, 255, 255, 255, 255, 255, 255, 255],
  [0, 1, 4, 5, 6, 7, 8, 12, 13, 14, 255, 255, 255, 255, 255, 255],
  [0, 1, 2, 4, 5, 6, 7, 8, 12, 13, 14, 255, 255, 255, 255, 255],
  [0, 1, 2, 3, 4, 5, 6, 7, 8, 12, 13, 14, 255, 255, 255, 255],
  [0, 4, 8, 9, 12, 13, 14, 255, 255, 255, 255, 255, 255, 255, 255, 255],
  [0, 1, 4, 8, 9, 12, 13, 14, 255, 255, 255, 255, 255, 255, 255, 255],
  [0, 1, 2, 4, 8, 9, 12, 13, 14, 255, 255, 255, 255, 255, 255, 255],
  [0, 1, 2, 3, 4, 8, 9, 12, 13, 14, 255, 255, 255, 255, 255, 255],
  [0, 4, 5, 8, 9, 12, 13, 14, 255, 255, 255, 255, 255, 255, 255, 255],
  [0, 1, 4, 5, 8, 9, 12, 13, 14, 255, 255, 255, 255, 255, 255, 255],
  [0, 1, 2, 4, 5, 8, 9, 12, 13, 14, 255, 255, 255, 255, 255, 255],
  [0, 1, 2, 3, 4, 5, 8, 9, 12, 13, 14, 255, 255, 255, 255, 255],
  [0, 4, 5, 6, 8, 9, 12, 13, 14, 255, 255, 255, 255, 255, 255, 255],
  [0, 1, 4, 5, 6, 8, 9, 12, 13, 14, 255, 255, 255, 255, 255, 255],
  [0, 1, 2, 4, 5, 6, 8, 9, 12, 13, 14, 255, 255, 255, 255, 255],
  [0, 1, 2, 3, 4, 5, 6, 8, 9, 12, 13, 14, 255, 255, 255, 255],
  [0, 4, 5, 6, 7, 8, 9, 12, 13, 14, 255, 255, 255, 255, 255, 255],
  [0, 1, 4, 5, 6, 7, 8, 9, 12, 13, 14, 255, 255, 255, 255, 255],
  [0, 1, 2, 4, 5, 6, 7, 8, 9, 12, 13, 14, 255, 255, 255, 255],
  [0, 1, 2, 3, 4, 5, 6, 7, 8, 9, 12, 13, 14, 255, 255, 255],
  [0, 4, 8, 9, 10, 12, 13, 14, 255, 255, 255, 255, 255, 255, 255, 255],
  [0, 1, 4, 8, 9, 10, 12, 13, 14, 255, 255, 255, 255, 255, 255, 255],
  [0, 1, 2, 4, 8, 9, 10, 12, 13, 14, 255, 255, 255, 255, 255, 255],
  [0, 1, 2, 3, 4, 8, 9, 10, 12, 13, 14, 255, 255, 255, 255, 255],
  [0, 4, 5, 8, 9, 10, 12, 13, 14, 255, 255, 255, 255, 255, 255, 255],
  [0, 1, 4, 5, 8, 9, 10, 12, 13, 14, 255, 255, 255, 255, 255, 255],
  [0, 1, 2, 4, 5, 8, 9, 10, 12, 13, 14, 255, 255, 255, 255, 255],
  [0, 1, 2, 3, 4, 5, 8, 9, 10, 12, 13, 14, 255, 255, 255, 255],
  [0, 4, 5, 6, 8, 9, 10, 12, 13, 14, 255, 255, 255, 255, 255, 255],
  [0, 1, 4, 5, 6, 8, 9, 10, 12, 13, 14, 255, 255, 255, 255, 255],
  [0, 1, 2, 4, 5, 6, 8, 9, 10, 12, 13, 14, 255, 255, 255, 255],
  [0, 1, 2, 3, 4, 5, 6, 8, 9, 10, 12, 13, 14, 255, 255, 255],
  [0, 4, 5, 6, 7, 8, 9, 10, 12, 13, 14, 255, 255, 255, 255, 255],
  [0, 1, 4, 5, 6, 7, 8, 9, 10, 12, 13, 14, 255, 255, 255, 255],
  [0, 1, 2, 4, 5, 6, 7, 8, 9, 10, 12, 13, 14, 255, 255, 255],
  [0, 1, 2, 3, 4, 5, 6, 7, 8, 9, 10, 12, 13, 14, 255, 255],
  [0, 4, 8, 9, 10, 11, 12, 13, 14, 255, 255, 255, 255, 255, 255, 255],
  [0, 1, 4, 8, 9, 10, 11, 12, 13, 14, 255, 255, 255, 255, 255, 255],
  [0, 1, 2, 4, 8, 9, 10, 11, 12, 13, 14, 255, 255, 255, 255, 255],
  [0, 1, 2, 3, 4, 8, 9, 10, 11, 12, 13, 14, 255, 255, 255, 255],
  [0, 4, 5, 8, 9, 10, 11, 12, 13, 14, 255, 255, 255, 255, 255, 255],
  [0, 1, 4, 5, 8, 9, 10, 11, 12, 13, 14, 255, 255, 255, 255, 255],
  [0, 1, 2, 4, 5, 8, 9, 10, 11, 12, 13, 14, 255, 255, 255, 255],
  [0, 1, 2, 3, 4, 5, 8, 9, 10, 11, 12, 13, 14, 255, 255, 255],
  [0, 4, 5, 6, 8, 9, 10, 11, 12, 13, 14, 255, 255, 255, 255, 255],
  [0, 1, 4, 5, 6, 8, 9, 10, 11, 12, 13, 14, 255, 255, 255, 255],
  [0, 1, 2, 4, 5, 6, 8, 9, 10, 11, 12, 13, 14, 255, 255, 255],
  [0, 1, 2, 3, 4, 5, 6, 8, 9, 10, 11, 12, 13, 14, 255, 255],
  [0, 4, 5, 6, 7, 8, 9, 10, 11, 12, 13, 14, 255, 255, 255, 255],
  [0, 1, 4, 5, 6, 7, 8, 9, 10, 11, 12, 13, 14, 255, 255, 255],
  [0, 1, 2, 4, 5, 6, 7, 8, 9, 10, 11, 12, 13, 14, 255, 255],
  [0, 1, 2, 3, 4, 5, 6, 7, 8, 9, 10, 11, 12, 13, 14, 255],
  [0, 4, 8, 12, 13, 14, 15, 255, 255, 255, 255, 255, 255, 255, 255, 255],
  [0, 1, 4, 8, 12, 13, 14, 15, 255, 255, 255, 255, 255, 255, 255, 255],
  [0, 1, 2, 4, 8, 12, 13, 14, 15, 255, 255, 255, 255, 255, 255, 255],
  [0, 1, 2, 3, 4, 8, 12, 13, 14, 15, 255, 255, 255, 255, 255, 255],
  [0, 4, 5, 8, 12, 13, 14, 15, 255, 255, 255, 255, 255, 255, 255, 255],
  [0, 1, 4, 5, 8, 12, 13, 14, 15, 255, 255, 255, 255, 255, 255, 255],
  [0, 1, 2, 4, 5, 8, 12, 13, 14, 15, 255, 255, 255, 255, 255, 255],
  [0, 1, 2, 3, 4, 5, 8, 12, 13, 14, 15, 255, 255, 255, 255, 255],
  [0, 4, 5, 6, 8, 12, 13, 14, 15, 255, 255, 255, 255, 255, 255, 255],
  [0, 1, 4, 5, 6, 8, 12, 13, 14, 15, 255, 255, 255, 255, 255, 255],
  [0, 1, 2, 4, 5, 6, 8, 12, 13, 14, 15, 255, 255, 255, 255, 255],
  [0, 1, 2, 3, 4, 5, 6, 8, 12, 13, 14, 15, 255, 255, 255, 255],
  [0, 4, 5, 6, 7, 8, 12, 13, 14, 15, 255, 255, 255, 255, 255, 255],
  [0, 1, 4, 5, 6, 7, 8, 12, 13, 14, 15, 255, 255, 255, 255, 255],
  [0, 1, 2, 4, 5, 6, 7, 8, 12, 13, 14, 15, 255, 255, 255, 255],
  [0, 1, 2, 3, 4, 5, 6, 7, 8, 12, 13, 14, 15, 255, 255, 255],
  [0, 4, 8, 9, 12, 13, 14, 15, 255, 255, 255, 255, 255, 255, 255, 255],
  [0, 1, 4, 8, 9, 12, 13, 14, 15, 255, 255, 255, 255, 255, 255, 255],
  [0, 1, 2, 4, 8, 9, 12, 13, 14, 15, 255, 255, 255, 255, 255, 255],
  [0, 1, 2, 3, 4, 8, 9, 12, 13, 14, 15, 255, 255, 255, 255, 255],
  [0, 4, 5, 8, 9, 12, 13, 14, 15, 255, 255, 255, 255, 255, 255, 255],
  [0, 1, 4, 5, 8, 9, 12, 13, 14, 15, 255, 255, 255, 255, 255, 255],
  [0, 1, 2, 4, 5, 8, 9, 12, 13, 14, 15, 255, 255, 255, 255, 255],
  [0, 1, 2, 3, 4, 5, 8, 9, 12, 13, 14, 15, 255, 255, 255, 255],
  [0, 4, 5, 6, 8, 9, 12, 13, 14, 15, 255, 255, 255, 255, 255, 255],
  [0, 1, 4, 5, 6, 8, 9, 12, 13, 14, 15, 255, 255, 255, 255, 255],
  [0, 1, 2, 4, 5, 6, 8, 9, 12, 13, 14, 15, 255, 255, 255, 255],
  [0, 1, 2, 3, 4, 5, 6, 8, 9, 12, 13, 14, 15, 255, 255, 255],
  [0, 4, 5, 6, 7, 8, 9, 12, 13, 14, 15, 255, 255, 255, 255, 255],
  [0, 1, 4, 5, 6, 7, 8, 9, 12, 13, 14, 15, 255, 255, 255, 255],
  [0, 1, 2, 4, 5, 6, 7, 8, 9, 12, 13, 14, 15, 255, 255, 255],
  [0, 1, 2, 3, 4, 5, 6, 7, 8, 9, 12, 13, 14, 15, 255, 255],
  [0, 4, 8, 9, 10, 12, 13, 14, 15, 255, 255, 255, 255, 255, 255, 255],
  [0, 1, 4, 8, 9, 10, 12, 13, 14, 15, 255, 255, 255, 255, 255, 255],
  [0, 1, 2, 4, 8, 9, 10, 12, 13, 14, 15, 255, 255, 255, 255, 255],
  [0, 1, 2, 3, 4, 8, 9, 10, 12, 13, 14, 15, 255, 255, 255, 255],
  [0, 4, 5, 8, 9, 10, 12, 13, 14, 15, 255, 255, 255, 255, 255, 255],
  [0, 1, 4, 5, 8, 9, 10, 12, 13, 14, 15, 255, 255, 255, 255, 255],
  [0, 1, 2, 4, 5, 8, 9, 10, 12, 13, 14, 15, 255, 255, 255, 255],
  [0, 1, 2, 3, 4, 5, 8, 9, 10, 12, 13, 14, 15, 255, 255, 255],
  [0, 4, 5, 6, 8, 9, 10, 12, 13, 14, 15, 255, 255, 255, 255, 255],
  [0, 1, 4, 5, 6, 8, 9, 10, 12, 13, 14, 15, 255, 255, 255, 255],
  [0, 1, 2, 4, 5, 6, 8, 9, 10, 12, 13, 14, 15, 255, 255, 255],
  [0, 1, 2, 3, 4, 5, 6, 8, 9, 10, 12, 13, 14, 15, 255, 255],
  [0, 4, 5, 6, 7, 8, 9, 10, 12, 13, 14, 15, 255, 255, 255, 255],
  [0, 1, 4, 5, 6, 7, 8, 9, 10, 12, 13, 14, 15, 255, 255, 255],
  [0, 1, 2, 4, 5, 6, 7, 8, 9, 10, 12, 13, 14, 15, 255, 255],
  [0, 1, 2, 3, 4, 5, 6, 7, 8, 9, 10, 12, 13, 14, 15, 255],
  [0, 4, 8, 9, 10, 11, 12, 13, 14, 15, 255, 255, 255, 255, 255, 255],
  [0, 1, 4, 8, 9, 10, 11, 12, 13, 14, 15, 255, 255, 255, 255, 255],
  [0, 1, 2, 4, 8, 9, 10, 11, 12, 13, 14, 15, 255, 255, 255, 255],
  [0, 1, 2, 3, 4, 8, 9, 10, 11, 12, 13, 14, 15, 255, 255, 255],
  [0, 4, 5, 8, 9, 10, 11, 12, 13, 14, 15, 255, 255, 255, 255, 255],
  [0, 1, 4, 5, 8, 9, 10, 11, 12, 13, 14, 15, 255, 255, 255, 255],
  [0, 1, 2, 4, 5, 8, 9, 10, 11, 12, 13, 14, 15, 255, 255, 255],
  [0, 1, 2, 3, 4, 5, 8, 9, 10, 11, 12, 13, 14, 15, 255, 255],
  [0, 4, 5, 6, 8, 9, 10, 11, 12, 13, 14, 15, 255, 255, 255, 255],
  [0, 1, 4, 5, 6, 8, 9, 10, 11, 12, 13, 14, 15, 255, 255, 255],
  [0, 1, 2, 4, 5, 6, 8, 9, 10, 11, 12, 13, 14, 15, 255, 255],
  [0, 1, 2, 3, 4, 5, 6, 8, 9, 10, 11, 12, 13, 14, 15, 255],
  [0, 4, 5, 6, 7, 8, 9, 10, 11, 12, 13, 14, 15, 255, 255, 255],
  [0, 1, 4, 5, 6, 7, 8, 9, 10, 11, 12, 13, 14, 15, 255, 255],
  [0, 1, 2, 4, 5, 6, 7, 8, 9, 10, 11, 12, 13, 14, 15, 255],
  [0, 1, 2, 3, 4, 5, 6, 7, 8, 9, 10, 11, 12, 13, 14, 15]]

/-- `DecodeShuffleTable`, `/repo/pkg/shared/tables.go:622-1135` (0xff = 255). -/
def decodeShuffleTable : List (List Nat) := [
  [0, 255, 255, 255, 1, 255, 255, 255, 2, 255, 255, 255, 3, 255, 255, 255],
  [0, 1, 255, 255, 2, 255, 255, 255, 3, 255, 255, 255, 4, 255, 255, 255],
  [0, 1, 2, 255, 3, 255, 255, 255, 4, 255, 255, 255, 5, 255, 255, 255],
  [0, 1, 2, 3, 4, 255, 255, 255, 5, 255, 255, 255, 6, 255, 255, 255],
  [0, 255, 255, 255, 1, 2, 255, 255, 3, 255, 255, 255, 4, 255, 255, 255],
  [0, 1, 255, 255, 2, 3, 255, 255, 4, 255, 255, 255, 5, 255, 255, 255],
  [0, 1, 2, 255, 3, 4, 255, 255, 5, 255, 255, 255, 6, 255, 255, 255],
  [0, 1, 2, 3, 4, 5, 255, 255, 6, 255, 255, 255, 7, 255, 255, 255],
  [0, 255, 255, 255, 1, 2, 3, 255, 4, 255, 255, 255, 5, 255, 255, 255],
  [0, 1, 255, 255, 2, 3, 4, 255, 5, 255, 255, 255, 6, 255, 255, 255],
  [0, 1, 2, 255, 3, 4, 5, 255, 6, 255, 255, 255, 7, 255, 255, 255],
  [0, 1, 2, 3, 4, 5, 6, 255, 7, 255, 255, 255, 8, 255, 255, 255],
  [0, 255, 255, 255, 1, 2, 3, 4, 5, 255, 255, 255, 6, 255, 255, 255],
  [0, 1, 255, 255, 2, 3, 4, 5, 6, 255, 255, 255, 7, 255, 255, 255],
  [0, 1, 2, 255, 3, 4, 5, 6, 7, 255, 255, 255, 8, 255, 255, 255],
  [0, 1, 2, 3, 4, 5, 6, 7, 8, 255, 255, 255, 9, 255, 255, 255],
  [0, 255, 255, 255, 1, 255, 255, 255, 2, 3, 255, 255, 4, 255, 255, 255],
  [0, 1, 255, 255, 2, 255, 255, 255, 3, 4, 255, 255, 5, 255, 255, 255],
  [0, 1, 2, 255, 3, 255, 255, 255, 4, 5, 255, 255, 6, 255, 255, 255],
  [0, 1, 2, 3, 4, 255, 255, 255, 5, 6, 255, 255, 7, 255, 255, 255],
  [0, 255, 255, 255, 1, 2, 255, 255, 3, 4, 255, 255, 5, 255, 255, 255],
  [0, 1, 255, 255, 2, 3, 255, 255, 4, 5, 255, 255, 6, 255, 255, 255],
  [0, 1, 2, 255, 3, 4, 255, 255, 5, 6, 255, 255, 7, 255, 255, 255],
  [0, 1, 2, 3, 4, 5, 255, 255, 6, 7, 255, 255, 8, 255, 255, 255],
  [0, 255, 255, 255, 1, 2, 3, 255, 4, 5, 255, 255, 6, 255, 255, 255],
  [0, 1, 255, 255, 2, 3, 4, 255, 5, 6, 255, 255, 7, 255, 255, 255],
  [0, 1, 2, 255, 3, 4, 5, 255, 6, 7, 255, 255, 8, 255, 255, 255],
  [0, 1, 2, 3, 4, 5, 6, 255, 7, 8, 255, 255, 9, 255, 255, 255],
  [0, 255, 255, 255, 1, 2, 3, 4, 5, 6, 255, 255, 7, 255, 255, 255],
  [0, 1, 255, 255, 2, 3, 4, 5, 6, 7, 255, 255, 8, 255, 255, 255],
  [0, 1, 2, 255, 3, 4, 5, 6, 7, 8, 255, 255, 9, 255, 255, 255],
  [0, 1, 2, 3, 4, 5, 6, 7, 8, 9, 255, 255, 10, 255, 255, 255],
  [0, 255, 255, 255, 1, 255, 255, 255, 2, 3, 4, 255, 5, 255, 255, 255],
  [0, 1, 255, 255, 2, 255, 255, 255, 3, 4, 5, 255, 6, 255, 255, 255],
  [0, 1, 2, 255, 3, 255, 255, 255, 4, 5, 6, 255, 7, 255, 255, 255],
  [0, 1, 2, 3, 4, 255, 255, 255, 5, 6, 7, 255, 8, 255, 255, 255],
  [0, 255, 255, 255, 1, 2, 255, 255, 3, 4, 5, 255, 6, 255, 255, 255],
  [0, 1, 255, 255, 2, 3, 255, 255, 4, 5, 6, 255, 7, 255, 255, 255],
  [0, 1, 2, 255, 3, 4, 255, 255, 5, 6, 7, 255, 8, 255, 255, 255],
  [0, 1, 2, 3, 4, 5, 255, 255, 6, 7, 8, 255, 9, 255, 255, 255],
  [0, 255, 255, 255, 1, 2, 3, 255, 4, 5, 6, 255, 7, 255, 255, 255],
  [0, 1, 255, 255, 2, 3, 4, 255, 5, 6, 7, 255, 8, 255, 255, 255],
  [0, 1, 2, 255, 3, 4, 5, 255, 6, 7, 8, 255, 9, 255, 255, 255],
  [0, 1, 2, 3, 4, 5, 6, 255, 7, 8, 9, 255, 10, 255, 255, 255],
  [0, 255, 255, 255, 1, 2, 3, 4, 5, 6, 7, 255, 8, 255, 255, 255],
  [0, 1, 255, 255, 2, 3, 4, 5, 6, 7, 8, 255, 9, 255, 255, 255],
  [0, 1, 2, 255, 3, 4, 5, 6, 7, 8, 9, 255, 10, 255, 255, 255],
  [0, 1, 2, 3, 4, 5, 6, 7, 8, 9, 10, 255, 11, 255, 255, 255],
  [0, 255, 255, 255, 1, 255, 255, 255, 2, 3, 4, 5, 6, 255, 255, 255],
  [0, 1, 255, 255, 2, 255, 255, 255, 3, 4, 5, 6, 7, 255, 255, 255],
  [0, 1, 2, 255, 3, 255, 255, 255, 4, 5, 6, 7, 8, 255, 255, 255],
  [0, 1, 2, 3, 4, 255, 255, 255, 5, 6, 7, 8, 9, 255, 255, 255],
  [0, 255, 255, 255, 1, 2, 255, 255, 3, 4, 5, 6, 7, 255, 255, 255],
  [0, 1, 255, 255, 2, 3, 255, 255, 4, 5, 6, 7, 8, 255, 255, 255],
  [0, 1, 2, 255, 3, 4, 255, 255, 5, 6, 7, 8, 9, 255, 255, 255],
  [0, 1, 2, 3, 4, 5, 255, 255, 6, 7, 8, 9, 10, 255, 255, 255],
  [0, 255, 255, 255, 1, 2, 3, 255, 4, 5, 6, 7, 8, 255, 255, 255],
  [0, 1, 255, 255, 2, 3, 4, 255, 5, 6, 7, 8, 9, 255, 255, 255],
  [0, 1, 2, 255, 3, 4, 5, 255, 6, 7, 8, 9, 10, 255, 255, 255],
  [0, 1, 2, 3, 4, 5, 6, 255, 7, 8, 9, 10, 11, 255, 255, 255],
  [0, 255, 255, 255, 1, 2, 3, 4, 5, 6, 7, 8, 9, 255, 255, 255],
  [0, 1, 255, 255, 2, 3, 4, 5, 6, 7, 8, 9, 10, 255, 255, 255],
  [0, 1, 2, 255, 3, 4, 5, 6, 7, 8, 9, 10, 11, 255, 255, 255],
  [0, 1, 2, 3, 4, 5, 6, 7, 8, 9, 10, 11, 12, 255, 255, 255],
  [0, 255, 255, 255, 1, 255, 255, 255, 2, 255, 255, 255, 3, 4, 255, 255],
  [0, 1, 255, 255, 2, 255, 255, 255, 3, 255, 255, 255, 4, 5, 255, 255],
  [0, 1, 2, 255, 3, 255, 255, 255, 4, 255, 255, 255, 5, 6, 255, 255],
  [0, 1, 2, 3, 4, 255, 255, 255, 5, 255, 255, 255, 6, 7, 255, 255],
  [0, 255, 255, 255, 1, 2, 255, 255, 3, 255, 255, 255, 4, 5, 255, 255],
  [0, 1, 255, 255, 2, 3, 255, 255, 4, 255, 255, 255, 5, 6, 255, 255],
  [0, 1, 2, 255, 3, 4, 255, 255, 5, 255, 255, 255, 6, 7, 255, 255],
  [0, 1, 2, 3, 4, 5, 255, 255, 6, 255, 255, 255, 7, 8, 255, 255],
  [0, 255, 255, 255, 1, 2, 3, 255, 4, 255, 255, 255, 5, 6, 255, 255],
  [0, 1, 255, 255, 2, 3, 4, 255, 5, 255, 255, 255, 6, 7, 255, 255],
  [0, 1, 2, 255, 3, 4, 5, 255, 6, 255, 255, 255, 7, 8, 255, 255],
  [0, 1, 2, 3, 4, 5, 6, 255, 7, 255, 255, 255, 8, 9, 255, 255],
  [0, 255, 255, 255, 1, 2, 3, 4, 5, 255, 255, 255, 6, 7, 255, 255],
  [0, 1, 255, 255, 2, 3, 4, 5, 6, 255, 255, 255, 7, 8, 255, 255],
  [0, 1, 2, 255, 3, 4, 5, 6, 7, 255, 255, 255, 8, 9, 255, 255],
  [0, 1, 2, 3, 4, 5, 6, 7, 8, 255, 255, 255, 9, 10, 255, 255],
  [0, 255, 255, 255, 1, 255, 255, 255, 2, 3, 255, 255, 4, 5, 255, 255],
  [0, 1, 255, 255, 2, 255, 255, 255, 3, 4, 255, 255, 5, 6, 255, 255],
  [0, 1, 2, 255, 3, 255, 255, 255, 4, 5, 255, 255, 6, 7, 255, 255],
  [0, 1, 2, 3, 4, 255, 255, 255, 5, 6, 255, 255, 7, 8, 255, 255],
  [0, 255, 255, 255, 1, 2, 255, 255, 3, 4, 255, 255, 5, 6, 255, 255],
  [0, 1, 255, 255, 2, 3, 255, 255, 4, 5, 255, 255, 6, 7, 255, 255],
  [0, 1, 2, 255, 3, 4, 255, 255, 5, 6, 255, 255, 7, 8, 255, 255],
  [0, 1, 2, 3, 4, 5, 255, 255, 6, 7, 255, 255, 8, 9, 255, 255],
  [0, 255, 255, 255, 1, 2, 3, 255, 4, 5, 255, 255, 6, 7, 255, 255],
  [0, 1, 255, 255, 2, 3, 4, 255, 5, 6, 255, 255, 7, 8, 255, 255],
  [0, 1, 2, 255, 3, 4, 5, 255, 6, 7, 255, 255, 8, 9, 255, 255],
  [0, 1, 2, 3, 4, 5, 6, 255, 7, 8, 255, 255, 9, 10, 255, 255],
  [0, 255, 255, 255, 1, 2, 3, 4, 5, 6, 255, 255, 7, 8, 255, 255],
  [0, 1, 255, 255, 2, 3, 4, 5, 6, 7, 255, 255, 8, 9, 255, 255],
  [0, 1, 2, 255, 3, 4, 5, 6, 7, 8, 255, 255, 9, 10, 255, 255],
  [0, 1, 2, 3, 4, 5, 6, 7, 8, 9, 255, 255, 10, 11, 255, 255],
  [0, 255, 255, 255, 1, 255, 255, 255, 2, 3, 4, 255, 5, 6, 255, 255],
  [0, 1, 255, 255, 2, 255, 255, 255, 3, 4, 5, 255, 6, 7, 255, 255],
  [0, 1, 2, 255, 3, 255, 255, 255, 4, 5, 6, 255, 7, 8, 255, 255],
  [0, 1, 2, 3, 4, 255, 255, 255, 5, 6, 7, 255, 8, 9, 255, 255],
  [0, 255, 255, 255, 1, 2, 255, 255, 3, 4, 5, 255, 6, 7, 255, 255],
  [0, 1, 255, 255, 2, 3, 255, 255, 4, 5, 6, 255, 7, 8, 255, 255],
  [0, 1, 2, 255, 3, 4, 255, 255, 5, 6, 7, 255, 8, 9, 255, 255],
  [0, 1, 2, 3, 4, 5, 255, 255, 6, 7, 8, 255, 9, 10, 255, 255],
  [0, 255, 255, 255, 1, 2, 3, 255, 4, 5, 6, 255, 7, 8, 255, 255],
  [0, 1, 255, 255, 2, 3, 4, 255, 5, 6, 7, 255, 8, 9, 255, 255],
  [0, 1, 2, 255, 3, 4, 5, 255, 6, 7, 8, 255, 9, 10, 255, 255],
  [0, 1, 2, 3, 4, 5, 6, 255, 7, 8, 9, 255, 10, 11, 255, 255],
  [0, 255, 255, 255, 1, 2, 3, 4, 5, 6, 7, 255, 8, 9, 255, 255],
  [0, 1, 255, 255, 2, 3, 4, 5, 6, 7, 8, 255, 9, 10, 255, 255],
  [0, 1, 2, 255, 3, 4, 5, 6, 7, 8, 9, 255, 10, 11, 255, 255],
  [0, 1, 2, 3, 4, 5, 6, 7, 8, 9, 10, 255, 11, 12, 255, 255],
  [0, 255, 255, 255, 1, 255, 255, 255, 2, 3, 4, 5, 6, 7, 255, 255],
  [0, 1, 255, 255, 2, 255, 255, 255, 3, 4, 5, 6, 7, 8, 255, 255],
  [0, 1, 2, 255, 3, 255, 255, 255, 4, 5, 6, 7, 8, 9, 255, 255],
  [0, 1, 2, 3, 4, 255, 255, 255, 5, 6, 7, 8, 9, 10, 255, 255],
  [0, 255, 255, 255, 1, 2, 255, 255, 3, 4, 5, 6, 7, 8, 255, 255],
  [0, 1, 255, 255, 2, 3, 255, 255, 4, 5, 6, 7, 8, 9, 255, 255],
  [0, 1, 2, 255, 3, 4, 255, 255, 5, 6, 7, 8, 9, 10, 255, 255],
  [0, 1, 2, 3, 4, 5, 255, 255, 6, 7, 8, 9, 10, 11, 255, 255],
  [0, 255, 255, 255, 1, 2, 3, 255, 4, 5, 6, 7, 8, 9, 255, 255],
  [0, 1, 255, 255, 2, 3, 4, 255, 5, 6, 7, 8, 9, 10, 255, 255],
  [0, 1, 2, 255, 3, 4, 5, 255, 6, 7, 8, 9, 10, 11, 255, 255],
  [0, 1, 2, 3, 4, 5, 6, 255, 7, 8, 9, 10, 11, 12, 255, 255],
  [0, 255, 255, 255, 1, 2, 3, 4, 5, 6, 7, 8, 9, 10, 255, 255],
  [0, 1, 255, 255, 2, 3, 4, 5, 6, 7, 8, 9, 10, 11, 255, 255],
  [0, 1, 2, 255, 3, 4, 5, 6, 7, 8, 9, 10, 11, 12, 255, 255],
  [0, 1, 2, 3, 4, 5, 6, 7, 8, 9, 10, 11, 12, 13, 255, 255],
  [0, 255, 255, 255, 1, 255, 255, 255, 2, 255, 255, 255, 3, 4, 5, 255],
  [0, 1, 255, 255, 2, 255, 255, 255, 3, 255, 255, 255, 4, 5, 6, 255],
  [0, 1, 2, 255, 3, 255, 255, 255, 4, 255, 255, 255, 5, 6, 7, 255],
  [0, 1, 2, 3, 4, 255, 255, 255, 5, 255, 255, 255, 6, 7, 8, 255],
  [0, 255, 255, 255, 1, 2, 255, 255, 3, 255, 255, 255, 4, 5, 6, 255],
  [0, 1, 255, 255, 2, 3, 255, 255, 4, 255, 255, 255, 5, 6, 7, 255],
  [0, 1, 2, 255, 3, 4, 255, 255, 5, 255, 255, 255, 6, 7, 8, 255],
  [0, 1, 2, 3, 4, 5, 255, 255, 6, 255, 255, 255, 7, 8, 9, 255],
  [0, 255, 255, 255, 1, 2, 3, 255, 4, 255, 255, 255, 5, 6, 7, 255],
  [0, 1, 255, 255, 2, 3, 4, 255, 5, 255, 255, 255, 6, 7, 8, 255],
  [0, 1, 2, 255, 3, 4, 5, 255, 6, 255, 255, 255, 7, 8, 9, 255],
  [0, 1, 2, 3, 4, 5, 6, 255, 7, 255, 255, 255, 8, 9, 10, 255],
  [0, 255, 255, 255, 1, 2, 3, 4, 5, 255, 255, 255, 6, 7, 8, 255],
  [0, 1, 255, 255, 2, 3, 4, 5, 6, 255, 255, 255, 7, 8, 9, 255],
  [0, 1, 2, 255, 3, 4, 5, 6, 7, 255, 255, 255, 8, 9, 10, 255],
  [0, 1, 2, 3, 4, 5, 6, 7, 8, 255, 255, 255, 9, 10, 11, 255],
  [0, 255, 255, 255, 1, 255, 255, 255, 2, 3, 255, 255, 4, 5, 6, 255],
  [0, 1, 255, 255, 2, 255, 255, 255, 3, 4, 255, 255, 5, 6, 7, 255],
  [0, 1, 2, 255, 3, 255, 255, 255, 4, 5, 255, 255, 6, 7, 8, 255],
  [0, 1, 2, 3, 4, 255, 255, 255, 5, 6, 255, 255, 7, 8, 9, 255],
  [0, 255, 255, 255, 1, 2, 255, 255, 3, 4, 255, 255, 5, 6, 7, 255],
  [0, 1, 255, 255, 2, 3, 255, 255, 4, 5, 255, 255, 6, 7, 8, 255],
  [0, 1, 2, 255, 3, 4, 255, 255, 5, 6, 255, 255, 7, 8, 9, 255],
  [0, 1, 2, 3, 4, 5, 255, 255, 6, 7, 255, 255, 8, 9, 10, 255],
  [0, 255, 255, 255, 1, 2, 3, 255, 4, 5, 255, 255, 6, 7, 8, 255],
  [0, 1, 255, 255, 2, 3, 4, 255, 5, 6, 255, 255, 7, 8, 9, 255],
  [0, 1, 2, 255, 3, 4, 5, 255, 6, 7, 255, 255, 8, 9, 10, 255],
  [0, 1, 2, 3, 4, 5, 6, 255, 7, 8, 255, 255, 9, 10, 11, 255],
  [0, 255, 255, 255, 1, 2, 3, 4, 5, 6, 255, 255, 7, 8, 9, 255],
  [0, 1, 255, 255, 2, 3, 4, 5, 6, 7, 255, 255, 8, 9, 10, 255],
  [0, 1, 2, 255, 3, 4, 5, 6, 7, 8, 255, 255, 9, 10, 11, 255],
  [0, 1, 2, 3, 4, 5, 6, 7, 8, 9, 255, 255, 10, 11, 12, 255],
  [0, 255, 255, 255, 1, 255, 255, 255, 2, 3, 4, 255, 5, 6, 7, 255],
  [0, 1, 255, 255, 2, 255, 255, 255, 3, 4, 5, 255, 6, 7, 8, 255],
  [0, 1, 2, 255, 3, 255, 255, 255, 4, 5, 6, 255, 7, 8, 9, 255],
  [0, 1, 2, 3, 4, 255, 255, 255, 5, 6, 7, 255, 8, 9, 10, 255],
  [0, 255, 255, 255, 1, 2, 255, 255, 3, 4, 5, 255, 6, 7, 8, 255],
  [0, 1, 255, 255, 2, 3, 255, 255, 4, 5, 6, 255, 7, 8, 9, 255],
  [0, 1, 2, 255, 3, 4, 255, 255, 5, 6, 7, 255, 8, 9, 10, 255],
  [0, 1, 2, 3, 4, 5, 255, 255, 6, 7, 8, 255, 9, 10, 11, 255],
  [0, 255, 255, 255, 1, 2, 3, 255, 4, 5, 6, 255, 7, 8, 9, 255],
  [0, 1, 255, 255, 2, 3, 4, 255, 5, 6, 7, 255, 8, 9, 10, 255],
  [0, 1, 2, 255, 3, 4, 5, 255, 6, 7, 8, 255, 9, 10, 11, 255],
  [0, 1, 2, 3, 4, 5, 6, 255, 7, 8, 9, 255, 10, 11, 12, 255],
  [0, 255, 255, 255, 1, 2, 3, 4, 5, 6, 7, 255, 8, 9, 10, 255],
  [0, 1, 255, 255, 2, 3, 4, 5, 6, 7, 8, 255, 9, 10, 11, 255],
  [0, 1, 2, 255, 3, 4, 5, 6, 7, 8, 9, 255, 10, 11, 12, 255],
  [0, 1, 2, 3, 4, 5, 6, 7, 8, 9, 10, 255, 11, 12, 13, 255],
  [0, 255, 255, 255, 1, 255, 255, 255, 2, 3, 4, 5, 6, 7, 8, 255],
  [0, 1, 255, 255, 2, 255, 255, 255, 3, 4, 5, 6, 7, 8, 9, 255],
  [0, 1, 2, 255, 3, 255, 255, 255, 4, 5, 6, 7, 8, 9, 10, 255],
  [0, 1, 2, 3, 4, 255, 255, 255, 5, 6, 7, 8, 9, 10, 11, 255],
  [0, 255, 255, 255, 1, 2, 255, 255, 3, 4, 5, 6, 7, 8, 9, 255],
  [0, 1, 255, 255, 2, 3, 255, 255, 4, 5, 6, 7, 8, 9, 10, 255],
  [0, 1, 2, 255, 3, 4, 255, 255, 5, 6, 7, 8, 9, 10, 11, 255],
  [0, 1, 2, 3, 4, 5, 255, 255, 6, 7, 8, 9, 10, 11, 12, 255],
  [0, 255, 255, 255, 1, 2, 3, 255, 4, 5, 6, 7, 8, 9, 10, 255],
  [0, 1, 255, 255, 2, 3, 4, 255, 5, 6, 7, 8, 9, 10, 11, 255],
  [0, 1, 2, 255, 3, 4, 5, 255, 6, 7, 8, 9, 10, 11, 12, 255],
  [0, 1, 2, 3, 4, 5, 6, 255, 7, 8, 9, 10, 11, 12, 13, 255],
  [0, 255, 255, 255, 1, 2, 3, 4, 5, 6, 7, 8, 9, 10, 11, 255],
  [0, 1, 255, 255, 2, 3, 4, 5, 6, 7, 8, 9, 10, 11, 12, 255],
  [0, 1, 2, 255, 3, 4, 5, 6, 7, 8, 9, 10, 11, 12, 13, 255],
  [0, 1, 2, 3, 4, 5, 6, 7, 8, 9, 10, 11, 12, 13, 14, 255],
  [0, 255, 255, 255, 1, 255, 255, 255, 2, 255, 255, 255, 3, 4, 5, 6],
  [0, 1, 255, 255, 2, 255, 255, 255, 3, 255, 255, 255, 4, 5, 6, 7],
  [0, 1, 2, 255, 3, 255, 255, 255, 4, 255, 255, 255, 5, 6, 7, 8],
  [0, 1, 2, 3, 4, 255, 255, 255, 5, 255, 255, 255, 6, 7, 8, 9],
  [0, 255, 255, 255, 1, 2, 255, 255, 3, 255, 255, 255, 4, 5, 6, 7],
  [0, 1, 255, 255, 2, 3, 255, 255, 4, 255, 255, 255, 5, 6, 7, 8],
  [0, 1, 2, 255, 3, 4, 255, 255, 5, 255, 255, 255, 6, 7, 8, 9],
  [0, 1, 2, 3, 4, 5, 255, 255, 6, 255, 255, 255, 7, 8, 9, 10],
  [0, 255, 255, 255, 1, 2, 3, 255, 4, 255, 255, 255, 5, 6, 7, 8],
  [0, 1, 255, 255, 2, 3, 4, 255, 5, 255, 255, 255, 6, 7, 8, 9],
  [0, 1, 2, 255, 3, 4, 5, 255, 6, 255, 255, 255, 7, 8, 9, 10],
  [0, 1, 2, 3, 4, 5, 6, 255, 7, 255, 255, 255, 8, 9, 10, 11],
  [0, 255, 255, 255, 1, 2, 3, 4, 5, 255, 255, 255, 6, 7, 8, 9],
  [0, 1, 255, 255, 2, 3, 4, 5, 6, 255, 255, 255, 7, 8, 9, 10],
  [0, 1, 2, 255, 3, 4, 5, 6, 7, 255, 255, 255, 8, 9, 10, 11],
  [0, 1, 2, 3, 4, 5, 6, 7, 8, 255, 255, 255, 9, 10, 11, 12],
  [0, 255, 255, 255, 1, 255, 255, 255, 2, 3, 255, 255, 4, 5, 6, 7],
  [0, 1, 255, 255, 2, 255, 255, 255, 3, 4, 255, 255, 5, 6, 7, 8],
  [0, 1, 2, 255, 3, 255, 255, 255, 4, 5, 255, 255, 6, 7, 8, 9],
  [0, 1, 2, 3, 4, 255, 255, 255, 5, 6, 255, 255, 7, 8, 9, 10],
  [0, 255, 255, 255, 1, 2, 255, 255, 3, 4, 255, 255, 5, 6, 7, 8],
  [0, 1, 255, 255, 2, 3, 255, 255, 4, 5, 255, 255, 6, 7, 8, 9],
  [0, 1, 2, 255, 3, 4, 255, 255, 5, 6, 255, 255, 7, 8, 9, 10],
  [0, 1, 2, 3, 4, 5, 255, 255, 6, 7, 255, 255, 8, 9, 10, 11],
  [0, 255, 255, 255, 1, 2, 3, 255, 4, 5, 255, 255, 6, 7, 8, 9],
  [0, 1, 255, 255, 2, 3, 4, 255, 5, 6, 255, 255, 7, 8, 9, 10],
  [0, 1, 2, 255, 3, 4, 5, 255, 6, 7, 255, 255, 8, 9, 10, 11],
  [0, 1, 2, 3, 4, 5, 6, 255, 7, 8, 255, 255, 9, 10, 11, 12],
  [0, 255, 255, 255, 1, 2, 3, 4, 5, 6, 255, 255, 7, 8, 9, 10],
  [0, 1, 255, 255, 2, 3, 4, 5, 6, 7, 255, 255, 8, 9, 10, 11],
  [0, 1, 2, 255, 3, 4, 5, 6, 7, 8, 255, 255, 9, 10, 11, 12],
  [0, 1, 2, 3, 4, 5, 6, 7, 8, 9, 255, 255, 10, 11, 12, 13],
  [0, 255, 255, 255, 1, 255, 255, 255, 2, 3, 4, 255, 5, 6, 7, 8],
  [0, 1, 255, 255, 2, 255, 255, 255, 3, 4, 5, 255, 6, 7, 8, 9],
  [0, 1, 2, 255, 3, 255, 255, 255, 4, 5, 6, 255, 7, 8, 9, 10],
  [0, 1, 2, 3, 4, 255, 255, 255, 5, 6, 7, 255, 8, 9, 10, 11],
  [0, 255, 255, 255, 1, 2, 255, 255, 3, 4, 5, 255, 6, 7, 8, 9],
  [0, 1, 255, 255, 2, 3, 255, 255, 4, 5, 6, 255, 7, 8, 9, 10],
  [0, 1, 2, 255, 3, 4, 255, 255, 5, 6, 7, 255, 8, 9, 10, 11],
  [0, 1, 2, 3, 4, 5, 255, 255, 6, 7, 8, 255, 9, 10, 11, 12],
  [0, 255, 255, 255, 1, 2, 3, 255, 4, 5, 6, 255, 7, 8, 9, 10],
  [0, 1, 255, 255, 2, 3, 4, 255, 5, 6, 7, 255, 8, 9, 10, 11],
  [0, 1, 2, 255, 3, 4, 5, 255, 6, 7, 8, 255, 9, 10, 11, 12],
  [0, 1, 2, 3, 4, 5, 6, 255, 7, 8, 9, 255, 10, 11, 12, 13],
  [0, 255, 255, 255, 1, 2, 3, 4, 5, 6, 7, 255, 8, 9, 10, 11],
  [0, 1, 255, 255, 2, 3, 4, 5, 6, 7, 8, 255, 9, 10, 11, 12],
  [0, 1, 2, 255, 3, 4, 5, 6, 7, 8, 9, 255, 10, 11, 12, 13],
  [0, 1, 2, 3, 4, 5, 6, 7, 8, 9, 10, 255, 11, 12, 13, 14],
  [0, 255, 255, 255, 1, 255, 255, 255, 2, 3, 4, 5, 6, 7, 8, 9],
  [0, 1, 255, 255, 2, 255, 255, 255, 3, 4, 5, 6, 7, 8, 9, 10],
  [0, 1, 2, 255, 3, 255, 255, 255, 4, 5, 6, 7, 8, 9, 10, 11],
  [0, 1, 2, 3, 4, 255, 255, 255, 5, 6, 7, 8, 9, 10, 11, 12],
  [0, 255, 255, 255, 1, 2, 255, 255, 3, 4, 5, 6, 7, 8, 9, 10],
  [0, 1, 255, 255, 2, 3, 255, 255, 4, 5, 6, 7, 8, 9, 10, 11],
  [0, 1, 2, 255, 3, 4, 255, 255, 5, 6, 7, 8, 9, 10, 11, 12],
  [0, 1, 2, 3, 4, 5, 255, 255, 6, 7, 8, 9, 10, 11, 12, 13],
  [0, 255, 255, 255, 1, 2, 3, 255, 4, 5, 6, 7, 8, 9, 10, 11],
  [0, 1, 255, 255, 2, 3, 4, 255, 5, 6, 7, 8, 9, 10, 11, 12],
  [0, 1, 2, 255, 3, 4, 5, 255, 6, 7, 8, 9, 10, 11, 12, 13],
  [0, 1, 2, 3, 4, 5, 6, 255, 7, 8, 9, 10, 11, 12, 13, 14],
  [0, 255, 255, 255, 1, 2, 3, 4, 5, 6, 7, 8, 9, 10, 11, 12],
  [0, 1, 255, 255, 2, 3, 4, 5, 6, 7, 8, 9, 10, 11, 12, 13],
  [0, 1, 2, 255, 3, 4, 5, 6, 7, 8, 9, 10, 11, 12, 13, 14],
  [0, 1, 2, 3, 4, 5, 6, 7, 8, 9, 10, 11, 12, 13, 14, 15]]

/-- `PerControlLenTable`, `/repo/pkg/shared/tables.go:72-105`. -/
def perControlLenTable : List Nat := [
  4, 5, 6, 7, 5, 6, 7, 8, 6, 7, 8, 9, 7, 8, 9, 10,
  5, 6, 7, 8, 6, 7, 8, 9, 7, 8, 9, 10, 8, 9, 10, 11,
  6, 7, 8, 9, 7, 8, 9, 10, 8, 9, 10, 11, 9, 10, 11, 12,
  7, 8, 9, 10, 8, 9, 10, 11, 9, 10, 11, 12, 10, 11, 12, 13,
  5, 6, 7, 8, 6, 7, 8, 9, 7, 8, 9, 10, 8, 9, 10, 11,
  6, 7, 8, 9, 7, 8, 9, 10, 8, 9, 10, 11, 9, 10, 11, 12,
  7, 8, 9, 10, 8, 9, 10, 11, 9, 10, 11, 12, 10, 11, 12, 13,
  8, 9, 10, 11, 9, 10, 11, 12, 10, 11, 12, 13, 11, 12, 13, 14,
  6, 7, 8, 9, 7, 8, 9, 10, 8, 9, 10, 11, 9, 10, 11, 12,
  7, 8, 9, 10, 8, 9, 10, 11, 9, 10, 11, 12, 10, 11, 12, 13,
  8, 9, 10, 11, 9, 10, 11, 12, 10, 11, 12, 13, 11, 12, 13, 14,
  9, 10, 11, 12, 10, 11, 12, 13, 11, 12, 13, 14, 12, 13, 14, 15,
  7, 8, 9, 10, 8, 9, 10, 11, 9, 10, 11, 12, 10, 11, 12, 13,
  8, 9, 10, 11, 9, 10, 11, 12, 10, 11, 12, 13, 11, 12, 13, 14,
  9, 10, 11, 12, 10, 11, 12, 13, 11, 12, 13, 14, 12, 13, 14, 15,
  10, 11, 12, 13, 11, 12, 13, 14, 12, 13, 14, 15, 13, 14, 15, 16]

end SVB
