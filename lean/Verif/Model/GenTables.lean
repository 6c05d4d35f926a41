import Verif.Model.SourceText
import Verif.Model.Shared

/-!
# Model of `/repo/pkg/shared/main/gentables.go`: the text it writes

Every function returns the bytes it writes to `out`.  Not modelled: flags other than `-package`, failing writes (a
`bytes.Buffer` never fails), and the file operations of `main`.  `format.Source` is modelled as far as this text needs it
(`gofmt` below).
-/

set_option autoImplicit false

namespace SVB.GenTables
open Sources

/-! ## `fmt` -/

/-- ASCII code of a digit. -/
def dig (d : Nat) : Nat := if Nat.blt d 10 then 48 + d else 87 + d

/-- The digits of `n` in base `b`, put before `acc`. -/
def digitsTo (b : Nat) : Nat → Nat → Text → Text
  | 0, _, acc => acc
  | f + 1, n, acc => if Nat.blt n b then dig n :: acc else digitsTo b f (n / b) (dig (n % b) :: acc)

def digitsOf (b n : Nat) : Text := digitsTo b (n + 1) n []

/-- Zeros in front up to `w` digits. -/
def zeros (w : Nat) (t : Text) : Text := List.replicate (w - t.length) 48 ++ t

/-- `%d` -/
def fmtD (n : Nat) : Text := digitsOf 10 n
/-- `%#02x`: with the flags `#` and `0` the width counts the digits without the prefix. -/
def fmtX (n : Nat) : Text := 48 :: 120 :: zeros 2 (digitsOf 16 n)
/-- `%08b` -/
def fmtB (n : Nat) : Text := zeros 8 (digitsOf 2 n)

/-! ## The functions -/

/-- `newLineAfter(countPerLine)`, `gentables.go:69-79`: what call number `count` of the closure prints. -/
def newLineAfter (countPerLine count : Nat) : Text := if count % countPerLine = 0 then [10] else [32]

/-- A loop `for i := 0; i < MaxControlByte; i++ { …; tabber(out) }` with `tabber := newLineAfter(perLine)`. -/
def rows (perLine : Nat) (row : Nat → Text) : Text :=
  (List.range 256).flatMap fun i => row i ++ newLineAfter perLine (i + 1)

/-- `\t{%d, %d, %d, %d},`, `gentables.go:86`. -/
def perNumRow (i : Nat) : Text :=
  [9, 123] ++ (((genPerNumRow i).map fmtD).intersperse [44, 32]).flatten ++ [125, 44]

/-- `genPerNumLengthTable`, `gentables.go:81-93`. -/
def genPerNumLengthTable : Text :=
  10 :: asc "var PerNumLenTable *[256][4]uint8 = &[256][4]uint8{".toList ++ 10 :: (rows 4 perNumRow ++ [125, 10])

/-- `genPerQuadLengthTable`, `gentables.go:95-108`. -/
def genPerQuadLengthTable : Text :=
  10 :: asc "var PerControlLenTable *[256]uint8 = &[256]uint8{".toList ++
    10 :: (rows 8 (fun i => 9 :: (fmtD (genPerQuad i) ++ [44])) ++ [125, 10])

/-- `commentStr`, `gentables.go:112`: `\t// %d\t%#02x\t%08b\tlen\t%d\t%d\t%d\t%d\n`. -/
def comment (i : Nat) : Text :=
  [9, 47, 47, 32] ++ fmtD i ++ [9] ++ fmtX i ++ [9] ++ fmtB i ++ [9, 108, 101, 110] ++
    (genPerNumRow i).flatMap (fun n => 9 :: fmtD n) ++ [10]

/-- `shuffleFmtStr`, `gentables.go:111`, with the `\t{` before it: sixteen `%#02x` and `},`. -/
def shuffleRow (positions : List Nat) : Text :=
  [9, 123] ++ ((positions.map fmtX).intersperse [44, 32]).flatten ++ [125, 44]

/-- `genEncodeShuffleTable`, `gentables.go:115-147`. -/
def genEncodeShuffleTable : Text :=
  10 :: asc "var EncodeShuffleTable *[256][16]uint8 = &[256][16]uint8{".toList ++
    10 :: (rows 1 (fun i => comment i ++ shuffleRow (genEncRow i)) ++ [125, 10])

/-- `genDecodeShuffleTable`, `gentables.go:149-181`. -/
def genDecodeShuffleTable : Text :=
  10 :: asc "var DecodeShuffleTable *[256][16]uint8 = &[256][16]uint8{".toList ++
    10 :: (rows 1 (fun i => comment i ++ shuffleRow (genDecRow i)) ++ [125, 10])

/-- What `main` (`gentables.go:24-50`) collects in `out` with `-package pkg`. -/
def output (pkg : Text) : Text :=
  asc "// Code generated by gentables. DO NOT EDIT.".toList ++ 10 :: 10 :: (asc "package ".toList ++ pkg ++
    10 :: (genPerNumLengthTable ++ (genPerQuadLengthTable ++ (genEncodeShuffleTable ++ genDecodeShuffleTable))))

/-! ## `format.Source` -/

/-- Lines of a text that ends with a newline. -/
def splitLines : Text → Text → List Text
  | [], [] => []
  | [], cur => [cur.reverse]
  | c :: cs, cur => if Nat.beq c 10 then cur.reverse :: splitLines cs [] else splitLines cs (c :: cur)

/-- Blanks between tokens become one space, blanks at the end go away.  `p`: blanks have been passed. -/
def oneSpace : Bool → Text → Text
  | _, [] => []
  | p, c :: cs =>
    if Nat.beq c 32 || Nat.beq c 9 then oneSpace true cs
    else if p then 32 :: c :: oneSpace false cs else c :: oneSpace false cs

/-- Effect of `gofmt` on a line of `output`: the indentation by tabs is right already, comments are kept. -/
def gofmtLine (l : Text) : Text :=
  let ind := l.takeWhile (Nat.beq 9)
  let rest := l.dropWhile (Nat.beq 9)
  ind ++ if [47, 47].isPrefixOf rest then rest else oneSpace false rest

/-- The lines of the file the program writes. -/
def file (pkg : Text) : List Text := (splitLines (output pkg) []).map gofmtLine

end SVB.GenTables
