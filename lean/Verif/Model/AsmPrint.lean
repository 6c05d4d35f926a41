import Verif.Model.AsmText
import Verif.Model.GenTables

/-!
# Writing the assembly files

The printer of `github.com/mmcloughlin/avo` (`printer.NewGoAsm`), which `Generate()` calls
(`/repo/pkg/encode/main/asm.go:40`, `/repo/pkg/decode/main/asm.go:38`), as far as these two programs use it.  `avo` is not
part of `/repo`; the format below was read off the checked-in files, so what C55 adds for it is that one rule of layout
accounts for all their lines.  The instructions and signatures come from the model of the generators, `Gen.lean`.
-/

set_option autoImplicit false

namespace SVB.AsmPrint
open Asm Gen Sources GenTables

def gpName : GP → Text
  | .AX => asc ['A', 'X']
  | .BX => asc ['B', 'X']
  | .CX => asc ['C', 'X']
  | .DX => asc ['D', 'X']
  | .SI => asc ['S', 'I']
  | .DI => asc ['D', 'I']

/-- The name of the low byte of a register; `avo` has other names for `SI` and `DI`, which do not occur. -/
def lowName : GP → Text
  | .AX => asc ['A', 'L']
  | .BX => asc ['B', 'L']
  | .CX => asc ['C', 'L']
  | .DX => asc ['D', 'L']
  | .SI => []
  | .DI => []

def xName : XR → Text
  | .X0 => asc ['X', '0']
  | .X1 => asc ['X', '1']
  | .X2 => asc ['X', '2']
  | .X3 => asc ['X', '3']
  | .X4 => asc ['X', '4']
  | .X5 => asc ['X', '5']

/-- The name of a constant: `ConstData`, `/repo/pkg/encode/main/asm.go:33-34`. -/
def symName : Block → Text
  | .mask0101 => asc ['m', 'a', 's', 'k', '0', '1', '0', '1']
  | .mask7F00 => asc ['m', 'a', 's', 'k', '7', 'F', '0', '0']
  | _ => []

/-- `disp(BASE)`, without the displacement if it is 0 -/
def mem (disp : Nat) (b : GP) : Text := (if disp = 0 then [] else fmtD disp) ++ 40 :: gpName b ++ [41]

def imm (n : Nat) : Text := 36 :: fmtX n

/-- `name+off(FP)`; the pointer of a slice is called `name_base`. -/
def fpRef (sig : Sig) (off : Nat) : Text :=
  match (sig.args ++ sig.rets.1).find? (fun p => p.2.2 == off) with
  | some (n, t, o) =>
    asc n.toList ++ (if t = .slice then asc ['_', 'b', 'a', 's', 'e'] else []) ++ 43 :: fmtD o ++ asc ['(', 'F', 'P', ')']
  | none => []

/-- Mnemonic and operands. -/
def parts (sig : Sig) : Instr → List Char × List Text
  | .MOVQ_arg o d => (['M', 'O', 'V', 'Q'], [fpRef sig o, gpName d])
  | .MOVQ a d => (['M', 'O', 'V', 'Q'], [gpName a, gpName d])
  | .MOVWQZX_arg o d => (['M', 'O', 'V', 'W', 'Q', 'Z', 'X'], [fpRef sig o, gpName d])
  | .MOVWQZX a d => (['M', 'O', 'V', 'W', 'Q', 'Z', 'X'], [gpName a, gpName d])
  | .MOVBQZX a d => (['M', 'O', 'V', 'B', 'Q', 'Z', 'X'], [lowName a, gpName d])
  | .MOVBQZX_mem b d => (['M', 'O', 'V', 'B', 'Q', 'Z', 'X'], [mem 0 b, gpName d])
  | .MOVW_ret a o => (['M', 'O', 'V', 'W'], [gpName a, fpRef sig o])
  | .SHLQ n d => (['S', 'H', 'L', 'Q'], [imm n, gpName d])
  | .SHRQ n d => (['S', 'H', 'R', 'Q'], [imm n, gpName d])
  | .ADDQ a d => (['A', 'D', 'D', 'Q'], [gpName a, gpName d])
  | .VLDDQU k b d => (['V', 'L', 'D', 'D', 'Q', 'U'], [mem k b, xName d])
  | .VMOVDQU a k b => (['V', 'M', 'O', 'V', 'D', 'Q', 'U'], [xName a, mem k b])
  | .VPBROADCASTW s d =>
    (['V', 'P', 'B', 'R', 'O', 'A', 'D', 'C', 'A', 'S', 'T', 'W'],
      [symName s ++ asc ['<', '>', '+', '0', '(', 'S', 'B', ')'], xName d])
  | .VBROADCASTSS_arg o d => (['V', 'B', 'R', 'O', 'A', 'D', 'C', 'A', 'S', 'T', 'S', 'S'], [fpRef sig o, xName d])
  | .VPMINUB b a d => (['V', 'P', 'M', 'I', 'N', 'U', 'B'], [xName b, xName a, xName d])
  | .VPACKUSWB b a d => (['V', 'P', 'A', 'C', 'K', 'U', 'S', 'W', 'B'], [xName b, xName a, xName d])
  | .VPMINSW b a d => (['V', 'P', 'M', 'I', 'N', 'S', 'W'], [xName b, xName a, xName d])
  | .VPADDUSW b a d => (['V', 'P', 'A', 'D', 'D', 'U', 'S', 'W'], [xName b, xName a, xName d])
  | .VPMOVMSKB a d => (['V', 'P', 'M', 'O', 'V', 'M', 'S', 'K', 'B'], [xName a, gpName d])
  | .VPSHUFB m a d => (['V', 'P', 'S', 'H', 'U', 'F', 'B'], [mem 0 m, xName a, xName d])
  | .VPALIGNR n b a d => (['V', 'P', 'A', 'L', 'I', 'G', 'N', 'R'], [imm n, xName b, xName a, xName d])
  | .VPSUBD b a d => (['V', 'P', 'S', 'U', 'B', 'D'], [xName b, xName a, xName d])
  | .VPADDD b a d => (['V', 'P', 'A', 'D', 'D', 'D'], [xName b, xName a, xName d])
  | .VPSLLDQ n a d => (['V', 'P', 'S', 'L', 'L', 'D', 'Q'], [imm n, xName a, xName d])
  | .VPSHUFD n a d => (['V', 'P', 'S', 'H', 'U', 'F', 'D'], [imm n, xName a, xName d])

/-- One instruction: the operands begin one blank after the longest mnemonic of the function. -/
def instrLine (w : Nat) (p : List Char × List Text) : Text :=
  9 :: asc p.1 ++ List.replicate (w + 1 - p.1.length) 32 ++ (p.2.intersperse [44, 32]).flatten

/-- The extensions of a function in alphabetical order. -/
def requires (is : List Instr) : Text :=
  (((if is.any (·.isa = .avx) then [asc ['A', 'V', 'X']] else []) ++
    (if is.any (·.isa = .avx2) then [asc ['A', 'V', 'X', '2']] else [])).intersperse [44, 32]).flatten

/-- A function: two comments, `TEXT` with the size of the argument frame, the instructions and `RET` (`RET()`;
`/repo/pkg/encode/main/asm.go:107`, `/repo/pkg/decode/main/asm.go:50`, `:74`).  `decl`: the signature without the word
`func`. -/
def fn (name decl : List Char) (sig : Sig) (is : List Instr) : List Text :=
  let ps := is.map (parts sig)
  [[], asc ("// func ".toList ++ name ++ decl), asc "// Requires: ".toList ++ requires is,
    asc ['T', 'E', 'X', 'T', ' '] ++ [194, 183] ++ asc name ++ asc "(SB), NOSPLIT, $0-".toList ++ fmtD sig.size] ++
    ps.map (instrLine (ps.foldl (fun w p => max w p.1.length) 0)) ++ [asc ['\t', 'R', 'E', 'T']]

/-- `%#04x` -/
def fmtX4 (n : Nat) : Text := 48 :: 120 :: zeros 4 (digitsOf 16 n)

/-- `ConstData(name, operand.U16(value))` -/
def constData (b : Block) (value : Nat) : List Text :=
  [[], asc "DATA ".toList ++ symName b ++ asc "<>+0(SB)/2, $".toList ++ fmtX4 value,
    asc "GLOBL ".toList ++ symName b ++ asc "<>(SB), RODATA|NOPTR, $2".toList]

/-- The first lines of a file; `out` is the argument of `-out` in the `go:generate` line. -/
def header (out : List Char) : List Text :=
  [asc ("// Code generated by command: go run asm.go -out ".toList ++ out ++ ". DO NOT EDIT.".toList), [],
    asc "#include \"textflag.h\"".toList]

/-- `main`, `/repo/pkg/encode/main/asm.go:37-41`: constants, `regular`, `differential`.  `-out` as in
`/repo/pkg/encode/gen.go:3`. -/
def encodeFile (regular differential : List Instr) : List Text :=
  header "./encode_amd64.s".toList ++ constData .mask0101 0x0101 ++ constData .mask7F00 0x7f00 ++
    fn "Put8uint32FastAsm".toList
      "(in []uint32, outBytes []byte, shuffle *[256][16]uint8, lenTable *[256]uint8) (r uint16)".toList
      Enc.signature regular ++
    fn "Put8uint32DeltaFastAsm".toList
      "(in []uint32, outBytes []byte, prev uint32, shuffle *[256][16]uint8, lenTable *[256]uint8) (r uint16)".toList
      Enc.signatureDelta differential

/-- `main`, `/repo/pkg/decode/main/asm.go:35-39`. -/
def decodeFile (regular differential : List Instr) : List Text :=
  header "./decode_amd64.s".toList ++
    fn "Get8uint32FastAsm".toList
      "(in []byte, out []uint32, ctrl uint16, shuffle *[256][16]uint8, lenTable *[256]uint8)".toList
      Dec.signature regular ++
    fn "Get8uint32DeltaFastAsm".toList
      "(in []byte, out []uint32, ctrl uint16, prev uint32, shuffle *[256][16]uint8, lenTable *[256]uint8)".toList
      Dec.signatureDelta differential

end SVB.AsmPrint
