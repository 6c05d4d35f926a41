import Verif.Model.Prog
import Verif.Model.Tables

/-! # Model of `/repo/pkg/shared` (except the avo helper `asm.go`, which only runs at code-generation
time; its output is modelled in `Asm.lean`) -/

namespace SVB

/-- The package-level tables and assembly constants hold their initial contents.
`/repo/pkg/shared/tables.go` (arrays are laid out row by row) and
`/repo/pkg/encode/encode_amd64.s:5-9` (`DATA mask0101<>+0(SB)/2, $0x0101` etc., little-endian). -/
structure TablesLoaded (m : Mem) : Prop where
  encShuf : ∀ c < 256, ∀ j < 16,
    m ⟨.encShuf, 16 * c + j⟩ = BitVec.ofNat 8 ((encodeShuffleTable.getD c []).getD j 0)
  decShuf : ∀ c < 256, ∀ j < 16,
    m ⟨.decShuf, 16 * c + j⟩ = BitVec.ofNat 8 ((decodeShuffleTable.getD c []).getD j 0)
  numLen : ∀ c < 256, ∀ j < 4,
    m ⟨.numLen, 4 * c + j⟩ = BitVec.ofNat 8 ((perNumLenTable.getD c []).getD j 0)
  ctrlLen : ∀ c < 256, m ⟨.ctrlLen, c⟩ = BitVec.ofNat 8 (perControlLenTable.getD c 0)
  mask0101 : m ⟨.mask0101, 0⟩ = 0x01#8 ∧ m ⟨.mask0101, 1⟩ = 0x01#8
  mask7F00 : m ⟨.mask7F00, 0⟩ = 0x00#8 ∧ m ⟨.mask7F00, 1⟩ = 0x7f#8

/-- Memory right after program start: constants loaded, everything else zero. -/
def initMem : Mem := fun p =>
  match p.blk with
  | .encShuf => BitVec.ofNat 8 ((encodeShuffleTable.getD (p.off / 16) []).getD (p.off % 16) 0)
  | .decShuf => BitVec.ofNat 8 ((decodeShuffleTable.getD (p.off / 16) []).getD (p.off % 16) 0)
  | .numLen => BitVec.ofNat 8 ((perNumLenTable.getD (p.off / 4) []).getD (p.off % 4) 0)
  | .ctrlLen => BitVec.ofNat 8 (perControlLenTable.getD p.off 0)
  | .mask0101 => 0x01#8
  | .mask7F00 => if p.off = 0 then 0x00#8 else 0x7f#8
  | .heap _ => 0

/-- `ControlByteToSize`, `/repo/pkg/shared/gen.go:5-7`.  Indexing a `*[256]uint8` with a `uint8` needs no
bounds check. -/
def controlByteToSize (c : Byte) : Prog Int := do
  let v ← load8 ⟨.ctrlLen, c.toNat⟩
  return v.toNat

/-- `ControlByteToSizeTwo`, `/repo/pkg/shared/gen.go:9-11`.  The addition is on `uint8`; the indices are
`uint16`, checked against 256. -/
def controlByteToSizeTwo (c : U16) : Prog Int := do
  let lo := c &&& 0xff#16
  let hi := c >>> 8
  if lo.toNat < 256 ∧ hi.toNat < 256 then
    let a ← load8 ⟨.ctrlLen, lo.toNat⟩
    let b ← load8 ⟨.ctrlLen, hi.toNat⟩
    return (a + b).toNat
  else .panic .index

/-! ## The table generator `/repo/pkg/shared/main/gentables.go` (the numbers it prints; formatting and
file output are not modelled) -/

/-- `sizes`, `/repo/pkg/shared/main/gentables.go:185-191`. -/
def genSizes (control : Byte) : List Byte :=
  [ (control &&& 3) + 1,
    (control >>> 2 &&& 3) + 1,
    (control >>> 4 &&& 3) + 1,
    (control >>> 6 &&& 3) + 1 ]

/-- Body of the loop in `genPerNumLengthTable`, `gentables.go:83-91`. -/
def genPerNumRow (i : Nat) : List Nat := (genSizes (BitVec.ofNat 8 i)).map BitVec.toNat

/-- Body of the loop in `genPerQuadLengthTable`, `gentables.go:98-106` (`one+two+three+four` on
`uint8`). -/
def genPerQuad (i : Nat) : Nat :=
  match genSizes (BitVec.ofNat 8 i) with
  | [one, two, three, four] => (one + two + three + four).toNat
  | _ => 0

/-- The position list built by `genEncodeShuffleTable`, `gentables.go:126-137`: for the `n`-th size,
`base = 4 n`, append `base .. base+size-1`; then pad with 0xff up to 16. -/
def genEncRow (i : Nat) : List Nat :=
  let pos := (List.range 4).flatMap fun n =>
    (List.range ((genSizes (BitVec.ofNat 8 i)).getD n 0).toNat).map fun j => 4 * n + j
  pos ++ List.replicate (16 - pos.length) 0xff

/-- The position list built by `genDecodeShuffleTable`, `gentables.go:159-171`. -/
def genDecRow (i : Nat) : List Nat :=
  ((genSizes (BitVec.ofNat 8 i)).foldl (fun (acc : List Nat × Nat) size =>
    (List.range 4).foldl (fun (a : (List Nat × Nat) × Nat) _ =>
      if a.2 > 0 then ((a.1.1 ++ [a.1.2], a.1.2 + 1), a.2 - 1)
      else ((a.1.1 ++ [0xff], a.1.2), a.2)) (acc, size.toNat) |>.1) ([], 0)).1

end SVB
