import Verif.SpecUtil

/-! # VByte as the README describes it, independent of the model of the code -/

set_option autoImplicit false

namespace SVB.Spec

/-- The decoder of `/repo/README.md:203-206`, with an integer of `w` bits: "you OR the last 7 bits of every byte
shifted to the appropriate length to your … integer until you find a byte that doesn't have a continuation bit
set".  `i` counts the bytes used, `acc` is the integer. -/
def orBits (w : Nat) : List Byte → Nat → BitVec w → BitVec w × Nat
  | [], i, acc => (acc, i)
  | b :: bs, i, acc =>
    let acc' := acc ||| ((b &&& 0x7f).setWidth w <<< (7 * i))
    if b.msb then orBits w bs (i + 1) acc' else (acc', i + 1)

/-- The number at the beginning of `bs`, and the number of bytes it takes. -/
def decodeVByte (w : Nat) (bs : List Byte) : BitVec w × Nat := orBits w bs 0 0

/-- One number in VByte: at least one byte, exactly the last of them without the continuation bit. -/
def VByte (g : List Byte) : Prop := g ≠ [] ∧ ∀ j (h : j < g.length), g[j].msb = decide (j + 1 < g.length)

end SVB.Spec
