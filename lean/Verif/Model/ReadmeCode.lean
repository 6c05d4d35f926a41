import Verif.Model.Prog

/-!
# The Go program in the README

`/repo/README.md:250-287`, an example of decoding one group of the Group Varint format.  `decodeOne` is the function of that name
in the README, not the one of the library (`Decode.lean`).
-/

set_option autoImplicit false

namespace SVB.ReadmeCode

/-- Copy `n` bytes, first to last. -/
def copyLoop (dst src : Ptr) : Nat → Prog Unit
  | 0 => .ret ()
  | n + 1 => do
    let b ← load8 src
    store8 dst b
    copyLoop (dst.add 1) (src.add 1) n

/-- `copy(dst, src)` for slices in different blocks. -/
def copyBytes (dst src : Bytes) : Prog Unit := copyLoop dst.ptr src.ptr (min dst.len src.len)

/-- `binary.LittleEndian.Uint32`, quoted in `/repo/README.md:261-264`. -/
def leUint32 (b : Bytes) : Prog U32 := do
  let _ ← getB b 3
  let b0 ← getB b 0
  let b1 ← getB b 1
  let b2 ← getB b 2
  let b3 ← getB b 3
  return b0.setWidth 32 ||| b1.setWidth 32 <<< 8 ||| b2.setWidth 32 <<< 16 ||| b3.setWidth 32 <<< 24

/-- `decodeOne`, `/repo/README.md:257-266`; `fresh` is the block `make` returns. -/
def decodeOne (fresh : Block) (input : Bytes) (size : Byte) : Prog U32 := do
  let buf ← makeBytes fresh 4
  copyBytes buf (← input.range 0 size.toNat)
  leUint32 buf

/-- `main`, `/repo/README.md:268-286`, for any `ctrl` and `data`; the four numbers are what the README assigns to `_`.
Lengths and their sums are `uint8`. -/
def main (fresh : Nat → Block) (ctrl : Byte) (data : Bytes) : Prog (List U32) := do
  let len0 : Byte := (ctrl &&& 3) + 1
  let len1 : Byte := (ctrl >>> 2 &&& 3) + 1
  let len2 : Byte := (ctrl >>> 4 &&& 3) + 1
  let len3 : Byte := (ctrl >>> 6 &&& 3) + 1
  let a ← decodeOne (fresh 0) data len0
  let b ← decodeOne (fresh 1) (← data.from len0.toNat) len1
  let c ← decodeOne (fresh 2) (← data.from (len0 + len1).toNat) len2
  let d ← decodeOne (fresh 3) (← data.from (len0 + len1 + len2).toNat) len3
  return [a, b, c, d]

end SVB.ReadmeCode
