import Verif.Model.Decode

/-!
# A caller that looks for a number in a delta stream of sorted numbers

No code of the repository.  Groups are decoded by `decode.GetUint32DeltaScalar` (`/repo/pkg/decode/decode.go:109-130`) one after another, until the number is reached; its
result is the place of the next group.
-/

set_option autoImplicit false

namespace SVB

/-- The place, from `i` on, of the first of `r` numbers in `buf` that is not less than `x`. -/
def firstIn (buf : U32s) (x : U32) : Nat → Nat → Prog Nat
  | 0, i => return i
  | r + 1, i => do
    let v ← getW buf i
    if x ≤ v then return i else firstIn buf x r (i + 1)

/-- Groups `g` and following, `r` of them, of a stream of `n` numbers; the data of group `g` begins at `pos`, `prev` is the number
before it. -/
def seekFrom (n : Nat) (x : U32) (st : Bytes) (buf : U32s) : Nat → Nat → Int → U32 → Prog Nat
  | 0, _, _, _ => return n
  | r + 1, g, pos, prev => do
    let c ← getB st g
    let d ← st.from pos
    let s ← getUint32DeltaScalar d buf c (min 4 (n - 4 * g) : Nat) prev
    let last ← getW buf (min 4 (n - 4 * g) - 1 : Nat)
    if x ≤ last then do
      let i ← firstIn buf x (min 4 (n - 4 * g)) 0
      return 4 * g + i
    else seekFrom n x st buf r (g + 1) (pos + s) last

/-- The place of the first number not less than `x` in a delta stream of `n` sorted numbers with base `prev`, or `n`; `buf` has room
for four numbers. -/
def seek (n : Nat) (x : U32) (st : Bytes) (buf : U32s) (prev : U32) : Prog Nat :=
  seekFrom n x st buf ((n + 3) / 4) 0 ((n + 3) / 4 : Nat) prev

end SVB
