import Verif.Setting

/-!
# A caller that keeps streams one after another in one buffer

No code of the repository.  A stream does not say how many numbers it holds or where it ends; the readers take the count as an
argument (`/repo/pkg/stream/reader/reader.go:20, 36`).  A caller who knows the counts can find the end of each stream with
`shared.ControlByteToSize` (`/repo/pkg/shared/gen.go:5-7`), because the control bytes come first.
-/

set_option autoImplicit false

namespace SVB

/-- The sizes of the first `k` groups, looked up one by one. -/
def ctrlSizes (st : Bytes) : Nat → Prog Int
  | 0 => return 0
  | k + 1 => do
    let a ← ctrlSizes st k
    let c ← getB st k
    let z ← controlByteToSize c
    return a + z

/-- The size of the stream of `n` numbers at the beginning of `st`: its control bytes and the sizes of its groups, less one byte
for every number that the last group lacks (the unused codes are 0 and count as one byte each). -/
def streamSize (n : Nat) (st : Bytes) : Prog Int := do
  let groups := (n + 3) / 4
  let a ← ctrlSizes st groups
  return (groups : Int) + a - (4 * groups - n : Int)

/-- How to read one stream: which reader, how many numbers, where to; with a previous number the delta reader. -/
structure Item where
  f : Fn
  count : Nat
  out : U32s
  prev : Option U32

def Item.read (i : Item) (st : Bytes) : Prog Unit :=
  match i.prev with
  | none => i.f.read i.count st i.out
  | some p => i.f.readDelta i.count st i.out p

/-- Read the streams one after another; what is left of the buffer is returned. -/
def readItems : List Item → Bytes → Prog Bytes
  | [], st => return st
  | i :: is, st => do
    i.read st
    let k ← streamSize i.count st
    let r ← st.from k
    readItems is r

end SVB
