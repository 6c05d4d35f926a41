import Verif.Model.Archive
import Verif.Model.Chunked
import Verif.Model.TestSem

/-!
# A caller that takes a piece out of a stream without decoding it

No code of the repository.  The sizes of groups are looked up with `shared.ControlByteToSize` (`/repo/pkg/shared/gen.go:5-7`); the
bytes are copied as they are.  `make([]uint32, n)` is the one of `Verif/Model/TestSem.lean`.
-/

set_option autoImplicit false

namespace SVB

/-- The size of the data of the first `k` groups of a stream of `n` numbers.  Numbers that the last group lacks have no byte,
though their codes, which are 0, say one. -/
def dataBefore (n k : Nat) (st : Bytes) : Prog Int := do
  let a ← ctrlSizes st k
  return a - (4 * k - n : Nat)

/-- Groups `a` to `b - 1` of a stream of `n` numbers as a stream. -/
def extract (fresh : Block) (n a b : Nat) (st : Bytes) : Prog Bytes := do
  let x ← dataBefore n a st
  let y ← dataBefore n b st
  let c ← st.range a b
  let d ← st.range (((n + 3) / 4 : Nat) + x) (((n + 3) / 4 : Nat) + y)
  let buf ← makeBytes fresh (c.len + d.len : Nat)
  let _ ← copyParts (fun p => .ret p.2) buf 0 [(0, c), (0, d)]
  return buf

/-- A caller that cuts a stream of `n` numbers before group `k`, and puts the pieces together again. -/
def cutAndJoin (f1 f2 f3 : Block) (n k : Nat) (st : Bytes) : Prog Bytes := do
  let p ← extract f1 n 0 k st
  let q ← extract f2 n k ((n + 3) / 4) st
  joinChunks f3 [(min n (4 * k), p), (n - 4 * k, q)]

/-- `copy(dst, src)` for `[]uint32`s in different blocks. -/
def copyWords (dst src : U32s) : Prog Unit := ReadmeCode.copyLoop dst.ptr src.ptr (4 * min dst.len src.len)

/-- A caller that appends numbers to a stream of `n` numbers: the full groups are kept as they are; only the numbers of a last group
that is not full are decoded, and encoded again with the new ones.  `b` gives the blocks of the allocations. -/
def appendNums (f g : Fn) (b : Nat → Block) (n : Nat) (st : Bytes) (more : U32s) : Prog Bytes := do
  let head ← extract (b 0) n 0 (n / 4) st
  let last ← extract (b 1) n (n / 4) ((n + 3) / 4) st
  let buf ← Tests.makeWords (b 2) (n % 4 + more.len : Nat)
  f.read (n % 4 : Nat) last buf
  let rest ← buf.from (n % 4 : Nat)
  copyWords rest more
  let tail ← g.write (b 3) buf
  joinChunks (b 4) [(4 * (n / 4), head), (n % 4 + more.len, tail)]

end SVB
