import Verif.SpecUtil

/-! # Arguments of package `util` that share memory: what is read before it is overwritten -/

set_option autoImplicit false

namespace SVB.Spec

/-- Number `n` of `nums` has no byte among the first `k` bytes from the beginning of `out`. -/
def Clear (nums : U32s) (n : Nat) (out : Bytes) (k : Nat) : Prop :=
  nums.blk ≠ out.blk ∨ out.off + k ≤ nums.off + 4 * n ∨ nums.off + 4 * n + 4 ≤ out.off

/-- The bytes of `data` from number `n` on have none among the first `n` numbers of `out`; `k` is where number `n` begins. -/
def Unread (data : Bytes) (k : Nat) (out : U32s) (n : Nat) : Prop :=
  data.blk ≠ out.blk ∨ out.off + 4 * n ≤ data.off + k ∨ data.off + data.len ≤ out.off

/-- What `Delta` gets when it overwrites its own input: from the second number on the result before is subtracted. -/
def selfDelta (p : U32) : List U32 → List U32
  | [] => []
  | x :: xs => (x - p) :: selfDelta (x - p) xs

end SVB.Spec
