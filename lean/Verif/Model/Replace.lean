import Verif.Model.Extract

/-!
# A caller that replaces a group of a stream in place

No code of the repository.  The group is encoded by `encode.PutUint32Scalar` or `encode.PutUint32DeltaScalar`
(`/repo/pkg/encode/encode.go:54-106`) right into the stream.
-/

set_option autoImplicit false

namespace SVB

/-- `PutUint32Scalar(nums, out, len(nums))`, or `PutUint32DeltaScalar(nums, out, len(nums), prev)`. -/
def putGroup (prev : Option U32) (nums : U32s) (out : Bytes) : Prog Byte :=
  match prev with
  | none => putUint32Scalar nums out nums.len
  | some p => putUint32DeltaScalar nums out nums.len p

/-- `nums` in place of group `k` of a stream of `n` numbers: into the bytes of the data of the group, and then its control byte.  The
bytes are a slice with a limited capacity, `st[i:j:j]`. -/
def replaceGroup (prev : Option U32) (n k : Nat) (st : Bytes) (nums : U32s) : Prog Unit := do
  let x ← dataBefore n k st
  let y ← dataBefore n (k + 1) st
  let d ← st.range (((n + 3) / 4 : Nat) + x) (((n + 3) / 4 : Nat) + y)
  let c ← putGroup prev nums ⟨d.blk, d.off, d.len, d.len⟩
  setB st k c

end SVB
