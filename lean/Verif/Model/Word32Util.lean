import Verif.Model.Word32
import Verif.Model.Util

/-!
# Package `util` where `int` has 32 bits

`/repo/pkg/util/varint.go` and `Delta` of `/repo/pkg/util/util.go` a second time, with every sum and difference of `int`s wrapped to
32 bits; `putUvarint` and `uvarint` are those of `Model/Util.lean`, because no `int` in them exceeds 11.
-/

set_option autoImplicit false

namespace SVB.Word32

/-- `PutVarint`, `/repo/pkg/util/varint.go:5-13`. -/
def putVarint (nums : U32s) (out : Bytes) : Prog Int := do
  let s ← loop nums.len (fun s : Int × Int => decide (s.1 < nums.len))
    (fun s => do
      let o ← out.from s.2
      let v ← getW nums s.1
      let size ← putUvarint o (v.setWidth 64)
      return (int32 (s.1 + 1), int32 (s.2 + size))) (0, 0)
  return s.2

/-- `GetVarint`, `/repo/pkg/util/varint.go:15-25`. -/
def getVarint (data : Bytes) (out : U32s) : Prog Int := do
  let s ← loop (out.len + 1) (fun s : Int × Int => decide (s.1 < data.len))
    (fun s => do
      let d ← data.from s.1
      let r ← uvarint d
      setW out s.2 (r.1.setWidth 32)
      return (int32 (s.1 + r.2), int32 (s.2 + 1))) (0, 0)
  return s.1

/-- `PutDeltaVarint`, `/repo/pkg/util/varint.go:27-36`. -/
def putDeltaVarint (nums : U32s) (out : Bytes) (prev : U32) : Prog Int := do
  let s ← loop nums.len (fun s : Int × Int × U32 => decide (s.1 < nums.len))
    (fun s => do
      let o ← out.from s.2.1
      let v ← getW nums s.1
      let size ← putUvarint o ((v - s.2.2).setWidth 64)
      let prev' ← getW nums s.1
      return (int32 (s.1 + 1), int32 (s.2.1 + size), prev')) (0, 0, prev)
  return s.2.1

/-- `GetDeltaVarint`, `/repo/pkg/util/varint.go:38-51`. -/
def getDeltaVarint (data : Bytes) (out : U32s) (prev : U32) : Prog Int := do
  let s ← loop (out.len + 1) (fun s : Int × Int × U32 => decide (s.1 < data.len))
    (fun s => do
      let d ← data.from s.1
      let r ← uvarint d
      let res := r.1.setWidth 32 + s.2.2
      setW out s.2.1 res
      return (int32 (s.1 + r.2), int32 (s.2.1 + 1), res)) (0, 0, prev)
  return s.1

/-- `Delta`, `/repo/pkg/util/util.go:27-35`. -/
def utilDelta (inn out : U32s) : Prog Unit := do
  let _ ← loop inn.len (fun i : Int => decide (i < inn.len))
    (fun i => do
      if i > 0 then
        let a ← getW inn i
        let b ← getW inn (int32 (i - 1))
        setW out i (a - b)
      else
        let a ← getW inn i
        setW out i a
      return int32 (i + 1)) 0
  return

end SVB.Word32
