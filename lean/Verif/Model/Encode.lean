import Verif.Model.Shared

/-! # Model of `/repo/pkg/encode/encode.go` -/

namespace SVB

/-- `bits.Len32`: number of bits needed to represent `x`; 0 for 0 (Go standard library). -/
def len32 (x : U32) : Nat := if x.toNat = 0 then 0 else Nat.log2 x.toNat + 1

/-- `bits.LeadingZeros32(x) = 32 - Len32(x)` (Go standard library). -/
def leadingZeros32 (x : U32) : Nat := 32 - len32 x

/-- `max`, `/repo/pkg/encode/encode.go:231-236`. -/
def goMax (a b : Int) : Int := if a < b then b else a

/-- `MaxBytesPerNum`, `/repo/pkg/encode/encode.go:10`. -/
def maxBytesPerNum : Int := 4

/-- `byte(num >> n)`. -/
def byteOf (num : U32) (n : Nat) : Byte := (num >>> n).setWidth 8

/-- `encodeOne`, `/repo/pkg/encode/encode.go:213-229`.  The `switch` with `fallthrough` is the chain of
`if`s: a case is executed when `size` is that case or a higher one. -/
def encodeOne (num : U32) (out : Bytes) : Prog Int := do
  let size : Int := goMax 1 (4 - goDiv (leadingZeros32 num) 8)
  if size = 4 then setB out 3 (byteOf num 24)
  if size = 4 ∨ size = 3 then setB out 2 (byteOf num 16)
  if size = 4 ∨ size = 3 ∨ size = 2 then setB out 1 (byteOf num 8)
  if size = 4 ∨ size = 3 ∨ size = 2 ∨ size = 1 then setB out 0 (byteOf num 0)
  return size

/-- `uint8((len0 - 1) | (len1-1)<<2 | (len2-1)<<4 | (len3-1)<<6)`,
`/repo/pkg/encode/encode.go:164` and `:210`.  The Go expression is on 64-bit `int`. -/
def packCtrl (len0 len1 len2 len3 : Int) : Byte :=
  let w (x : Int) : U64 := BitVec.ofInt 64 (x - 1)
  ((w len0) ||| (w len1) <<< 2 ||| (w len2) <<< 4 ||| (w len3) <<< 6).setWidth 8

/-- `Put4uint32Scalar`, `/repo/pkg/encode/encode.go:150-165`. -/
def put4uint32Scalar (inn : U32s) (out : Bytes) : Prog Byte := do
  let _ ← getW inn 3
  let num0 ← getW inn 0
  let num1 ← getW inn 1
  let num2 ← getW inn 2
  let num3 ← getW inn 3
  let len0 ← encodeOne num0 out
  let len1 ← encodeOne num1 (← out.from len0)
  let len2 ← encodeOne num2 (← out.from (len0 + len1))
  let len3 ← encodeOne num3 (← out.from (len0 + len1 + len2))
  return packCtrl len0 len1 len2 len3

/-- `Put4uint32DeltaScalar`, `/repo/pkg/encode/encode.go:196-211`. -/
def put4uint32DeltaScalar (inn : U32s) (out : Bytes) (prev : U32) : Prog Byte := do
  let _ ← getW inn 3
  let num0 := (← getW inn 0) - prev
  let num1 := (← getW inn 1) - (← getW inn 0)
  let num2 := (← getW inn 2) - (← getW inn 1)
  let num3 := (← getW inn 3) - (← getW inn 2)
  let len0 ← encodeOne num0 out
  let len1 ← encodeOne num1 (← out.from len0)
  let len2 ← encodeOne num2 (← out.from (len0 + len1))
  let len3 ← encodeOne num3 (← out.from (len0 + len1 + len2))
  return packCtrl len0 len1 len2 len3

/-- `Put8uint32Scalar`, `/repo/pkg/encode/encode.go:114-121`. -/
def put8uint32Scalar (inn : U32s) (out : Bytes) : Prog U16 := do
  let first ← put4uint32Scalar inn out
  let ctrl : U16 := 0 ||| first.setWidth 16
  let encoded ← controlByteToSize first
  let second ← put4uint32Scalar (← inn.from 4) (← out.from encoded)
  return ctrl ||| (second.setWidth 16) <<< 8

/-- `Put8uint32DeltaScalar`, `/repo/pkg/encode/encode.go:177-184`. -/
def put8uint32DeltaScalar (inn : U32s) (out : Bytes) (prev : U32) : Prog U16 := do
  let first ← put4uint32DeltaScalar inn out prev
  let ctrl : U16 := 0 ||| first.setWidth 16
  let encoded ← controlByteToSize first
  let second ← put4uint32DeltaScalar (← inn.from 4) (← out.from encoded) (← getW inn 3)
  return ctrl ||| (second.setWidth 16) <<< 8

/-- Loop state of `PutUint32Scalar` / `PutUint32DeltaScalar`. -/
structure PutSt where
  i : Int
  ctrl : Byte
  shift : Nat
  total : Int
  prev : U32

/-- `PutUint32Scalar`, `/repo/pkg/encode/encode.go:54-76`. -/
def putUint32Scalar (inn : U32s) (out : Bytes) (count : Int) : Prog Byte := do
  if count = 0 then return 0
  let count := if count > 4 then 4 else count
  let st ← loop 4 (fun (s : PutSt) => decide (s.i < count)) (fun s => do
    let size ← encodeOne (← getW inn s.i) (← out.from s.total)
    let total := s.total + size
    let ctrl := s.ctrl ||| (BitVec.ofInt 8 (size - 1)) <<< s.shift
    return { s with i := s.i + 1, ctrl := ctrl, shift := s.shift + 2, total := total })
    { i := 0, ctrl := 0, shift := 0, total := 0, prev := 0 }
  return st.ctrl

/-- `PutUint32DeltaScalar`, `/repo/pkg/encode/encode.go:83-106`. -/
def putUint32DeltaScalar (inn : U32s) (out : Bytes) (count : Int) (prev : U32) : Prog Byte := do
  if count = 0 then return 0
  let count := if count > 4 then 4 else count
  let st ← loop 4 (fun (s : PutSt) => decide (s.i < count)) (fun s => do
    let size ← encodeOne ((← getW inn s.i) - s.prev) (← out.from s.total)
    let total := s.total + size
    let ctrl := s.ctrl ||| (BitVec.ofInt 8 (size - 1)) <<< s.shift
    let prev ← getW inn s.i
    return { i := s.i + 1, ctrl := ctrl, shift := s.shift + 2, total := total, prev := prev })
    { i := 0, ctrl := 0, shift := 0, total := 0, prev := prev }
  return st.ctrl

end SVB
