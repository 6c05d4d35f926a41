import Verif.Model.Shared

/-! # Model of `/repo/pkg/decode/decode.go` -/

namespace SVB

/-- `decodeOne`, `/repo/pkg/decode/decode.go:176-188`. -/
def decodeOne (b : Bytes) (size : Byte) : Prog U32 := do
  if size = 4 then
    let b3 ← getB b 3
    let b2 ← getB b 2
    let b1 ← getB b 1
    let b0 ← getB b 0
    return b3.setWidth 32 <<< 24 ||| b2.setWidth 32 <<< 16 ||| b1.setWidth 32 <<< 8 ||| b0.setWidth 32
  else if size = 3 then
    let b2 ← getB b 2
    let b1 ← getB b 1
    let b0 ← getB b 0
    return b2.setWidth 32 <<< 16 ||| b1.setWidth 32 <<< 8 ||| b0.setWidth 32
  else if size = 2 then
    let b1 ← getB b 1
    let b0 ← getB b 0
    return b1.setWidth 32 <<< 8 ||| b0.setWidth 32
  else if size = 1 then
    let b0 ← getB b 0
    return b0.setWidth 32
  else .panic (.explicit "impossible")

/-- `sizes := shared.PerNumLenTable[ctrl]`: copy of row `ctrl`, `/repo/pkg/decode/decode.go:64` and
`:161`. -/
def perNumLenRow (ctrl : Byte) : Prog (Byte × Byte × Byte × Byte) := do
  let l0 ← load8 ⟨.numLen, 4 * ctrl.toNat⟩
  let l1 ← load8 ⟨.numLen, 4 * ctrl.toNat + 1⟩
  let l2 ← load8 ⟨.numLen, 4 * ctrl.toNat + 2⟩
  let l3 ← load8 ⟨.numLen, 4 * ctrl.toNat + 3⟩
  return (l0, l1, l2, l3)

/-- `Get4uint32Scalar`, `/repo/pkg/decode/decode.go:63-75`.  Index sums are `uint8` additions. -/
def get4uint32Scalar (inn : Bytes) (out : U32s) (ctrl : Byte) : Prog Unit := do
  let (len0, len1, len2, len3) ← perNumLenRow ctrl
  setW out 3 (← decodeOne (← inn.from (len0 + len1 + len2).toNat) len3)
  setW out 2 (← decodeOne (← inn.from (len0 + len1).toNat) len2)
  setW out 1 (← decodeOne (← inn.from len0.toNat) len1)
  setW out 0 (← decodeOne inn len0)

/-- `Get4uint32DeltaScalar`, `/repo/pkg/decode/decode.go:160-174`. -/
def get4uint32DeltaScalar (inn : Bytes) (out : U32s) (ctrl : Byte) (prev : U32) : Prog Unit := do
  let (len0, len1, len2, len3) ← perNumLenRow ctrl
  let _ ← getW out 3
  setW out 0 ((← decodeOne inn len0) + prev)
  setW out 1 ((← decodeOne (← inn.from len0.toNat) len1) + (← getW out 0))
  setW out 2 ((← decodeOne (← inn.from (len0 + len1).toNat) len2) + (← getW out 1))
  setW out 3 ((← decodeOne (← inn.from (len0 + len1 + len2).toNat) len3) + (← getW out 2))

/-- `Get8uint32Scalar`, `/repo/pkg/decode/decode.go:49-55`. -/
def get8uint32Scalar (inn : Bytes) (out : U32s) (ctrl : U16) : Prog Unit := do
  let lower : Byte := (ctrl &&& 0xff#16).setWidth 8
  let upper : Byte := (ctrl >>> 8).setWidth 8
  let lowerSize ← controlByteToSize lower
  get4uint32Scalar inn out lower
  get4uint32Scalar (← inn.from lowerSize) (← out.from 4) upper

/-- `Get8uint32DeltaScalar`, `/repo/pkg/decode/decode.go:142-148`. -/
def get8uint32DeltaScalar (inn : Bytes) (out : U32s) (ctrl : U16) (prev : U32) : Prog Unit := do
  let lower : Byte := (ctrl &&& 0xff#16).setWidth 8
  let upper : Byte := (ctrl >>> 8).setWidth 8
  let lowerSize ← controlByteToSize lower
  get4uint32DeltaScalar inn out lower prev
  get4uint32DeltaScalar (← inn.from lowerSize) (← out.from 4) upper (← getW out 3)

/-- Loop state of `GetUint32Scalar` / `GetUint32DeltaScalar`. -/
structure GetSt where
  i : Int
  shift : Nat
  total : Int
  prev : U32

/-- `GetUint32Scalar`, `/repo/pkg/decode/decode.go:82-101`. -/
def getUint32Scalar (inn : Bytes) (out : U32s) (ctrl : Byte) (count : Int) : Prog Int := do
  if count = 0 then return 0
  let count := if count > 4 then 4 else count
  let st ← loop 4 (fun (s : GetSt) => decide (s.i < count)) (fun s => do
    let size : Byte := ((ctrl >>> s.shift) &&& 0x3#8) + 1
    setW out s.i (← decodeOne (← inn.from s.total) size)
    return { s with i := s.i + 1, shift := s.shift + 2, total := s.total + size.toNat })
    { i := 0, shift := 0, total := 0, prev := 0 }
  return st.total

/-- `GetUint32DeltaScalar`, `/repo/pkg/decode/decode.go:109-130`. -/
def getUint32DeltaScalar (inn : Bytes) (out : U32s) (ctrl : Byte) (count : Int) (prev : U32) :
    Prog Int := do
  if count = 0 then return 0
  let count := if count > 4 then 4 else count
  let st ← loop 4 (fun (s : GetSt) => decide (s.i < count)) (fun s => do
    let size : Byte := ((ctrl >>> s.shift) &&& 0x3#8) + 1
    let num := (← decodeOne (← inn.from s.total) size) + s.prev
    setW out s.i num
    return { i := s.i + 1, shift := s.shift + 2, total := s.total + size.toNat, prev := num })
    { i := 0, shift := 0, total := 0, prev := prev }
  return st.total

end SVB
