import Verif.Model.Dispatch
import Verif.Model.Util

/-!
# The portable functions on machines of either byte order

Go's `uint32` is stored in memory in the byte order of the machine; the rest of the model fixes the order of amd64.
This file is the text of the scalar functions again (`Model/Encode`, `Model/Decode`, `Model/Writer`, `Model/Reader`,
`Model/Util`) with the byte order as a parameter of the accesses to `[]uint32`, the only ones it matters for: the
package-level tables are arrays of bytes, and the streams are slices of bytes.  For `Endian.little` each of them is the
function it was copied from (`C81_little`).
-/

set_option autoImplicit false

namespace SVB

/-- The byte order of a machine. -/
inductive Endian where
  | little
  | big
deriving DecidableEq, Repr

namespace En

/-- 32-bit load: on a big-endian machine the byte at the lowest address is the most significant one. -/
def load32 (e : Endian) (p : Ptr) : Prog U32 := do
  let b0 ← load8 p
  let b1 ← load8 (p.add 1)
  let b2 ← load8 (p.add 2)
  let b3 ← load8 (p.add 3)
  match e with
  | .little => return b3 ++ b2 ++ b1 ++ b0
  | .big => return b0 ++ b1 ++ b2 ++ b3

/-- 32-bit store. -/
def store32 (e : Endian) (p : Ptr) (v : U32) : Prog Unit :=
  match e with
  | .little => do
    store8 p (v.extractLsb' 0 8)
    store8 (p.add 1) (v.extractLsb' 8 8)
    store8 (p.add 2) (v.extractLsb' 16 8)
    store8 (p.add 3) (v.extractLsb' 24 8)
  | .big => do
    store8 p (v.extractLsb' 24 8)
    store8 (p.add 1) (v.extractLsb' 16 8)
    store8 (p.add 2) (v.extractLsb' 8 8)
    store8 (p.add 3) (v.extractLsb' 0 8)

/-- `s[i]` for `[]uint32`, as a value. -/
def getW (e : Endian) (s : U32s) (i : Int) : Prog U32 :=
  if 0 ≤ i ∧ i < s.len then load32 e ⟨s.blk, s.off + 4 * i.toNat⟩ else .panic .index

/-- `s[i] = v` for `[]uint32`. -/
def setW (e : Endian) (s : U32s) (i : Int) (v : U32) : Prog Unit :=
  if 0 ≤ i ∧ i < s.len then store32 e ⟨s.blk, s.off + 4 * i.toNat⟩ v else .panic .index

/-- `Put4uint32Scalar`, `/repo/pkg/encode/encode.go:150-165`. -/
def put4uint32Scalar (e : Endian) (inn : U32s) (out : Bytes) : Prog Byte := do
  let _ ← getW e inn 3
  let num0 ← getW e inn 0
  let num1 ← getW e inn 1
  let num2 ← getW e inn 2
  let num3 ← getW e inn 3
  let len0 ← encodeOne num0 out
  let len1 ← encodeOne num1 (← out.from len0)
  let len2 ← encodeOne num2 (← out.from (len0 + len1))
  let len3 ← encodeOne num3 (← out.from (len0 + len1 + len2))
  return packCtrl len0 len1 len2 len3

/-- `Put4uint32DeltaScalar`, `/repo/pkg/encode/encode.go:196-211`. -/
def put4uint32DeltaScalar (e : Endian) (inn : U32s) (out : Bytes) (prev : U32) : Prog Byte := do
  let _ ← getW e inn 3
  let num0 := (← getW e inn 0) - prev
  let num1 := (← getW e inn 1) - (← getW e inn 0)
  let num2 := (← getW e inn 2) - (← getW e inn 1)
  let num3 := (← getW e inn 3) - (← getW e inn 2)
  let len0 ← encodeOne num0 out
  let len1 ← encodeOne num1 (← out.from len0)
  let len2 ← encodeOne num2 (← out.from (len0 + len1))
  let len3 ← encodeOne num3 (← out.from (len0 + len1 + len2))
  return packCtrl len0 len1 len2 len3

/-- `Put8uint32Scalar`, `/repo/pkg/encode/encode.go:114-121`. -/
def put8uint32Scalar (e : Endian) (inn : U32s) (out : Bytes) : Prog U16 := do
  let first ← put4uint32Scalar e inn out
  let ctrl : U16 := 0 ||| first.setWidth 16
  let encoded ← controlByteToSize first
  let second ← put4uint32Scalar e (← inn.from 4) (← out.from encoded)
  return ctrl ||| (second.setWidth 16) <<< 8

/-- `Put8uint32DeltaScalar`, `/repo/pkg/encode/encode.go:177-184`. -/
def put8uint32DeltaScalar (e : Endian) (inn : U32s) (out : Bytes) (prev : U32) : Prog U16 := do
  let first ← put4uint32DeltaScalar e inn out prev
  let ctrl : U16 := 0 ||| first.setWidth 16
  let encoded ← controlByteToSize first
  let second ← put4uint32DeltaScalar e (← inn.from 4) (← out.from encoded) (← getW e inn 3)
  return ctrl ||| (second.setWidth 16) <<< 8

/-- `PutUint32Scalar`, `/repo/pkg/encode/encode.go:54-76`. -/
def putUint32Scalar (e : Endian) (inn : U32s) (out : Bytes) (count : Int) : Prog Byte := do
  if count = 0 then return 0
  let count := if count > 4 then 4 else count
  let st ← loop 4 (fun (s : PutSt) => decide (s.i < count)) (fun s => do
    let size ← encodeOne (← getW e inn s.i) (← out.from s.total)
    let total := s.total + size
    let ctrl := s.ctrl ||| (BitVec.ofInt 8 (size - 1)) <<< s.shift
    return { s with i := s.i + 1, ctrl := ctrl, shift := s.shift + 2, total := total })
    { i := 0, ctrl := 0, shift := 0, total := 0, prev := 0 }
  return st.ctrl

/-- `PutUint32DeltaScalar`, `/repo/pkg/encode/encode.go:83-106`. -/
def putUint32DeltaScalar (e : Endian) (inn : U32s) (out : Bytes) (count : Int) (prev : U32) : Prog Byte := do
  if count = 0 then return 0
  let count := if count > 4 then 4 else count
  let st ← loop 4 (fun (s : PutSt) => decide (s.i < count)) (fun s => do
    let size ← encodeOne ((← getW e inn s.i) - s.prev) (← out.from s.total)
    let total := s.total + size
    let ctrl := s.ctrl ||| (BitVec.ofInt 8 (size - 1)) <<< s.shift
    let prev ← getW e inn s.i
    return { i := s.i + 1, ctrl := ctrl, shift := s.shift + 2, total := total, prev := prev })
    { i := 0, ctrl := 0, shift := 0, total := 0, prev := prev }
  return st.ctrl

/-- `Get4uint32Scalar`, `/repo/pkg/decode/decode.go:63-75`.  Index sums are `uint8` additions. -/
def get4uint32Scalar (e : Endian) (inn : Bytes) (out : U32s) (ctrl : Byte) : Prog Unit := do
  let (len0, len1, len2, len3) ← perNumLenRow ctrl
  setW e out 3 (← decodeOne (← inn.from (len0 + len1 + len2).toNat) len3)
  setW e out 2 (← decodeOne (← inn.from (len0 + len1).toNat) len2)
  setW e out 1 (← decodeOne (← inn.from len0.toNat) len1)
  setW e out 0 (← decodeOne inn len0)

/-- `Get4uint32DeltaScalar`, `/repo/pkg/decode/decode.go:160-174`. -/
def get4uint32DeltaScalar (e : Endian) (inn : Bytes) (out : U32s) (ctrl : Byte) (prev : U32) : Prog Unit := do
  let (len0, len1, len2, len3) ← perNumLenRow ctrl
  let _ ← getW e out 3
  setW e out 0 ((← decodeOne inn len0) + prev)
  setW e out 1 ((← decodeOne (← inn.from len0.toNat) len1) + (← getW e out 0))
  setW e out 2 ((← decodeOne (← inn.from (len0 + len1).toNat) len2) + (← getW e out 1))
  setW e out 3 ((← decodeOne (← inn.from (len0 + len1 + len2).toNat) len3) + (← getW e out 2))

/-- `Get8uint32Scalar`, `/repo/pkg/decode/decode.go:49-55`. -/
def get8uint32Scalar (e : Endian) (inn : Bytes) (out : U32s) (ctrl : U16) : Prog Unit := do
  let lower : Byte := (ctrl &&& 0xff#16).setWidth 8
  let upper : Byte := (ctrl >>> 8).setWidth 8
  let lowerSize ← controlByteToSize lower
  get4uint32Scalar e inn out lower
  get4uint32Scalar e (← inn.from lowerSize) (← out.from 4) upper

/-- `Get8uint32DeltaScalar`, `/repo/pkg/decode/decode.go:142-148`. -/
def get8uint32DeltaScalar (e : Endian) (inn : Bytes) (out : U32s) (ctrl : U16) (prev : U32) : Prog Unit := do
  let lower : Byte := (ctrl &&& 0xff#16).setWidth 8
  let upper : Byte := (ctrl >>> 8).setWidth 8
  let lowerSize ← controlByteToSize lower
  get4uint32DeltaScalar e inn out lower prev
  get4uint32DeltaScalar e (← inn.from lowerSize) (← out.from 4) upper (← getW e out 3)

/-- `GetUint32Scalar`, `/repo/pkg/decode/decode.go:82-101`. -/
def getUint32Scalar (e : Endian) (inn : Bytes) (out : U32s) (ctrl : Byte) (count : Int) : Prog Int := do
  if count = 0 then return 0
  let count := if count > 4 then 4 else count
  let st ← loop 4 (fun (s : GetSt) => decide (s.i < count)) (fun s => do
    let size : Byte := ((ctrl >>> s.shift) &&& 0x3#8) + 1
    setW e out s.i (← decodeOne (← inn.from s.total) size)
    return { s with i := s.i + 1, shift := s.shift + 2, total := s.total + size.toNat })
    { i := 0, shift := 0, total := 0, prev := 0 }
  return st.total

/-- `GetUint32DeltaScalar`, `/repo/pkg/decode/decode.go:109-130`. -/
def getUint32DeltaScalar (e : Endian) (inn : Bytes) (out : U32s) (ctrl : Byte) (count : Int) (prev : U32) :
    Prog Int := do
  if count = 0 then return 0
  let count := if count > 4 then 4 else count
  let st ← loop 4 (fun (s : GetSt) => decide (s.i < count)) (fun s => do
    let size : Byte := ((ctrl >>> s.shift) &&& 0x3#8) + 1
    let num := (← decodeOne (← inn.from s.total) size) + s.prev
    setW e out s.i num
    return { i := s.i + 1, shift := s.shift + 2, total := s.total + size.toNat, prev := num })
    { i := 0, shift := 0, total := 0, prev := prev }
  return st.total

/-- Body of the first loop of `WriteAllScalar`, `/repo/pkg/stream/writer/writer.go:52-75`. -/
def wsBody16 (e : Endian) (inn : U32s) (stream : Bytes) (s : WSt) : Prog WSt := do
  let nums ← inn.range s.encoded (s.encoded + jump)
  let data ← stream.from s.dataPos
  let ctrls ← stream.range s.ctrlPos (s.ctrlPos + jumpCtrl)
  let ctrl ← put4uint32Scalar e nums data
  setB ctrls 0 ctrl
  let sizeA ← controlByteToSize ctrl
  let ctrl ← put4uint32Scalar e (← nums.from 4) (← data.from sizeA)
  setB ctrls 1 ctrl
  let sizeB ← controlByteToSize ctrl
  let ctrl ← put4uint32Scalar e (← nums.from 8) (← data.from (sizeA + sizeB))
  setB ctrls 2 ctrl
  let sizeC ← controlByteToSize ctrl
  let ctrl ← put4uint32Scalar e (← nums.from 12) (← data.from (sizeA + sizeB + sizeC))
  setB ctrls 3 ctrl
  let sizeD ← controlByteToSize ctrl
  return { s with
    encoded := s.encoded + jump
    dataPos := s.dataPos + (sizeA + sizeB + sizeC + sizeD)
    ctrlPos := s.ctrlPos + jumpCtrl }

/-- Body of the second loop of `WriteAllScalar`, `/repo/pkg/stream/writer/writer.go:77-83`. -/
def wsBody4 (e : Endian) (inn : U32s) (stream : Bytes) (s : WSt) : Prog WSt := do
  let ctrl ← put4uint32Scalar e (← inn.from s.encoded) (← stream.from s.dataPos)
  setB stream s.ctrlPos ctrl
  let size ← controlByteToSize ctrl
  return { s with encoded := s.encoded + 4, dataPos := s.dataPos + size, ctrlPos := s.ctrlPos + 1 }

/-- `WriteAllScalar`, `/repo/pkg/stream/writer/writer.go:39-95`. -/
def writeAllScalar (e : Endian) (fresh : Block) (inn : U32s) : Prog Bytes := do
  let count : Int := inn.len
  let ctrlLen := goDiv (int64 (count + 3)) 4
  let stream ← makeBytes fresh (int64 (ctrlLen + int64 (maxBytesPerNum * count)))
  let lowestJump := andNot count (jump - 1)
  let lowest4 := andNot count 3
  let s ← loop inn.len (fun s => decide (s.encoded < lowestJump)) (wsBody16 e inn stream)
    { encoded := 0, dataPos := ctrlLen, ctrlPos := 0, prev := 0 }
  let s ← loop inn.len (fun s => decide (s.encoded < lowest4)) (wsBody4 e inn stream) s
  if lowest4 ≠ count then
    let nums := count - lowest4
    let ctrl ← putUint32Scalar e (← inn.from s.encoded) (← stream.from s.dataPos) nums
    let size ← controlByteToSize ctrl
    let size := size - (4 - nums)
    let dataPos := s.dataPos + size
    setB stream s.ctrlPos ctrl
    stream.range 0 dataPos
  else
    stream.range 0 s.dataPos

/-- Body of the first loop of `WriteAllDeltaScalar`, `/repo/pkg/stream/writer/writer.go:112-136`. -/
def wdsBody16 (e : Endian) (inn : U32s) (stream : Bytes) (s : WSt) : Prog WSt := do
  let nums ← inn.range s.encoded (s.encoded + jump)
  let data ← stream.from s.dataPos
  let ctrls ← stream.range s.ctrlPos (s.ctrlPos + jumpCtrl)
  let ctrl ← put4uint32DeltaScalar e nums data s.prev
  setB ctrls 0 ctrl
  let sizeA ← controlByteToSize ctrl
  let ctrl ← put4uint32DeltaScalar e (← nums.from 4) (← data.from sizeA) (← getW e nums 3)
  setB ctrls 1 ctrl
  let sizeB ← controlByteToSize ctrl
  let ctrl ← put4uint32DeltaScalar e (← nums.from 8) (← data.from (sizeA + sizeB)) (← getW e nums 7)
  setB ctrls 2 ctrl
  let sizeC ← controlByteToSize ctrl
  let ctrl ← put4uint32DeltaScalar e (← nums.from 12) (← data.from (sizeA + sizeB + sizeC))
    (← getW e nums 11)
  setB ctrls 3 ctrl
  let sizeD ← controlByteToSize ctrl
  let prev ← getW e nums 15
  return {
    encoded := s.encoded + jump
    dataPos := s.dataPos + (sizeA + sizeB + sizeC + sizeD)
    ctrlPos := s.ctrlPos + jumpCtrl
    prev := prev }

/-- Body of the second loop of `WriteAllDeltaScalar`, `/repo/pkg/stream/writer/writer.go:138-145`. -/
def wdsBody4 (e : Endian) (inn : U32s) (stream : Bytes) (s : WSt) : Prog WSt := do
  let ctrl ← put4uint32DeltaScalar e (← inn.from s.encoded) (← stream.from s.dataPos) s.prev
  setB stream s.ctrlPos ctrl
  let size ← controlByteToSize ctrl
  let prev ← getW e inn (s.encoded + 3)
  return { encoded := s.encoded + 4, dataPos := s.dataPos + size, ctrlPos := s.ctrlPos + 1,
           prev := prev }

/-- `WriteAllDeltaScalar`, `/repo/pkg/stream/writer/writer.go:99-157`. -/
def writeAllDeltaScalar (e : Endian) (fresh : Block) (inn : U32s) (prev : U32) : Prog Bytes := do
  let count : Int := inn.len
  let ctrlLen := goDiv (int64 (count + 3)) 4
  let stream ← makeBytes fresh (int64 (ctrlLen + int64 (maxBytesPerNum * count)))
  let lowestJump := andNot count (jump - 1)
  let lowest4 := andNot count 3
  let s ← loop inn.len (fun s => decide (s.encoded < lowestJump)) (wdsBody16 e inn stream)
    { encoded := 0, dataPos := ctrlLen, ctrlPos := 0, prev := prev }
  let s ← loop inn.len (fun s => decide (s.encoded < lowest4)) (wdsBody4 e inn stream) s
  if lowest4 ≠ count then
    let nums := count - lowest4
    let ctrl ← putUint32DeltaScalar e (← inn.from s.encoded) (← stream.from s.dataPos) nums s.prev
    let size ← controlByteToSize ctrl
    let size := size - (4 - nums)
    let dataPos := s.dataPos + size
    setB stream s.ctrlPos ctrl
    stream.range 0 dataPos
  else
    stream.range 0 s.dataPos

/-- Body of the first loop of `ReadAllScalar`, `/repo/pkg/stream/reader/reader.go:61-84`. -/
def rsBody16 (e : Endian) (stream : Bytes) (out : U32s) (s : RSt) : Prog RSt := do
  let data ← stream.from s.dataPos
  let ctrls ← stream.range s.ctrlPos (s.ctrlPos + jumpCtrl)
  let nums ← out.range s.decoded (s.decoded + jump)
  let ctrl ← getB ctrls 0
  get4uint32Scalar e data nums ctrl
  let sizeA ← controlByteToSize ctrl
  let ctrl ← getB ctrls 1
  get4uint32Scalar e (← data.from sizeA) (← nums.from 4) ctrl
  let sizeB ← controlByteToSize ctrl
  let ctrl ← getB ctrls 2
  get4uint32Scalar e (← data.from (sizeA + sizeB)) (← nums.from 8) ctrl
  let sizeC ← controlByteToSize ctrl
  let ctrl ← getB ctrls 3
  get4uint32Scalar e (← data.from (sizeA + sizeB + sizeC)) (← nums.from 12) ctrl
  let sizeD ← controlByteToSize ctrl
  return { s with
    dataPos := s.dataPos + (sizeA + sizeB + sizeC + sizeD)
    ctrlPos := s.ctrlPos + jumpCtrl
    decoded := s.decoded + jump }

/-- Body of the second loop of `ReadAllScalar`, `/repo/pkg/stream/reader/reader.go:86-92`. -/
def rsBody4 (e : Endian) (stream : Bytes) (out : U32s) (s : RSt) : Prog RSt := do
  let ctrl ← getB stream s.ctrlPos
  get4uint32Scalar e (← stream.from s.dataPos) (← out.from s.decoded) ctrl
  let size ← controlByteToSize ctrl
  return { s with dataPos := s.dataPos + size, ctrlPos := s.ctrlPos + 1, decoded := s.decoded + 4 }

/-- `ReadAllScalar`, `/repo/pkg/stream/reader/reader.go:50-97`. -/
def readAllScalar (e : Endian) (count : Int) (stream : Bytes) (out : U32s) : Prog Unit := do
  let ctrlLen := goDiv (int64 (count + 3)) 4
  let lowestJump := andNot count (jump - 1)
  let lowest4 := andNot count 3
  let s ← loop (count.toNat + 1) (fun s => decide (s.decoded < lowestJump)) (rsBody16 e stream out)
    { decoded := 0, dataPos := ctrlLen, ctrlPos := 0, prev := 0 }
  let s ← loop (count.toNat + 1) (fun s => decide (s.decoded < lowest4)) (rsBody4 e stream out) s
  if lowest4 ≠ count then
    let _ ← getUint32Scalar e (← stream.from s.dataPos) (← out.from s.decoded)
      (← getB stream s.ctrlPos) (int64 (count - lowest4))
    return ()
  else return ()

/-- Body of the first loop of `ReadAllDeltaScalar`, `/repo/pkg/stream/reader/reader.go:117-141`. -/
def rdsBody16 (e : Endian) (stream : Bytes) (out : U32s) (s : RSt) : Prog RSt := do
  let data ← stream.from s.dataPos
  let ctrls ← stream.range s.ctrlPos (s.ctrlPos + jumpCtrl)
  let nums ← out.range s.decoded (s.decoded + jump)
  let ctrl ← getB ctrls 0
  get4uint32DeltaScalar e data nums ctrl s.prev
  let sizeA ← controlByteToSize ctrl
  let ctrl ← getB ctrls 1
  get4uint32DeltaScalar e (← data.from sizeA) (← nums.from 4) ctrl (← getW e nums 3)
  let sizeB ← controlByteToSize ctrl
  let ctrl ← getB ctrls 2
  get4uint32DeltaScalar e (← data.from (sizeA + sizeB)) (← nums.from 8) ctrl (← getW e nums 7)
  let sizeC ← controlByteToSize ctrl
  let ctrl ← getB ctrls 3
  get4uint32DeltaScalar e (← data.from (sizeA + sizeB + sizeC)) (← nums.from 12) ctrl (← getW e nums 11)
  let sizeD ← controlByteToSize ctrl
  let prev ← getW e nums 15
  return {
    dataPos := s.dataPos + (sizeA + sizeB + sizeC + sizeD)
    ctrlPos := s.ctrlPos + jumpCtrl
    decoded := s.decoded + jump
    prev := prev }

/-- Body of the second loop of `ReadAllDeltaScalar`, `/repo/pkg/stream/reader/reader.go:143-150`. -/
def rdsBody4 (e : Endian) (stream : Bytes) (out : U32s) (s : RSt) : Prog RSt := do
  let ctrl ← getB stream s.ctrlPos
  get4uint32DeltaScalar e (← stream.from s.dataPos) (← out.from s.decoded) ctrl s.prev
  let size ← controlByteToSize ctrl
  let prev ← getW e out (s.decoded + 3)
  return { dataPos := s.dataPos + size, ctrlPos := s.ctrlPos + 1, decoded := s.decoded + 4,
           prev := prev }

/-- `ReadAllDeltaScalar`, `/repo/pkg/stream/reader/reader.go:106-155`. -/
def readAllDeltaScalar (e : Endian) (count : Int) (stream : Bytes) (out : U32s) (prev : U32) : Prog Unit := do
  let ctrlLen := goDiv (int64 (count + 3)) 4
  let lowestJump := andNot count (jump - 1)
  let lowest4 := andNot count 3
  let s ← loop (count.toNat + 1) (fun s => decide (s.decoded < lowestJump)) (rdsBody16 e stream out)
    { decoded := 0, dataPos := ctrlLen, ctrlPos := 0, prev := prev }
  let s ← loop (count.toNat + 1) (fun s => decide (s.decoded < lowest4)) (rdsBody4 e stream out) s
  if lowest4 ≠ count then
    let _ ← getUint32DeltaScalar e (← stream.from s.dataPos) (← out.from s.decoded)
      (← getB stream s.ctrlPos) (int64 (count - lowest4)) s.prev
    return ()
  else return ()

/-- `PutVarint`, `/repo/pkg/util/varint.go:5-13`.  State: `i`, `pos`. -/
def putVarint (e : Endian) (nums : U32s) (out : Bytes) : Prog Int := do
  let s ← loop nums.len (fun s : Int × Int => decide (s.1 < nums.len))
    (fun s => do
      let o ← out.from s.2
      let v ← getW e nums s.1
      let size ← putUvarint o (v.setWidth 64)
      return (s.1 + 1, int64 (s.2 + size))) (0, 0)
  return s.2

/-- `GetVarint`, `/repo/pkg/util/varint.go:15-25`.  State: `pos`, `i`.  The loop has no bound of its own; the
bound `len(out) + 1` on the number of iterations is one of the theorems. -/
def getVarint (e : Endian) (data : Bytes) (out : U32s) : Prog Int := do
  let s ← loop (out.len + 1) (fun s : Int × Int => decide (s.1 < data.len))
    (fun s => do
      let d ← data.from s.1
      let r ← uvarint d
      setW e out s.2 (r.1.setWidth 32)
      return (int64 (s.1 + r.2), s.2 + 1)) (0, 0)
  return s.1

/-- `PutDeltaVarint`, `/repo/pkg/util/varint.go:27-36`.  State: `i`, `pos`, `prev`. -/
def putDeltaVarint (e : Endian) (nums : U32s) (out : Bytes) (prev : U32) : Prog Int := do
  let s ← loop nums.len (fun s : Int × Int × U32 => decide (s.1 < nums.len))
    (fun s => do
      let o ← out.from s.2.1
      let v ← getW e nums s.1
      let size ← putUvarint o ((v - s.2.2).setWidth 64)
      let prev' ← getW e nums s.1
      return (s.1 + 1, int64 (s.2.1 + size), prev')) (0, 0, prev)
  return s.2.1

/-- `GetDeltaVarint`, `/repo/pkg/util/varint.go:38-51`.  State: `pos`, `i`, `prev`. -/
def getDeltaVarint (e : Endian) (data : Bytes) (out : U32s) (prev : U32) : Prog Int := do
  let s ← loop (out.len + 1) (fun s : Int × Int × U32 => decide (s.1 < data.len))
    (fun s => do
      let d ← data.from s.1
      let r ← uvarint d
      let res := r.1.setWidth 32 + s.2.2
      setW e out s.2.1 res
      return (int64 (s.1 + r.2), s.2.1 + 1, res)) (0, 0, prev)
  return s.1

/-- `Delta`, `/repo/pkg/util/util.go:27-35`. -/
def utilDelta (e : Endian) (inn out : U32s) : Prog Unit := do
  let _ ← loop inn.len (fun i : Int => decide (i < inn.len))
    (fun i => do
      if i > 0 then
        let a ← getW e inn i
        let b ← getW e inn (i - 1)
        setW e out i (a - b)
      else
        let a ← getW e inn i
        setW e out i a
      return i + 1) 0
  return

end En

end SVB
