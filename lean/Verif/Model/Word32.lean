import Verif.Model.Reader

/-!
# The stream functions where `int` has 32 bits

On `GOARCH=386`, `arm`, `mips` and the like the Go type `int` has 32 bits.  These platforms build the same
`/repo/pkg/stream/writer/writer.go` and `/repo/pkg/stream/reader/reader.go`, beside `writer_base.go` and
`reader_base.go`, and have no assembly.  Here the four scalar functions are transcribed a second time, with every addition,
subtraction and multiplication of `int`s wrapped to 32 bits.  The calls of `Put4uint32Scalar`, `Get4uint32Scalar` and so
on are those of `Model/Encode.lean` and `Model/Decode.lean`: no `int` in them exceeds 255.
-/

set_option autoImplicit false

namespace SVB.Word32

/-- The `int` value of an integer computation: wrap-around to 32-bit two's complement. -/
def int32 (x : Int) : Int := (BitVec.ofInt 32 x).toInt

/-- Go's `x &^ y` on 32-bit `int`. -/
def andNot32 (x y : Int) : Int := (BitVec.ofInt 32 x &&& ~~~ BitVec.ofInt 32 y).toInt

/-! ## `/repo/pkg/stream/writer/writer.go` -/

/-- Body of the first loop of `WriteAllScalar`, `/repo/pkg/stream/writer/writer.go:52-75`. -/
def wsBody16 (inn : U32s) (stream : Bytes) (s : WSt) : Prog WSt := do
  let nums ← inn.range s.encoded (int32 (s.encoded + jump))
  let data ← stream.from s.dataPos
  let ctrls ← stream.range s.ctrlPos (int32 (s.ctrlPos + jumpCtrl))
  let ctrl ← put4uint32Scalar nums data
  setB ctrls 0 ctrl
  let sizeA ← controlByteToSize ctrl
  let ctrl ← put4uint32Scalar (← nums.from 4) (← data.from sizeA)
  setB ctrls 1 ctrl
  let sizeB ← controlByteToSize ctrl
  let ctrl ← put4uint32Scalar (← nums.from 8) (← data.from (int32 (sizeA + sizeB)))
  setB ctrls 2 ctrl
  let sizeC ← controlByteToSize ctrl
  let ctrl ← put4uint32Scalar (← nums.from 12) (← data.from (int32 (int32 (sizeA + sizeB) + sizeC)))
  setB ctrls 3 ctrl
  let sizeD ← controlByteToSize ctrl
  return { s with
    encoded := int32 (s.encoded + jump)
    dataPos := int32 (s.dataPos + int32 (int32 (int32 (sizeA + sizeB) + sizeC) + sizeD))
    ctrlPos := int32 (s.ctrlPos + jumpCtrl) }

/-- Body of the second loop of `WriteAllScalar`, `/repo/pkg/stream/writer/writer.go:77-83`. -/
def wsBody4 (inn : U32s) (stream : Bytes) (s : WSt) : Prog WSt := do
  let ctrl ← put4uint32Scalar (← inn.from s.encoded) (← stream.from s.dataPos)
  setB stream s.ctrlPos ctrl
  let size ← controlByteToSize ctrl
  return { s with
    encoded := int32 (s.encoded + 4), dataPos := int32 (s.dataPos + size), ctrlPos := int32 (s.ctrlPos + 1) }

/-- `WriteAllScalar`, `/repo/pkg/stream/writer/writer.go:39-95`. -/
def writeAllScalar (fresh : Block) (inn : U32s) : Prog Bytes := do
  let count : Int := inn.len
  let ctrlLen := goDiv (int32 (count + 3)) 4
  let stream ← makeBytes fresh (int32 (ctrlLen + int32 (maxBytesPerNum * count)))
  let lowestJump := andNot32 count (jump - 1)
  let lowest4 := andNot32 count 3
  let s ← loop inn.len (fun s => decide (s.encoded < lowestJump)) (wsBody16 inn stream)
    { encoded := 0, dataPos := ctrlLen, ctrlPos := 0, prev := 0 }
  let s ← loop inn.len (fun s => decide (s.encoded < lowest4)) (wsBody4 inn stream) s
  if lowest4 ≠ count then
    let nums := int32 (count - lowest4)
    let ctrl ← putUint32Scalar (← inn.from s.encoded) (← stream.from s.dataPos) nums
    let size ← controlByteToSize ctrl
    let size := int32 (size - int32 (4 - nums))
    let dataPos := int32 (s.dataPos + size)
    setB stream s.ctrlPos ctrl
    stream.range 0 dataPos
  else
    stream.range 0 s.dataPos

/-- Body of the first loop of `WriteAllDeltaScalar`, `/repo/pkg/stream/writer/writer.go:112-136`. -/
def wdsBody16 (inn : U32s) (stream : Bytes) (s : WSt) : Prog WSt := do
  let nums ← inn.range s.encoded (int32 (s.encoded + jump))
  let data ← stream.from s.dataPos
  let ctrls ← stream.range s.ctrlPos (int32 (s.ctrlPos + jumpCtrl))
  let ctrl ← put4uint32DeltaScalar nums data s.prev
  setB ctrls 0 ctrl
  let sizeA ← controlByteToSize ctrl
  let ctrl ← put4uint32DeltaScalar (← nums.from 4) (← data.from sizeA) (← getW nums 3)
  setB ctrls 1 ctrl
  let sizeB ← controlByteToSize ctrl
  let ctrl ← put4uint32DeltaScalar (← nums.from 8) (← data.from (int32 (sizeA + sizeB))) (← getW nums 7)
  setB ctrls 2 ctrl
  let sizeC ← controlByteToSize ctrl
  let ctrl ← put4uint32DeltaScalar (← nums.from 12) (← data.from (int32 (int32 (sizeA + sizeB) + sizeC)))
    (← getW nums 11)
  setB ctrls 3 ctrl
  let sizeD ← controlByteToSize ctrl
  let prev ← getW nums 15
  return {
    encoded := int32 (s.encoded + jump)
    dataPos := int32 (s.dataPos + int32 (int32 (int32 (sizeA + sizeB) + sizeC) + sizeD))
    ctrlPos := int32 (s.ctrlPos + jumpCtrl)
    prev := prev }

/-- Body of the second loop of `WriteAllDeltaScalar`, `/repo/pkg/stream/writer/writer.go:138-145`. -/
def wdsBody4 (inn : U32s) (stream : Bytes) (s : WSt) : Prog WSt := do
  let ctrl ← put4uint32DeltaScalar (← inn.from s.encoded) (← stream.from s.dataPos) s.prev
  setB stream s.ctrlPos ctrl
  let size ← controlByteToSize ctrl
  let prev ← getW inn (int32 (s.encoded + 3))
  return {
    encoded := int32 (s.encoded + 4), dataPos := int32 (s.dataPos + size), ctrlPos := int32 (s.ctrlPos + 1), prev := prev }

/-- `WriteAllDeltaScalar`, `/repo/pkg/stream/writer/writer.go:99-157`. -/
def writeAllDeltaScalar (fresh : Block) (inn : U32s) (prev : U32) : Prog Bytes := do
  let count : Int := inn.len
  let ctrlLen := goDiv (int32 (count + 3)) 4
  let stream ← makeBytes fresh (int32 (ctrlLen + int32 (maxBytesPerNum * count)))
  let lowestJump := andNot32 count (jump - 1)
  let lowest4 := andNot32 count 3
  let s ← loop inn.len (fun s => decide (s.encoded < lowestJump)) (wdsBody16 inn stream)
    { encoded := 0, dataPos := ctrlLen, ctrlPos := 0, prev := prev }
  let s ← loop inn.len (fun s => decide (s.encoded < lowest4)) (wdsBody4 inn stream) s
  if lowest4 ≠ count then
    let nums := int32 (count - lowest4)
    let ctrl ← putUint32DeltaScalar (← inn.from s.encoded) (← stream.from s.dataPos) nums s.prev
    let size ← controlByteToSize ctrl
    let size := int32 (size - int32 (4 - nums))
    let dataPos := int32 (s.dataPos + size)
    setB stream s.ctrlPos ctrl
    stream.range 0 dataPos
  else
    stream.range 0 s.dataPos

/-! ## `/repo/pkg/stream/reader/reader.go` -/

/-- Body of the first loop of `ReadAllScalar`, `/repo/pkg/stream/reader/reader.go:61-84`. -/
def rsBody16 (stream : Bytes) (out : U32s) (s : RSt) : Prog RSt := do
  let data ← stream.from s.dataPos
  let ctrls ← stream.range s.ctrlPos (int32 (s.ctrlPos + jumpCtrl))
  let nums ← out.range s.decoded (int32 (s.decoded + jump))
  let ctrl ← getB ctrls 0
  get4uint32Scalar data nums ctrl
  let sizeA ← controlByteToSize ctrl
  let ctrl ← getB ctrls 1
  get4uint32Scalar (← data.from sizeA) (← nums.from 4) ctrl
  let sizeB ← controlByteToSize ctrl
  let ctrl ← getB ctrls 2
  get4uint32Scalar (← data.from (int32 (sizeA + sizeB))) (← nums.from 8) ctrl
  let sizeC ← controlByteToSize ctrl
  let ctrl ← getB ctrls 3
  get4uint32Scalar (← data.from (int32 (int32 (sizeA + sizeB) + sizeC))) (← nums.from 12) ctrl
  let sizeD ← controlByteToSize ctrl
  return { s with
    dataPos := int32 (s.dataPos + int32 (int32 (int32 (sizeA + sizeB) + sizeC) + sizeD))
    ctrlPos := int32 (s.ctrlPos + jumpCtrl)
    decoded := int32 (s.decoded + jump) }

/-- Body of the second loop of `ReadAllScalar`, `/repo/pkg/stream/reader/reader.go:86-92`. -/
def rsBody4 (stream : Bytes) (out : U32s) (s : RSt) : Prog RSt := do
  let ctrl ← getB stream s.ctrlPos
  get4uint32Scalar (← stream.from s.dataPos) (← out.from s.decoded) ctrl
  let size ← controlByteToSize ctrl
  return { s with
    dataPos := int32 (s.dataPos + size), ctrlPos := int32 (s.ctrlPos + 1), decoded := int32 (s.decoded + 4) }

/-- `ReadAllScalar`, `/repo/pkg/stream/reader/reader.go:50-97`. -/
def readAllScalar (count : Int) (stream : Bytes) (out : U32s) : Prog Unit := do
  let ctrlLen := goDiv (int32 (count + 3)) 4
  let lowestJump := andNot32 count (jump - 1)
  let lowest4 := andNot32 count 3
  let s ← loop (count.toNat + 1) (fun s => decide (s.decoded < lowestJump)) (rsBody16 stream out)
    { decoded := 0, dataPos := ctrlLen, ctrlPos := 0, prev := 0 }
  let s ← loop (count.toNat + 1) (fun s => decide (s.decoded < lowest4)) (rsBody4 stream out) s
  if lowest4 ≠ count then
    let _ ← getUint32Scalar (← stream.from s.dataPos) (← out.from s.decoded)
      (← getB stream s.ctrlPos) (int32 (count - lowest4))
    return ()
  else return ()

/-- Body of the first loop of `ReadAllDeltaScalar`, `/repo/pkg/stream/reader/reader.go:117-141`. -/
def rdsBody16 (stream : Bytes) (out : U32s) (s : RSt) : Prog RSt := do
  let data ← stream.from s.dataPos
  let ctrls ← stream.range s.ctrlPos (int32 (s.ctrlPos + jumpCtrl))
  let nums ← out.range s.decoded (int32 (s.decoded + jump))
  let ctrl ← getB ctrls 0
  get4uint32DeltaScalar data nums ctrl s.prev
  let sizeA ← controlByteToSize ctrl
  let ctrl ← getB ctrls 1
  get4uint32DeltaScalar (← data.from sizeA) (← nums.from 4) ctrl (← getW nums 3)
  let sizeB ← controlByteToSize ctrl
  let ctrl ← getB ctrls 2
  get4uint32DeltaScalar (← data.from (int32 (sizeA + sizeB))) (← nums.from 8) ctrl (← getW nums 7)
  let sizeC ← controlByteToSize ctrl
  let ctrl ← getB ctrls 3
  get4uint32DeltaScalar (← data.from (int32 (int32 (sizeA + sizeB) + sizeC))) (← nums.from 12) ctrl
    (← getW nums 11)
  let sizeD ← controlByteToSize ctrl
  let prev ← getW nums 15
  return {
    dataPos := int32 (s.dataPos + int32 (int32 (int32 (sizeA + sizeB) + sizeC) + sizeD))
    ctrlPos := int32 (s.ctrlPos + jumpCtrl)
    decoded := int32 (s.decoded + jump)
    prev := prev }

/-- Body of the second loop of `ReadAllDeltaScalar`, `/repo/pkg/stream/reader/reader.go:143-150`. -/
def rdsBody4 (stream : Bytes) (out : U32s) (s : RSt) : Prog RSt := do
  let ctrl ← getB stream s.ctrlPos
  get4uint32DeltaScalar (← stream.from s.dataPos) (← out.from s.decoded) ctrl s.prev
  let size ← controlByteToSize ctrl
  let prev ← getW out (int32 (s.decoded + 3))
  return {
    dataPos := int32 (s.dataPos + size), ctrlPos := int32 (s.ctrlPos + 1), decoded := int32 (s.decoded + 4), prev := prev }

/-- `ReadAllDeltaScalar`, `/repo/pkg/stream/reader/reader.go:106-155`. -/
def readAllDeltaScalar (count : Int) (stream : Bytes) (out : U32s) (prev : U32) : Prog Unit := do
  let ctrlLen := goDiv (int32 (count + 3)) 4
  let lowestJump := andNot32 count (jump - 1)
  let lowest4 := andNot32 count 3
  let s ← loop (count.toNat + 1) (fun s => decide (s.decoded < lowestJump)) (rdsBody16 stream out)
    { decoded := 0, dataPos := ctrlLen, ctrlPos := 0, prev := prev }
  let s ← loop (count.toNat + 1) (fun s => decide (s.decoded < lowest4)) (rdsBody4 stream out) s
  if lowest4 ≠ count then
    let _ ← getUint32DeltaScalar (← stream.from s.dataPos) (← out.from s.decoded)
      (← getB stream s.ctrlPos) (int32 (count - lowest4)) s.prev
    return ()
  else return ()

end SVB.Word32
