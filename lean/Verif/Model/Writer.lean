import Verif.Model.Encode
import Verif.Model.Asm

/-!
# Model of `/repo/pkg/stream/writer/writer.go` and `writer_amd64.go`

`fresh` is the block the run-time allocates for `make([]byte, …)`.
Loop variables live in `WSt`; the loop bounds (fuel) exceed the number of iterations, which the theorems
establish by excluding the panic `.fuel`.
-/

namespace SVB
open Asm

/-- Loop variables of the four writers (`prev` is only used by the delta writers). -/
structure WSt where
  encoded : Int
  dataPos : Int
  ctrlPos : Int
  prev : U32

/-- `jump`, `jumpCtrl`: `/repo/pkg/stream/writer/writer.go:9-10`, `/repo/pkg/stream/reader/reader.go:9-10`. -/
def jump : Int := 16
def jumpCtrl : Int := goDiv jump 4

/-- Body of the first loop of `WriteAllScalar`, `/repo/pkg/stream/writer/writer.go:52-75`. -/
def wsBody16 (inn : U32s) (stream : Bytes) (s : WSt) : Prog WSt := do
  let nums ← inn.range s.encoded (s.encoded + jump)
  let data ← stream.from s.dataPos
  let ctrls ← stream.range s.ctrlPos (s.ctrlPos + jumpCtrl)
  let ctrl ← put4uint32Scalar nums data
  setB ctrls 0 ctrl
  let sizeA ← controlByteToSize ctrl
  let ctrl ← put4uint32Scalar (← nums.from 4) (← data.from sizeA)
  setB ctrls 1 ctrl
  let sizeB ← controlByteToSize ctrl
  let ctrl ← put4uint32Scalar (← nums.from 8) (← data.from (sizeA + sizeB))
  setB ctrls 2 ctrl
  let sizeC ← controlByteToSize ctrl
  let ctrl ← put4uint32Scalar (← nums.from 12) (← data.from (sizeA + sizeB + sizeC))
  setB ctrls 3 ctrl
  let sizeD ← controlByteToSize ctrl
  return { s with
    encoded := s.encoded + jump
    dataPos := s.dataPos + (sizeA + sizeB + sizeC + sizeD)
    ctrlPos := s.ctrlPos + jumpCtrl }

/-- Body of the second loop of `WriteAllScalar`, `/repo/pkg/stream/writer/writer.go:77-83`. -/
def wsBody4 (inn : U32s) (stream : Bytes) (s : WSt) : Prog WSt := do
  let ctrl ← put4uint32Scalar (← inn.from s.encoded) (← stream.from s.dataPos)
  setB stream s.ctrlPos ctrl
  let size ← controlByteToSize ctrl
  return { s with encoded := s.encoded + 4, dataPos := s.dataPos + size, ctrlPos := s.ctrlPos + 1 }

/-- `WriteAllScalar`, `/repo/pkg/stream/writer/writer.go:39-95`. -/
def writeAllScalar (fresh : Block) (inn : U32s) : Prog Bytes := do
  let count : Int := inn.len
  let ctrlLen := goDiv (int64 (count + 3)) 4
  let stream ← makeBytes fresh (int64 (ctrlLen + int64 (maxBytesPerNum * count)))
  let lowestJump := andNot count (jump - 1)
  let lowest4 := andNot count 3
  let s ← loop inn.len (fun s => decide (s.encoded < lowestJump)) (wsBody16 inn stream)
    { encoded := 0, dataPos := ctrlLen, ctrlPos := 0, prev := 0 }
  let s ← loop inn.len (fun s => decide (s.encoded < lowest4)) (wsBody4 inn stream) s
  if lowest4 ≠ count then
    let nums := count - lowest4
    let ctrl ← putUint32Scalar (← inn.from s.encoded) (← stream.from s.dataPos) nums
    let size ← controlByteToSize ctrl
    let size := size - (4 - nums)
    let dataPos := s.dataPos + size
    setB stream s.ctrlPos ctrl
    stream.range 0 dataPos
  else
    stream.range 0 s.dataPos

/-- Body of the first loop of `WriteAllDeltaScalar`, `/repo/pkg/stream/writer/writer.go:112-136`. -/
def wdsBody16 (inn : U32s) (stream : Bytes) (s : WSt) : Prog WSt := do
  let nums ← inn.range s.encoded (s.encoded + jump)
  let data ← stream.from s.dataPos
  let ctrls ← stream.range s.ctrlPos (s.ctrlPos + jumpCtrl)
  let ctrl ← put4uint32DeltaScalar nums data s.prev
  setB ctrls 0 ctrl
  let sizeA ← controlByteToSize ctrl
  let ctrl ← put4uint32DeltaScalar (← nums.from 4) (← data.from sizeA) (← getW nums 3)
  setB ctrls 1 ctrl
  let sizeB ← controlByteToSize ctrl
  let ctrl ← put4uint32DeltaScalar (← nums.from 8) (← data.from (sizeA + sizeB)) (← getW nums 7)
  setB ctrls 2 ctrl
  let sizeC ← controlByteToSize ctrl
  let ctrl ← put4uint32DeltaScalar (← nums.from 12) (← data.from (sizeA + sizeB + sizeC))
    (← getW nums 11)
  setB ctrls 3 ctrl
  let sizeD ← controlByteToSize ctrl
  let prev ← getW nums 15
  return {
    encoded := s.encoded + jump
    dataPos := s.dataPos + (sizeA + sizeB + sizeC + sizeD)
    ctrlPos := s.ctrlPos + jumpCtrl
    prev := prev }

/-- Body of the second loop of `WriteAllDeltaScalar`, `/repo/pkg/stream/writer/writer.go:138-145`. -/
def wdsBody4 (inn : U32s) (stream : Bytes) (s : WSt) : Prog WSt := do
  let ctrl ← put4uint32DeltaScalar (← inn.from s.encoded) (← stream.from s.dataPos) s.prev
  setB stream s.ctrlPos ctrl
  let size ← controlByteToSize ctrl
  let prev ← getW inn (s.encoded + 3)
  return { encoded := s.encoded + 4, dataPos := s.dataPos + size, ctrlPos := s.ctrlPos + 1,
           prev := prev }

/-- `WriteAllDeltaScalar`, `/repo/pkg/stream/writer/writer.go:99-157`. -/
def writeAllDeltaScalar (fresh : Block) (inn : U32s) (prev : U32) : Prog Bytes := do
  let count : Int := inn.len
  let ctrlLen := goDiv (int64 (count + 3)) 4
  let stream ← makeBytes fresh (int64 (ctrlLen + int64 (maxBytesPerNum * count)))
  let lowestJump := andNot count (jump - 1)
  let lowest4 := andNot count 3
  let s ← loop inn.len (fun s => decide (s.encoded < lowestJump)) (wdsBody16 inn stream)
    { encoded := 0, dataPos := ctrlLen, ctrlPos := 0, prev := prev }
  let s ← loop inn.len (fun s => decide (s.encoded < lowest4)) (wdsBody4 inn stream) s
  if lowest4 ≠ count then
    let nums := count - lowest4
    let ctrl ← putUint32DeltaScalar (← inn.from s.encoded) (← stream.from s.dataPos) nums s.prev
    let size ← controlByteToSize ctrl
    let size := size - (4 - nums)
    let dataPos := s.dataPos + size
    setB stream s.ctrlPos ctrl
    stream.range 0 dataPos
  else
    stream.range 0 s.dataPos

/-- `uint8(ctrl & 0xff)` -/
def lo8 (c : U16) : Byte := (c &&& 0xff#16).setWidth 8
/-- `uint8(ctrl >> 8)` -/
def hi8 (c : U16) : Byte := (c >>> 8).setWidth 8

/-- `((ctrlLen - 3) * 4) &^ 31`: `/repo/pkg/stream/writer/writer_amd64.go:22` and `:120`,
`/repo/pkg/stream/reader/reader_amd64.go:37` and `:147`. -/
def lowest32Of (ctrlLen : Int) : Int := andNot (int64 (int64 (ctrlLen - 3) * 4)) 31

/-- Body of the first loop of `WriteAllFast`, `/repo/pkg/stream/writer/writer_amd64.go:25-76`. -/
def wfBody32 (inn : U32s) (stream : Bytes) (s : WSt) : Prog WSt := do
  let ctrls ← stream.range s.ctrlPos (s.ctrlPos + 8)
  let nums ← inn.range s.encoded (s.encoded + 32)
  let out ← stream.from s.dataPos
  let ctrl ← put8uint32FastAsm (← nums.range 0 8) out encShufPtr ctrlLenPtr
  setB ctrls 0 (lo8 ctrl)
  setB ctrls 1 (hi8 ctrl)
  let sizeA ← controlByteToSizeTwo ctrl
  let ctrl ← put8uint32FastAsm (← nums.range 8 16) (← out.from sizeA) encShufPtr ctrlLenPtr
  setB ctrls 2 (lo8 ctrl)
  setB ctrls 3 (hi8 ctrl)
  let sizeB ← controlByteToSizeTwo ctrl
  let ctrl ← put8uint32FastAsm (← nums.range 16 24) (← out.from (sizeA + sizeB)) encShufPtr ctrlLenPtr
  setB ctrls 4 (lo8 ctrl)
  setB ctrls 5 (hi8 ctrl)
  let sizeC ← controlByteToSizeTwo ctrl
  let ctrl ← put8uint32FastAsm (← nums.from 24) (← out.from (sizeA + sizeB + sizeC))
    encShufPtr ctrlLenPtr
  setB ctrls 6 (lo8 ctrl)
  setB ctrls 7 (hi8 ctrl)
  let sizeD ← controlByteToSizeTwo ctrl
  return { s with
    ctrlPos := s.ctrlPos + 8
    dataPos := s.dataPos + (sizeA + sizeB + sizeC + sizeD)
    encoded := s.encoded + 32 }

/-- Body of the second loop of `WriteAllFast`, `/repo/pkg/stream/writer/writer_amd64.go:78-90`. -/
def wfBody8 (inn : U32s) (stream : Bytes) (s : WSt) : Prog WSt := do
  let ctrl ← put8uint32FastAsm (← inn.from s.encoded) (← stream.from s.dataPos) encShufPtr ctrlLenPtr
  setB stream s.ctrlPos (lo8 ctrl)
  setB stream (s.ctrlPos + 1) (hi8 ctrl)
  let encoded := s.encoded + 8
  let size ← controlByteToSizeTwo ctrl
  return { s with encoded := encoded, dataPos := s.dataPos + size, ctrlPos := s.ctrlPos + 2 }

/-- Body of the third loop of `WriteAllFast`, `/repo/pkg/stream/writer/writer_amd64.go:92-103`. -/
def wfBody1 (count : Int) (inn : U32s) (stream : Bytes) (s : WSt) : Prog WSt := do
  let nums := count - s.encoded
  let nums := if nums > 4 then 4 else nums
  let ctrl ← putUint32Scalar (← inn.from s.encoded) (← stream.from s.dataPos) nums
  let size ← controlByteToSize ctrl
  setB stream s.ctrlPos ctrl
  let size := size - (4 - nums)
  return { s with
    dataPos := s.dataPos + size, encoded := s.encoded + nums, ctrlPos := s.ctrlPos + 1 }

/-- `WriteAllFast`, `/repo/pkg/stream/writer/writer_amd64.go:13-106`. -/
def writeAllFast (fresh : Block) (inn : U32s) : Prog Bytes := do
  let count : Int := inn.len
  let ctrlLen := goDiv (int64 (count + 3)) 4
  let stream ← makeBytes fresh (int64 (ctrlLen + int64 (maxBytesPerNum * count)))
  let lowest32 := lowest32Of ctrlLen
  let s ← loop inn.len (fun s => decide (s.encoded < lowest32)) (wfBody32 inn stream)
    { encoded := 0, dataPos := ctrlLen, ctrlPos := 0, prev := 0 }
  let s ← loop inn.len (fun s => decide (s.ctrlPos < ctrlLen - 2)) (wfBody8 inn stream) s
  let s ← loop inn.len (fun s => decide (s.ctrlPos < ctrlLen)) (wfBody1 count inn stream) s
  stream.range 0 s.dataPos

/-- Body of the first loop of `WriteAllDeltaFast`, `/repo/pkg/stream/writer/writer_amd64.go:123-179`. -/
def wdfBody32 (inn : U32s) (stream : Bytes) (s : WSt) : Prog WSt := do
  let ctrls ← stream.range s.ctrlPos (s.ctrlPos + 8)
  let nums ← inn.range s.encoded (s.encoded + 32)
  let out ← stream.from s.dataPos
  let ctrl ← put8uint32DeltaFastAsm (← nums.range 0 8) out s.prev encShufPtr ctrlLenPtr
  setB ctrls 0 (lo8 ctrl)
  setB ctrls 1 (hi8 ctrl)
  let sizeA ← controlByteToSizeTwo ctrl
  let ctrl ← put8uint32DeltaFastAsm (← nums.range 8 16) (← out.from sizeA) (← getW nums 7)
    encShufPtr ctrlLenPtr
  setB ctrls 2 (lo8 ctrl)
  setB ctrls 3 (hi8 ctrl)
  let sizeB ← controlByteToSizeTwo ctrl
  let ctrl ← put8uint32DeltaFastAsm (← nums.range 16 24) (← out.from (sizeA + sizeB))
    (← getW nums 15) encShufPtr ctrlLenPtr
  setB ctrls 4 (lo8 ctrl)
  setB ctrls 5 (hi8 ctrl)
  let sizeC ← controlByteToSizeTwo ctrl
  let ctrl ← put8uint32DeltaFastAsm (← nums.from 24) (← out.from (sizeA + sizeB + sizeC))
    (← getW nums 23) encShufPtr ctrlLenPtr
  setB ctrls 6 (lo8 ctrl)
  setB ctrls 7 (hi8 ctrl)
  let sizeD ← controlByteToSizeTwo ctrl
  let prev ← getW nums 31
  return {
    ctrlPos := s.ctrlPos + 8
    dataPos := s.dataPos + (sizeA + sizeB + sizeC + sizeD)
    encoded := s.encoded + 32
    prev := prev }

/-- Body of the second loop of `WriteAllDeltaFast`, `/repo/pkg/stream/writer/writer_amd64.go:181-195`. -/
def wdfBody8 (inn : U32s) (stream : Bytes) (s : WSt) : Prog WSt := do
  let ctrl ← put8uint32DeltaFastAsm (← inn.from s.encoded) (← stream.from s.dataPos) s.prev
    encShufPtr ctrlLenPtr
  setB stream s.ctrlPos (lo8 ctrl)
  setB stream (s.ctrlPos + 1) (hi8 ctrl)
  let encoded := s.encoded + 8
  let size ← controlByteToSizeTwo ctrl
  let prev ← getW inn (encoded - 1)
  return { encoded := encoded, dataPos := s.dataPos + size, ctrlPos := s.ctrlPos + 2, prev := prev }

/-- Body of the third loop of `WriteAllDeltaFast`, `/repo/pkg/stream/writer/writer_amd64.go:197-209`. -/
def wdfBody1 (count : Int) (inn : U32s) (stream : Bytes) (s : WSt) : Prog WSt := do
  let nums := count - s.encoded
  let nums := if nums > 4 then 4 else nums
  let ctrl ← putUint32DeltaScalar (← inn.from s.encoded) (← stream.from s.dataPos) nums s.prev
  let size ← controlByteToSize ctrl
  setB stream s.ctrlPos ctrl
  let size := size - (4 - nums)
  let dataPos := s.dataPos + size
  let encoded := s.encoded + nums
  let prev ← getW inn (encoded - 1)
  return { dataPos := dataPos, encoded := encoded, ctrlPos := s.ctrlPos + 1, prev := prev }

/-- `WriteAllDeltaFast`, `/repo/pkg/stream/writer/writer_amd64.go:111-212`. -/
def writeAllDeltaFast (fresh : Block) (inn : U32s) (prev : U32) : Prog Bytes := do
  let count : Int := inn.len
  let ctrlLen := goDiv (int64 (count + 3)) 4
  let stream ← makeBytes fresh (int64 (ctrlLen + int64 (maxBytesPerNum * count)))
  let lowest32 := lowest32Of ctrlLen
  let s ← loop inn.len (fun s => decide (s.encoded < lowest32)) (wdfBody32 inn stream)
    { encoded := 0, dataPos := ctrlLen, ctrlPos := 0, prev := prev }
  let s ← loop inn.len (fun s => decide (s.ctrlPos < ctrlLen - 2)) (wdfBody8 inn stream) s
  let s ← loop inn.len (fun s => decide (s.ctrlPos < ctrlLen)) (wdfBody1 count inn stream) s
  stream.range 0 s.dataPos

end SVB
