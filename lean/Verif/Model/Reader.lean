import Verif.Model.Decode
import Verif.Model.Writer

/-! # Model of `/repo/pkg/stream/reader/reader.go` and `reader_amd64.go`

`count` is any 64-bit `int`.  The header computations wrap at 64 bits.  Loop variables are plain
integers: they are bounded by slice lengths whenever the loop body does not panic. -/

namespace SVB
open Asm

/-- Loop variables of the four readers (`prev` is only used by the delta readers). -/
structure RSt where
  decoded : Int
  dataPos : Int
  ctrlPos : Int
  prev : U32

/-- Body of the first loop of `ReadAllScalar`, `/repo/pkg/stream/reader/reader.go:61-84`. -/
def rsBody16 (stream : Bytes) (out : U32s) (s : RSt) : Prog RSt := do
  let data ← stream.from s.dataPos
  let ctrls ← stream.range s.ctrlPos (s.ctrlPos + jumpCtrl)
  let nums ← out.range s.decoded (s.decoded + jump)
  let ctrl ← getB ctrls 0
  get4uint32Scalar data nums ctrl
  let sizeA ← controlByteToSize ctrl
  let ctrl ← getB ctrls 1
  get4uint32Scalar (← data.from sizeA) (← nums.from 4) ctrl
  let sizeB ← controlByteToSize ctrl
  let ctrl ← getB ctrls 2
  get4uint32Scalar (← data.from (sizeA + sizeB)) (← nums.from 8) ctrl
  let sizeC ← controlByteToSize ctrl
  let ctrl ← getB ctrls 3
  get4uint32Scalar (← data.from (sizeA + sizeB + sizeC)) (← nums.from 12) ctrl
  let sizeD ← controlByteToSize ctrl
  return { s with
    dataPos := s.dataPos + (sizeA + sizeB + sizeC + sizeD)
    ctrlPos := s.ctrlPos + jumpCtrl
    decoded := s.decoded + jump }

/-- Body of the second loop of `ReadAllScalar`, `/repo/pkg/stream/reader/reader.go:86-92`. -/
def rsBody4 (stream : Bytes) (out : U32s) (s : RSt) : Prog RSt := do
  let ctrl ← getB stream s.ctrlPos
  get4uint32Scalar (← stream.from s.dataPos) (← out.from s.decoded) ctrl
  let size ← controlByteToSize ctrl
  return { s with dataPos := s.dataPos + size, ctrlPos := s.ctrlPos + 1, decoded := s.decoded + 4 }

/-- `ReadAllScalar`, `/repo/pkg/stream/reader/reader.go:50-97`. -/
def readAllScalar (count : Int) (stream : Bytes) (out : U32s) : Prog Unit := do
  let ctrlLen := goDiv (int64 (count + 3)) 4
  let lowestJump := andNot count (jump - 1)
  let lowest4 := andNot count 3
  let s ← loop (count.toNat + 1) (fun s => decide (s.decoded < lowestJump)) (rsBody16 stream out)
    { decoded := 0, dataPos := ctrlLen, ctrlPos := 0, prev := 0 }
  let s ← loop (count.toNat + 1) (fun s => decide (s.decoded < lowest4)) (rsBody4 stream out) s
  if lowest4 ≠ count then
    let _ ← getUint32Scalar (← stream.from s.dataPos) (← out.from s.decoded)
      (← getB stream s.ctrlPos) (int64 (count - lowest4))
    return ()
  else return ()

/-- Body of the first loop of `ReadAllDeltaScalar`, `/repo/pkg/stream/reader/reader.go:117-141`. -/
def rdsBody16 (stream : Bytes) (out : U32s) (s : RSt) : Prog RSt := do
  let data ← stream.from s.dataPos
  let ctrls ← stream.range s.ctrlPos (s.ctrlPos + jumpCtrl)
  let nums ← out.range s.decoded (s.decoded + jump)
  let ctrl ← getB ctrls 0
  get4uint32DeltaScalar data nums ctrl s.prev
  let sizeA ← controlByteToSize ctrl
  let ctrl ← getB ctrls 1
  get4uint32DeltaScalar (← data.from sizeA) (← nums.from 4) ctrl (← getW nums 3)
  let sizeB ← controlByteToSize ctrl
  let ctrl ← getB ctrls 2
  get4uint32DeltaScalar (← data.from (sizeA + sizeB)) (← nums.from 8) ctrl (← getW nums 7)
  let sizeC ← controlByteToSize ctrl
  let ctrl ← getB ctrls 3
  get4uint32DeltaScalar (← data.from (sizeA + sizeB + sizeC)) (← nums.from 12) ctrl (← getW nums 11)
  let sizeD ← controlByteToSize ctrl
  let prev ← getW nums 15
  return {
    dataPos := s.dataPos + (sizeA + sizeB + sizeC + sizeD)
    ctrlPos := s.ctrlPos + jumpCtrl
    decoded := s.decoded + jump
    prev := prev }

/-- Body of the second loop of `ReadAllDeltaScalar`, `/repo/pkg/stream/reader/reader.go:143-150`. -/
def rdsBody4 (stream : Bytes) (out : U32s) (s : RSt) : Prog RSt := do
  let ctrl ← getB stream s.ctrlPos
  get4uint32DeltaScalar (← stream.from s.dataPos) (← out.from s.decoded) ctrl s.prev
  let size ← controlByteToSize ctrl
  let prev ← getW out (s.decoded + 3)
  return { dataPos := s.dataPos + size, ctrlPos := s.ctrlPos + 1, decoded := s.decoded + 4,
           prev := prev }

/-- `ReadAllDeltaScalar`, `/repo/pkg/stream/reader/reader.go:106-155`. -/
def readAllDeltaScalar (count : Int) (stream : Bytes) (out : U32s) (prev : U32) : Prog Unit := do
  let ctrlLen := goDiv (int64 (count + 3)) 4
  let lowestJump := andNot count (jump - 1)
  let lowest4 := andNot count 3
  let s ← loop (count.toNat + 1) (fun s => decide (s.decoded < lowestJump)) (rdsBody16 stream out)
    { decoded := 0, dataPos := ctrlLen, ctrlPos := 0, prev := prev }
  let s ← loop (count.toNat + 1) (fun s => decide (s.decoded < lowest4)) (rdsBody4 stream out) s
  if lowest4 ≠ count then
    let _ ← getUint32DeltaScalar (← stream.from s.dataPos) (← out.from s.decoded)
      (← getB stream s.ctrlPos) (int64 (count - lowest4)) s.prev
    return ()
  else return ()

/-- `uint16(a) | uint16(b)<<8` -/
def mk16 (a b : Byte) : U16 := a.setWidth 16 ||| b.setWidth 16 <<< 8

/-- Body of the first loop of `ReadAllFast`, `/repo/pkg/stream/reader/reader_amd64.go:40-87`. -/
def rfBody32 (stream : Bytes) (out : U32s) (s : RSt) : Prog RSt := do
  let data ← stream.from s.dataPos
  let ctrls ← stream.range s.ctrlPos (s.ctrlPos + 8)
  let nums ← out.range s.decoded (s.decoded + 32)
  let ctrl := mk16 (← getB ctrls 0) (← getB ctrls 1)
  get8uint32FastAsm data nums ctrl decShufPtr ctrlLenPtr
  let sizeA := (← controlByteToSize (← getB ctrls 0)) + (← controlByteToSize (← getB ctrls 1))
  let ctrl := mk16 (← getB ctrls 2) (← getB ctrls 3)
  get8uint32FastAsm (← data.from sizeA) (← nums.from 8) ctrl decShufPtr ctrlLenPtr
  let sizeB := (← controlByteToSize (← getB ctrls 2)) + (← controlByteToSize (← getB ctrls 3))
  let ctrl := mk16 (← getB ctrls 4) (← getB ctrls 5)
  get8uint32FastAsm (← data.from (sizeA + sizeB)) (← nums.from 16) ctrl decShufPtr ctrlLenPtr
  let sizeC := (← controlByteToSize (← getB ctrls 4)) + (← controlByteToSize (← getB ctrls 5))
  let ctrl := mk16 (← getB ctrls 6) (← getB ctrls 7)
  get8uint32FastAsm (← data.from (sizeA + sizeB + sizeC)) (← nums.from 24) ctrl decShufPtr ctrlLenPtr
  let sizeD := (← controlByteToSize (← getB ctrls 6)) + (← controlByteToSize (← getB ctrls 7))
  return { s with
    dataPos := s.dataPos + (sizeA + sizeB + sizeC + sizeD)
    ctrlPos := s.ctrlPos + 8
    decoded := s.decoded + 32 }

/-- Body of the second loop of `ReadAllFast`, `/repo/pkg/stream/reader/reader_amd64.go:91-102`. -/
def rfBody8 (stream : Bytes) (out : U32s) (s : RSt) : Prog RSt := do
  let ctrl := mk16 (← getB stream s.ctrlPos) (← getB stream (s.ctrlPos + 1))
  get8uint32FastAsm (← stream.from s.dataPos) (← out.from s.decoded) ctrl decShufPtr ctrlLenPtr
  let size := (← controlByteToSize (← getB stream s.ctrlPos)) +
    (← controlByteToSize (← getB stream (s.ctrlPos + 1)))
  return { s with dataPos := s.dataPos + size, decoded := s.decoded + 8, ctrlPos := s.ctrlPos + 2 }

/-- Body of the third loop of `ReadAllFast`, `/repo/pkg/stream/reader/reader_amd64.go:104-116`. -/
def rfBody1 (count : Int) (stream : Bytes) (out : U32s) (s : RSt) : Prog RSt := do
  let nums := count - s.decoded
  let nums := if nums > 4 then 4 else nums
  let size ← getUint32Scalar (← stream.from s.dataPos) (← out.from s.decoded)
    (← getB stream s.ctrlPos) nums
  return { s with
    dataPos := s.dataPos + size, decoded := s.decoded + nums, ctrlPos := s.ctrlPos + 1 }

/-- `ReadAllFast`, `/repo/pkg/stream/reader/reader_amd64.go:16-117`. -/
def readAllFast (count : Int) (stream : Bytes) (out : U32s) : Prog Unit := do
  let dataPos := goDiv (int64 (count + 3)) 4
  let ctrlLen := dataPos
  let lowest32 := lowest32Of ctrlLen
  let s ← loop (count.toNat + 1) (fun s => decide (s.decoded < lowest32)) (rfBody32 stream out)
    { decoded := 0, dataPos := dataPos, ctrlPos := 0, prev := 0 }
  let s ← loop (count.toNat + 1) (fun s => decide (s.ctrlPos < ctrlLen - 4)) (rfBody8 stream out) s
  let _ ← loop (count.toNat + 1) (fun s => decide (s.ctrlPos < ctrlLen)) (rfBody1 count stream out) s
  return ()

/-- Body of the first loop of `ReadAllDeltaFast`, `/repo/pkg/stream/reader/reader_amd64.go:150-202`. -/
def rdfBody32 (stream : Bytes) (out : U32s) (s : RSt) : Prog RSt := do
  let data ← stream.from s.dataPos
  let ctrls ← stream.range s.ctrlPos (s.ctrlPos + 8)
  let nums ← out.range s.decoded (s.decoded + 32)
  let ctrl := mk16 (← getB ctrls 0) (← getB ctrls 1)
  get8uint32DeltaFastAsm data nums ctrl s.prev decShufPtr ctrlLenPtr
  let sizeA := (← controlByteToSize (← getB ctrls 0)) + (← controlByteToSize (← getB ctrls 1))
  let ctrl := mk16 (← getB ctrls 2) (← getB ctrls 3)
  get8uint32DeltaFastAsm (← data.from sizeA) (← nums.from 8) ctrl (← getW nums 7)
    decShufPtr ctrlLenPtr
  let sizeB := (← controlByteToSize (← getB ctrls 2)) + (← controlByteToSize (← getB ctrls 3))
  let ctrl := mk16 (← getB ctrls 4) (← getB ctrls 5)
  get8uint32DeltaFastAsm (← data.from (sizeA + sizeB)) (← nums.from 16) ctrl (← getW nums 15)
    decShufPtr ctrlLenPtr
  let sizeC := (← controlByteToSize (← getB ctrls 4)) + (← controlByteToSize (← getB ctrls 5))
  let ctrl := mk16 (← getB ctrls 6) (← getB ctrls 7)
  get8uint32DeltaFastAsm (← data.from (sizeA + sizeB + sizeC)) (← nums.from 24) ctrl (← getW nums 23)
    decShufPtr ctrlLenPtr
  let sizeD := (← controlByteToSize (← getB ctrls 6)) + (← controlByteToSize (← getB ctrls 7))
  let prev ← getW nums 31
  return {
    dataPos := s.dataPos + (sizeA + sizeB + sizeC + sizeD)
    ctrlPos := s.ctrlPos + 8
    decoded := s.decoded + 32
    prev := prev }

/-- Body of the second loop of `ReadAllDeltaFast`, `/repo/pkg/stream/reader/reader_amd64.go:206-219`. -/
def rdfBody8 (stream : Bytes) (out : U32s) (s : RSt) : Prog RSt := do
  let ctrl := mk16 (← getB stream s.ctrlPos) (← getB stream (s.ctrlPos + 1))
  get8uint32DeltaFastAsm (← stream.from s.dataPos) (← out.from s.decoded) ctrl s.prev
    decShufPtr ctrlLenPtr
  let size := (← controlByteToSize (← getB stream s.ctrlPos)) +
    (← controlByteToSize (← getB stream (s.ctrlPos + 1)))
  let decoded := s.decoded + 8
  let prev ← getW out (decoded - 1)
  return { dataPos := s.dataPos + size, decoded := decoded, ctrlPos := s.ctrlPos + 2, prev := prev }

/-- Body of the third loop of `ReadAllDeltaFast`, `/repo/pkg/stream/reader/reader_amd64.go:221-235`. -/
def rdfBody1 (count : Int) (stream : Bytes) (out : U32s) (s : RSt) : Prog RSt := do
  let nums := count - s.decoded
  let nums := if nums > 4 then 4 else nums
  let size ← getUint32DeltaScalar (← stream.from s.dataPos) (← out.from s.decoded)
    (← getB stream s.ctrlPos) nums s.prev
  let decoded := s.decoded + nums
  let prev ← getW out (decoded - 1)
  return { dataPos := s.dataPos + size, decoded := decoded, ctrlPos := s.ctrlPos + 1, prev := prev }

/-- `ReadAllDeltaFast`, `/repo/pkg/stream/reader/reader_amd64.go:126-236`. -/
def readAllDeltaFast (count : Int) (stream : Bytes) (out : U32s) (prev : U32) : Prog Unit := do
  let dataPos := goDiv (int64 (count + 3)) 4
  let ctrlLen := dataPos
  let lowest32 := lowest32Of ctrlLen
  let s ← loop (count.toNat + 1) (fun s => decide (s.decoded < lowest32)) (rdfBody32 stream out)
    { decoded := 0, dataPos := dataPos, ctrlPos := 0, prev := prev }
  let s ← loop (count.toNat + 1) (fun s => decide (s.ctrlPos < ctrlLen - 4)) (rdfBody8 stream out) s
  let _ ← loop (count.toNat + 1) (fun s => decide (s.ctrlPos < ctrlLen)) (rdfBody1 count stream out) s
  return ()

end SVB
