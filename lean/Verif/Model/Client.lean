import Verif.Setting

/-!
# Programs that call the block functions themselves

The packages `encode`, `decode` and `shared` export the block functions (`encode.Put8uint32`,
`encode.Put4uint32Scalar`, `encode.PutUint32Scalar`, the `decode` counterparts) and the size look-ups, so they can be
used without the stream functions.  Here are such callers: they go through the numbers from left to right and choose freely, block by block,
which function takes the next eight, the next four, or what is left of the next four.  The bookkeeping around the call
is the one of `/repo/pkg/stream/writer/writer.go:77-83, 85-93`, `/repo/pkg/stream/writer/writer_amd64.go:78-90`,
`/repo/pkg/stream/reader/reader.go:79-86, 88-95` and `/repo/pkg/stream/reader/reader_amd64.go:89-102`: the control
byte (or two) goes to the next place of the control section, the data position moves on by the size looked up.
-/

set_option autoImplicit false

namespace SVB

/-- Which function takes the next numbers. -/
inductive Portion where
  /-- eight numbers, by one of the variants of `Put8uint32` / `Get8uint32` (and `…Delta`) -/
  | eight (f : Fn)
  /-- four numbers, by `Put4uint32Scalar` / `Get4uint32Scalar` (and `…Delta…`) -/
  | four
  /-- at most four numbers, by `PutUint32Scalar` / `GetUint32Scalar` (and `…Delta…`) -/
  | rest

/-- How many of the `left` numbers a block takes. -/
def Portion.takes (left : Nat) : Portion → Nat
  | .eight _ => 8
  | .four => 4
  | .rest => min 4 left

/-- The blocks take exactly `n` numbers, one after the other, none of them empty. -/
def Covers : List Portion → Nat → Prop
  | [], n => n = 0
  | b :: bs, n => 0 < n ∧ b.takes n ≤ n ∧ Covers bs (n - b.takes n)

instance : (bs : List Portion) → (n : Nat) → Decidable (Covers bs n)
  | [], n => inferInstanceAs (Decidable (n = 0))
  | b :: bs, n =>
    have := instDecidableCovers bs (n - b.takes n)
    inferInstanceAs (Decidable (0 < n ∧ b.takes n ≤ n ∧ Covers bs (n - b.takes n)))

/-- Encode one block at the positions of `s`. -/
def putPortion (inn : U32s) (stream : Bytes) (s : WSt) : Portion → Prog WSt
  | .eight f => do
    let ctrl ← f.put8 (← inn.from s.encoded) (← stream.from s.dataPos)
    setB stream s.ctrlPos (lo8 ctrl)
    setB stream (s.ctrlPos + 1) (hi8 ctrl)
    let size ← controlByteToSizeTwo ctrl
    return { s with encoded := s.encoded + 8, dataPos := s.dataPos + size, ctrlPos := s.ctrlPos + 2 }
  | .four => do
    let ctrl ← put4uint32Scalar (← inn.from s.encoded) (← stream.from s.dataPos)
    setB stream s.ctrlPos ctrl
    let size ← controlByteToSize ctrl
    return { s with encoded := s.encoded + 4, dataPos := s.dataPos + size, ctrlPos := s.ctrlPos + 1 }
  | .rest => do
    let nums := (inn.len : Int) - s.encoded
    let nums := if nums > 4 then 4 else nums
    let ctrl ← putUint32Scalar (← inn.from s.encoded) (← stream.from s.dataPos) nums
    let size ← controlByteToSize ctrl
    setB stream s.ctrlPos ctrl
    return { s with
      encoded := s.encoded + nums, dataPos := s.dataPos + (size - (4 - nums)), ctrlPos := s.ctrlPos + 1 }

/-- Encode one block of differences; `s.prev` is the number before it. -/
def putPortionDelta (inn : U32s) (stream : Bytes) (s : WSt) : Portion → Prog WSt
  | .eight f => do
    let ctrl ← f.put8Delta (← inn.from s.encoded) (← stream.from s.dataPos) s.prev
    setB stream s.ctrlPos (lo8 ctrl)
    setB stream (s.ctrlPos + 1) (hi8 ctrl)
    let size ← controlByteToSizeTwo ctrl
    let prev ← getW inn (s.encoded + 7)
    return { encoded := s.encoded + 8, dataPos := s.dataPos + size, ctrlPos := s.ctrlPos + 2, prev := prev }
  | .four => do
    let ctrl ← put4uint32DeltaScalar (← inn.from s.encoded) (← stream.from s.dataPos) s.prev
    setB stream s.ctrlPos ctrl
    let size ← controlByteToSize ctrl
    let prev ← getW inn (s.encoded + 3)
    return { encoded := s.encoded + 4, dataPos := s.dataPos + size, ctrlPos := s.ctrlPos + 1, prev := prev }
  | .rest => do
    let nums := (inn.len : Int) - s.encoded
    let nums := if nums > 4 then 4 else nums
    let ctrl ← putUint32DeltaScalar (← inn.from s.encoded) (← stream.from s.dataPos) nums s.prev
    let size ← controlByteToSize ctrl
    setB stream s.ctrlPos ctrl
    let prev ← getW inn (s.encoded + nums - 1)
    return {
      encoded := s.encoded + nums, dataPos := s.dataPos + (size - (4 - nums)), ctrlPos := s.ctrlPos + 1,
      prev := prev }

/-- Decode one block at the positions of `s`. -/
def getPortion (count : Int) (stream : Bytes) (out : U32s) (s : RSt) : Portion → Prog RSt
  | .eight f => do
    let a ← getB stream s.ctrlPos
    let b ← getB stream (s.ctrlPos + 1)
    f.get8 (← stream.from s.dataPos) (← out.from s.decoded) (mk16 a b)
    let size ← controlByteToSizeTwo (mk16 a b)
    return { s with dataPos := s.dataPos + size, decoded := s.decoded + 8, ctrlPos := s.ctrlPos + 2 }
  | .four => do
    let ctrl ← getB stream s.ctrlPos
    get4uint32Scalar (← stream.from s.dataPos) (← out.from s.decoded) ctrl
    let size ← controlByteToSize ctrl
    return { s with dataPos := s.dataPos + size, decoded := s.decoded + 4, ctrlPos := s.ctrlPos + 1 }
  | .rest => do
    let nums := count - s.decoded
    let nums := if nums > 4 then 4 else nums
    let ctrl ← getB stream s.ctrlPos
    let size ← getUint32Scalar (← stream.from s.dataPos) (← out.from s.decoded) ctrl nums
    return { s with dataPos := s.dataPos + size, decoded := s.decoded + nums, ctrlPos := s.ctrlPos + 1 }

/-- Decode one block of differences; `s.prev` is the number before it. -/
def getPortionDelta (count : Int) (stream : Bytes) (out : U32s) (s : RSt) : Portion → Prog RSt
  | .eight f => do
    let a ← getB stream s.ctrlPos
    let b ← getB stream (s.ctrlPos + 1)
    f.get8Delta (← stream.from s.dataPos) (← out.from s.decoded) (mk16 a b) s.prev
    let size ← controlByteToSizeTwo (mk16 a b)
    let prev ← getW out (s.decoded + 7)
    return { dataPos := s.dataPos + size, decoded := s.decoded + 8, ctrlPos := s.ctrlPos + 2, prev := prev }
  | .four => do
    let ctrl ← getB stream s.ctrlPos
    get4uint32DeltaScalar (← stream.from s.dataPos) (← out.from s.decoded) ctrl s.prev
    let size ← controlByteToSize ctrl
    let prev ← getW out (s.decoded + 3)
    return { dataPos := s.dataPos + size, decoded := s.decoded + 4, ctrlPos := s.ctrlPos + 1, prev := prev }
  | .rest => do
    let nums := count - s.decoded
    let nums := if nums > 4 then 4 else nums
    let ctrl ← getB stream s.ctrlPos
    let size ← getUint32DeltaScalar (← stream.from s.dataPos) (← out.from s.decoded) ctrl nums s.prev
    let prev ← getW out (s.decoded + nums - 1)
    return { dataPos := s.dataPos + size, decoded := s.decoded + nums, ctrlPos := s.ctrlPos + 1, prev := prev }

/-- One block after the other. -/
def blocks {σ : Type} (step : σ → Portion → Prog σ) : List Portion → σ → Prog σ
  | [], s => return s
  | b :: bs, s => do blocks step bs (← step s b)

/-- Encode `inn` block by block into a new slice. -/
def encodeBy (bs : List Portion) (fresh : Block) (inn : U32s) : Prog Bytes := do
  let ctrlLen : Int := goDiv (inn.len + 3) 4
  let stream ← makeBytes fresh (ctrlLen + 4 * inn.len)
  let s ← blocks (putPortion inn stream) bs { encoded := 0, dataPos := ctrlLen, ctrlPos := 0, prev := 0 }
  stream.range 0 s.dataPos

/-- Encode the differences of `inn` block by block into a new slice. -/
def encodeDeltaBy (bs : List Portion) (fresh : Block) (inn : U32s) (prev : U32) : Prog Bytes := do
  let ctrlLen : Int := goDiv (inn.len + 3) 4
  let stream ← makeBytes fresh (ctrlLen + 4 * inn.len)
  let s ← blocks (putPortionDelta inn stream) bs { encoded := 0, dataPos := ctrlLen, ctrlPos := 0, prev := prev }
  stream.range 0 s.dataPos

/-- Decode `count` numbers of `stream` block by block. -/
def decodeBy (bs : List Portion) (count : Int) (stream : Bytes) (out : U32s) : Prog Unit := do
  let _ ← blocks (getPortion count stream out) bs { decoded := 0, dataPos := goDiv (count + 3) 4, ctrlPos := 0, prev := 0 }
  return ()

/-- Decode `count` numbers of a stream of differences block by block. -/
def decodeDeltaBy (bs : List Portion) (count : Int) (stream : Bytes) (out : U32s) (prev : U32) : Prog Unit := do
  let _ ← blocks (getPortionDelta count stream out) bs
    { decoded := 0, dataPos := goDiv (count + 3) 4, ctrlPos := 0, prev := prev }
  return ()

end SVB
