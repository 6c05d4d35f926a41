import Verif.Model.Tests

/-!
# The benchmarks of `/repo`, function by function

Readable versions of the benchmarks in the test files.  `Verif.Proofs.BenchText` proves that they are what the texts say (`bench`
of `TestSem.lean`, applied to the parsed files).
-/

set_option autoImplicit false

namespace SVB.Tests

/-- `for i := …; i < n; i++ { a = f(i, a) }`, with at most `fuel` tests of the condition. -/
def forUpto {α : Type} (n : Int) (f : Int → α → M α) : Nat → Int → α → M α
  | 0, _, _ => stuck
  | fuel + 1, i, a =>
    let again : M α := do
      let a' ← f i a
      forUpto n f fuel (int64 (i + 1)) a'
    branch (decide (i < n)) again (pure a)

/-- `f` for each of the values of `b.N`. -/
def eachN {α : Type} (f : Nat → α → M α) : List Nat → α → M α
  | [], a => pure a
  | n :: ns, a => do
    let a' ← f n a
    eachN f ns a'

/-- `b.Run(…, func(b *testing.B) { f })` -/
def bRun {α : Type} (W : World) (f : Nat → α → M α) (a : α) : M α := fun _ k s =>
  eachN f (W.rounds s) a (fun _ => .panic .fault) k s

/-- `for i := 0; i < b.N; i++ { f }` -/
def repeatN (fuel n : Nat) (f : M Unit) : M Unit := forUpto n (fun _ _ => f) fuel 0 ()

/-- `for i := 0; i < b.N; i++ { a = f }` -/
def repeatSet {α : Type} (fuel n : Nat) (f : M α) (a : α) : M α := forUpto n (fun _ _ => f) fuel 0 a

/-- `int(math.Pow10(n))` -/
def pow10Int (n : Int) : M Int := branch (decide (0 ≤ n ∧ n < 19)) (pure (10 ^ n.toNat)) stuck

/-- `for i := 0; i < 8; i++ { count := int(math.Pow10(i)); f(count) }` -/
def tens (fuel : Nat) (f : Int → M Unit) : M Unit := forUpto 8 (fun i _ => pow10Int i >>= f) fuel 0 ()

/-- A call whose result is not used. -/
def ignore {α : Type} (x : M α) : M Unit := x >>= fun _ => pure ()

/-! ## `/repo/pkg/pkg_test.go` -/

/-- `BenchmarkMemCopy8Uint32`, `/repo/pkg/pkg_test.go:45-58`. -/
def bMemCopy (W : World) (fuel n : Nat) : M Unit := do
  let nums ← makeW 8
  forUpto 8 (fun i _ => do
    let v ← randU32 W
    call (setW nums i v)) fuel 0 ()
  let out ← makeW 8
  setBytes 32
  repeatN fuel n (call (copyWords out nums))

/-! ## `/repo/pkg/encode/encode_test.go` -/

/-- `BenchmarkPut8uint32Fast`, `/repo/pkg/encode/encode_test.go:164-180`. -/
def bPut8Fast (W : World) (fuel n : Nat) : M Unit := do
  skipIf (decide (encodeMode W.cpu = .normal))
  let out ← makeB 32
  let nums ← gen W 8
  setBytes 32
  let ctrl ← repeatSet fuel n (call (onAmd64 W.cpu (put8uint32Fast nums out))) 0#16
  setSink n!"writeSinkA" (.u16 ctrl)

/-- `BenchmarkPut8uint32DeltaFast`, `/repo/pkg/encode/encode_test.go:184-201`. -/
def bPut8DeltaFast (W : World) (fuel n : Nat) : M Unit := do
  skipIf (decide (encodeMode W.cpu = .normal))
  let out ← makeB 32
  let nums ← gen W 8
  call (sortWords W nums)
  setBytes 32
  let ctrl ← repeatSet fuel n (call (onAmd64 W.cpu (put8uint32DeltaFast nums out 0))) 0#16
  setSink n!"writeSinkB" (.u16 ctrl)

/-- `BenchmarkPut8uint32Scalar`, `/repo/pkg/encode/encode_test.go:205-217`. -/
def bPut8Scalar (W : World) (fuel n : Nat) : M Unit := do
  let out ← makeB 32
  let nums ← gen W 8
  setBytes 32
  let ctrl ← repeatSet fuel n (call (put8uint32Scalar nums out)) 0#16
  setSink n!"writeSinkC" (.u16 ctrl)

/-- `BenchmarkPut8uint32DeltaScalar`, `/repo/pkg/encode/encode_test.go:221-234`. -/
def bPut8DeltaScalar (W : World) (fuel n : Nat) : M Unit := do
  let out ← makeB 32
  let nums ← gen W 8
  call (sortWords W nums)
  setBytes 32
  let ctrl ← repeatSet fuel n (call (put8uint32DeltaScalar nums out 0)) 0#16
  setSink n!"writeSinkD" (.u16 ctrl)

/-- `BenchmarkPut8uint32Varint`, `/repo/pkg/encode/encode_test.go:238-250`. -/
def bPutVarint (W : World) (fuel n : Nat) : M Unit := do
  let out ← makeB 40
  let nums ← gen W 8
  setBytes 32
  let written ← repeatSet fuel n (call (putVarint nums out)) 0
  setSink n!"writeSinkE" (.int written)

/-- `BenchmarkPut8uint32DeltaVarint`, `/repo/pkg/encode/encode_test.go:254-267`. -/
def bPutDeltaVarint (W : World) (fuel n : Nat) : M Unit := do
  let out ← makeB 40
  let nums ← gen W 8
  call (sortWords W nums)
  setBytes 32
  let written ← repeatSet fuel n (call (putDeltaVarint nums out 0)) 0
  setSink n!"writeSinkF" (.int written)

/-! ## `/repo/pkg/decode/decode_test.go` -/

/-- `BenchmarkGet8uint32Fast`, `/repo/pkg/decode/decode_test.go:112-130`. -/
def bGet8Fast (W : World) (fuel n : Nat) : M Unit := do
  skipIf (decide (decodeMode W.cpu = .normal))
  let out ← makeW 8
  let nums ← gen W 8
  let inn ← makeB 32
  let ctrl ← call (put8uint32Scalar nums inn)
  setBytes 32
  repeatN fuel n (call (onAmd64 W.cpu (get8uint32Fast inn out ctrl)))
  setSink n!"readSinkA" (.words out)

/-- `BenchmarkGet8uint32DeltaFast`, `/repo/pkg/decode/decode_test.go:134-152`. -/
def bGet8DeltaFast (W : World) (fuel n : Nat) : M Unit := do
  skipIf (decide (decodeMode W.cpu = .normal))
  let out ← makeW 8
  let nums ← gen W 8
  call (sortWords W nums)
  let inn ← makeB 32
  let ctrl ← call (put8uint32DeltaScalar nums inn 0)
  setBytes 32
  repeatN fuel n (call (onAmd64 W.cpu (get8uint32DeltaFast inn out ctrl 0)))
  setSink n!"readSinkB" (.words out)

/-- `BenchmarkGet8uint32Scalar`, `/repo/pkg/decode/decode_test.go:156-169`. -/
def bGet8Scalar (W : World) (fuel n : Nat) : M Unit := do
  let out ← makeW 8
  let nums ← gen W 8
  let inn ← makeB 32
  let ctrl ← call (put8uint32Scalar nums inn)
  setBytes 32
  repeatN fuel n (call (get8uint32Scalar inn out ctrl))
  setSink n!"readSinkC" (.words out)

/-- `BenchmarkGet8uint32DeltaScalar`, `/repo/pkg/decode/decode_test.go:173-187`. -/
def bGet8DeltaScalar (W : World) (fuel n : Nat) : M Unit := do
  let out ← makeW 8
  let nums ← gen W 8
  call (sortWords W nums)
  let inn ← makeB 32
  let ctrl ← call (put8uint32DeltaScalar nums inn 0)
  setBytes 32
  repeatN fuel n (call (get8uint32DeltaScalar inn out ctrl 0))
  setSink n!"readSinkD" (.words out)

/-- `BenchmarkGet8uint32Varint`, `/repo/pkg/decode/decode_test.go:191-204`. -/
def bGetVarint (W : World) (fuel n : Nat) : M Unit := do
  let out ← makeW 8
  let data ← makeB 40
  let nums ← gen W 8
  let written ← call (putVarint nums data)
  let data ← upto data written
  setBytes 32
  repeatN fuel n (ignore (call (getVarint data out)))
  setSink n!"readSinkE" (.words out)

/-- `BenchmarkGet8uint32DeltaVarint`, `/repo/pkg/decode/decode_test.go:208-221`. -/
def bGetDeltaVarint (W : World) (fuel n : Nat) : M Unit := do
  let out ← makeW 8
  let data ← makeB 40
  let nums ← gen W 8
  let written ← call (putDeltaVarint nums data 0)
  let data ← upto data written
  setBytes 32
  repeatN fuel n (ignore (call (getDeltaVarint data out 0)))
  setSink n!"readSinkF" (.words out)

/-! ## `/repo/pkg/stream/reader/reader_test.go` -/

/-- `BenchmarkReadAllFast`, `/repo/pkg/stream/reader/reader_test.go:98-117`. -/
def bReadAllFast (W : World) (fuel : Nat) : M Unit := do
  skipIf (decide (decodeMode W.cpu = .normal))
  tens fuel fun count => do
    let nums ← gen W count
    let stream ← alloc fun b => SVB.writeAllScalar b nums
    let out ← makeW count
    bRun W (fun n _ => do
      setBytes (int64 (count * 4))
      repeatN fuel n (call (onAmd64 W.cpu (SVB.readAllFast count stream out)))
      setSink n!"readSinkA" (.words out)) ()

/-- `BenchmarkReadAllDeltaFast`, `/repo/pkg/stream/reader/reader_test.go:121-141`. -/
def bReadAllDeltaFast (W : World) (fuel : Nat) : M Unit := do
  skipIf (decide (decodeMode W.cpu = .normal))
  tens fuel fun count => do
    let nums ← gen W count
    call (sortWords W nums)
    let stream ← alloc fun b => SVB.writeAllDeltaScalar b nums 0
    let out ← makeW count
    bRun W (fun n _ => do
      setBytes (int64 (count * 4))
      repeatN fuel n (call (onAmd64 W.cpu (SVB.readAllDeltaFast count stream out 0)))
      setSink n!"readSinkB" (.words out)) ()

/-- `BenchmarkReadAllScalar`, `/repo/pkg/stream/reader/reader_test.go:145-161`. -/
def bReadAllScalar (W : World) (fuel : Nat) : M Unit := do
  tens fuel fun count => do
    let nums ← gen W count
    call (sortWords W nums)
    let stream ← alloc fun b => SVB.writeAllScalar b nums
    let out ← makeW count
    bRun W (fun n _ => do
      setBytes (int64 (count * 4))
      repeatN fuel n (call (SVB.readAllScalar count stream out))
      setSink n!"readSinkC" (.words out)) ()

/-- `BenchmarkReadAllDeltaScalar`, `/repo/pkg/stream/reader/reader_test.go:165-181`. -/
def bReadAllDeltaScalar (W : World) (fuel : Nat) : M Unit := do
  tens fuel fun count => do
    let nums ← gen W count
    call (sortWords W nums)
    let stream ← alloc fun b => SVB.writeAllDeltaScalar b nums 0
    let out ← makeW count
    bRun W (fun n _ => do
      setBytes (int64 (count * 4))
      repeatN fuel n (call (SVB.readAllDeltaScalar count stream out 0))
      setSink n!"readSinkD" (.words out)) ()

/-- `BenchmarkReadAllVarint`, `/repo/pkg/stream/reader/reader_test.go:185-203`. -/
def bReadVarint (W : World) (fuel : Nat) : M Unit := do
  tens fuel fun count => do
    let out ← makeW count
    let data ← makeB (int64 (5 * count))
    let nums ← gen W count
    call (sortWords W nums)
    let written ← call (putVarint nums data)
    let data ← upto data written
    bRun W (fun n _ => do
      setBytes (int64 (count * 4))
      repeatN fuel n (ignore (call (getVarint data out)))
      setSink n!"readSinkB" (.words out)) ()

/-- `BenchmarkReadAllDeltaVarint`, `/repo/pkg/stream/reader/reader_test.go:207-225`. -/
def bReadDeltaVarint (W : World) (fuel : Nat) : M Unit := do
  tens fuel fun count => do
    let out ← makeW count
    let data ← makeB (int64 (5 * count))
    let nums ← gen W count
    call (sortWords W nums)
    let written ← call (putDeltaVarint nums data 0)
    let data ← upto data written
    bRun W (fun n _ => do
      setBytes (int64 (count * 4))
      repeatN fuel n (ignore (call (getDeltaVarint data out 0)))
      setSink n!"readSinkB" (.words out)) ()

/-! ## `/repo/pkg/stream/writer/writer_test.go` -/

/-- `BenchmarkWriteAllFast`, `/repo/pkg/stream/writer/writer_test.go:97-115`. -/
def bWriteAllFast (W : World) (fuel : Nat) : M Unit := do
  skipIf (decide (encodeMode W.cpu = .normal))
  tens fuel fun count => do
    let nums ← gen W count
    bRun W (fun n _ => do
      setBytes (int64 (count * 4))
      let stream ← repeatSet fuel n (ofBytes (alloc fun b => onAmd64 W.cpu (SVB.writeAllFast b nums))) .nil
      setSink n!"readSinkA" stream.settle) ()

/-- `BenchmarkWriteAllDeltaFast`, `/repo/pkg/stream/writer/writer_test.go:119-138`. -/
def bWriteAllDeltaFast (W : World) (fuel : Nat) : M Unit := do
  skipIf (decide (encodeMode W.cpu = .normal))
  tens fuel fun count => do
    let nums ← gen W count
    call (sortWords W nums)
    bRun W (fun n _ => do
      setBytes (int64 (count * 4))
      let stream ← repeatSet fuel n (ofBytes (alloc fun b => onAmd64 W.cpu (SVB.writeAllDeltaFast b nums 0))) .nil
      setSink n!"readSinkB" stream.settle) ()

/-- `BenchmarkWriteAllScalar`, `/repo/pkg/stream/writer/writer_test.go:142-157`. -/
def bWriteAllScalar (W : World) (fuel : Nat) : M Unit := do
  tens fuel fun count => do
    let nums ← gen W count
    call (sortWords W nums)
    bRun W (fun n _ => do
      setBytes (int64 (count * 4))
      let stream ← repeatSet fuel n (ofBytes (alloc fun b => SVB.writeAllScalar b nums)) .nil
      setSink n!"readSinkC" stream.settle) ()

/-- `BenchmarkWriteAllDeltaScalar`, `/repo/pkg/stream/writer/writer_test.go:161-176`. -/
def bWriteAllDeltaScalar (W : World) (fuel : Nat) : M Unit := do
  tens fuel fun count => do
    let nums ← gen W count
    call (sortWords W nums)
    bRun W (fun n _ => do
      setBytes (int64 (count * 4))
      let stream ← repeatSet fuel n (ofBytes (alloc fun b => SVB.writeAllDeltaScalar b nums 0)) .nil
      setSink n!"readSinkD" stream.settle) ()

/-- `BenchmarkWriteAllVarint`, `/repo/pkg/stream/writer/writer_test.go:180-196`. -/
def bWriteVarint (W : World) (fuel : Nat) : M Unit := do
  tens fuel fun count => do
    let nums ← gen W count
    call (sortWords W nums)
    let out ← makeB (int64 (count * 5))
    ignore (bRun W (fun n written => do
      setBytes (int64 (count * 4))
      let written ← repeatSet fuel n (call (putVarint nums out)) written
      setSink n!"readSinkE" (.int written)
      return written) 0)

/-- `BenchmarkWriteAllDeltaVarint`, `/repo/pkg/stream/writer/writer_test.go:200-216`. -/
def bWriteDeltaVarint (W : World) (fuel : Nat) : M Unit := do
  tens fuel fun count => do
    let nums ← gen W count
    call (sortWords W nums)
    let out ← makeB (int64 (count * 5))
    ignore (bRun W (fun n written => do
      setBytes (int64 (count * 4))
      let written ← repeatSet fuel n (call (putDeltaVarint nums out 0)) written
      setSink n!"readSinkE" (.int written)
      return written) 0)

end SVB.Tests
