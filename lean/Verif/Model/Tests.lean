import Verif.Model.TestSem

/-!
# The tests of `/repo`, function by function

Readable versions of the tests.  `Verif.Proofs.TestText` proves that they are what the texts of the test files say (`test` of
`TestSem.lean`, applied to the parsed files).
-/

set_option autoImplicit false

namespace SVB.Tests

/-- `n` times the same. -/
def times : Nat → M Unit → M Unit
  | 0, _ => pure ()
  | n + 1, x => do
    x
    times n x

/-- `if b { t.Fatalf(…) }` -/
def failIf (b : Bool) : M Unit := branch b fatal (pure ())

/-- `if GetMode() == shared.Normal { t.Skipf(…) }` -/
def skipIf (b : Bool) : M Unit := branch b skip (pure ())

/-- Run a test from beginning to end. -/
def M.go (x : M Unit) (s : St) : Prog St := x .ret (fun _ s => .ret s) s

/-- `s[:n]` -/
def upto {e : Nat} (s : Slice e) (n : Int) : M (Slice e) := call (s.range 0 n)

def makeB (n : Int) : M Bytes := alloc fun b => makeBytes b n
def makeW (n : Int) : M U32s := alloc fun b => makeWords b n

/-! ## `/repo/pkg/pkg_test.go` -/

/-- `TestRoundTripScalar`, `/repo/pkg/pkg_test.go:18-43`. -/
def roundTripScalar : M Unit := do
  let inn ← alloc (litWords [1024, 3, 2, 1, 1073741824, 10, 12, 1024])
  let expectedData ← alloc (litBytes [0x00, 0x04, 0x03, 0x02, 0x01, 0x00, 0x00, 0x00, 0x40, 0x0a, 0x0c, 0x00, 0x04])
  let out ← makeB 32
  let actualCtrl ← call (put8uint32Scalar inn out)
  failIf (!decide (actualCtrl = 0b0100001100000001#16))
  let actualData ← upto out 13
  let eq ← call (deepEqualB expectedData actualData)
  failIf !eq
  let decoded ← makeW 8
  call (get8uint32Scalar actualData decoded actualCtrl)
  let eq ← call (deepEqualW inn decoded)
  failIf !eq

/-! ## `/repo/pkg/encode/encode_test.go` -/

/-- `TestPut8uint32Scalar`, `/repo/pkg/encode/encode_test.go:18-36`. -/
def put8Scalar : M Unit := do
  let inn ← alloc (litWords [1024, 3, 2, 1, 1073741824, 10, 12, 1024])
  let expectedData ← alloc (litBytes [0x00, 0x04, 0x03, 0x02, 0x01, 0x00, 0x00, 0x00, 0x40, 0x0a, 0x0c, 0x00, 0x04])
  let out ← makeB 32
  let actualCtrl ← call (put8uint32Scalar inn out)
  failIf (!decide (actualCtrl = 0b0100001100000001#16))
  let actualData ← upto out 13
  let eq ← call (deepEqualB expectedData actualData)
  failIf !eq

/-- `TestPut8uint32DeltaScalar`, `/repo/pkg/encode/encode_test.go:38-59`. -/
def put8DeltaScalar (W : World) : M Unit := do
  let nums ← gen W 8
  call (sortWords W nums)
  let diffed ← makeW 8
  call (utilDelta nums diffed)
  let expectedData ← makeB 32
  let expectedCtrl ← call (put8uint32Scalar diffed expectedData)
  let n ← call (controlByteToSizeTwo expectedCtrl)
  let expectedData ← upto expectedData n
  let out ← makeB 32
  let actualCtrl ← call (put8uint32DeltaScalar nums out 0)
  failIf (!decide (actualCtrl = expectedCtrl))
  let n ← call (controlByteToSizeTwo actualCtrl)
  let actualData ← upto out n
  let eq ← call (deepEqualB expectedData actualData)
  failIf !eq

/-- `TestPut8uint32Fast`, `/repo/pkg/encode/encode_test.go:61-84`. -/
def put8Fast (W : World) : M Unit := do
  skipIf (decide (encodeMode W.cpu = .normal))
  let nums ← gen W 8
  let out ← makeB 32
  let scalarCtrl ← call (put8uint32Scalar nums out)
  let n ← call (controlByteToSizeTwo scalarCtrl)
  let out ← upto out n
  let fastOut ← makeB 32
  let fastCtrl ← call (onAmd64 W.cpu (put8uint32Fast nums fastOut))
  let n ← call (controlByteToSizeTwo fastCtrl)
  let fastOut ← upto fastOut n
  failIf (!decide (scalarCtrl = fastCtrl))
  let eq ← call (deepEqualB out fastOut)
  failIf !eq

/-- `TestPut8uint32DeltaFast`, `/repo/pkg/encode/encode_test.go:86-110`. -/
def put8DeltaFast (W : World) : M Unit := do
  skipIf (decide (encodeMode W.cpu = .normal))
  let nums ← gen W 8
  call (sortWords W nums)
  let expectedData ← makeB 32
  let scalarCtrl ← call (put8uint32DeltaScalar nums expectedData 0)
  let n ← call (controlByteToSizeTwo scalarCtrl)
  let expectedData ← upto expectedData n
  let fastOut ← makeB 32
  let fastCtrl ← call (onAmd64 W.cpu (put8uint32DeltaFast nums fastOut 0))
  let n ← call (controlByteToSizeTwo fastCtrl)
  let fastOut ← upto fastOut n
  failIf (!decide (scalarCtrl = fastCtrl))
  let eq ← call (deepEqualB expectedData fastOut)
  failIf !eq

/-- `for ; i > 0; i-- { nums = append(nums, 0) }`, with at most `fuel` tests of the condition. -/
def pad (W : World) : Nat → Int → U32s → M U32s
  | 0, _, _ => stuck
  | fuel + 1, i, nums =>
    let again : M U32s := do
      let nums ← alloc (append W nums 0)
      pad W fuel (int64 (i - 1)) nums
    branch (decide (0 < i)) again (pure nums)

/-- `TestPutUint32Scalar`, `/repo/pkg/encode/encode_test.go:112-133`. -/
def putScalar (W : World) : M Unit := do
  let r ← randIntn W 4
  let count := int64 (r + 1)
  let nums ← gen W count
  let nums ← pad W 10 (int64 (4 - count)) nums
  let expected ← makeB 16
  let ctrl ← call (put4uint32Scalar nums expected)
  let size ← call (controlByteToSize ctrl)
  let expected ← upto expected (int64 (size - int64 (4 - count)))
  let out ← makeB (int64 (count * 4))
  let nums' ← upto nums count
  let ctrl ← call (putUint32Scalar nums' out count)
  let size ← call (controlByteToSize ctrl)
  let out ← upto out (int64 (size - int64 (4 - count)))
  let eq ← call (deepEqualB expected out)
  failIf !eq

/-- `for ; i > 0; i-- { nums = append(nums, nums[count-1]) }`, with at most `fuel` tests of the condition. -/
def padLast (W : World) (count : Int) : Nat → Int → U32s → M U32s
  | 0, _, _ => stuck
  | fuel + 1, i, nums =>
    let again : M U32s := do
      let v ← call (getW nums (int64 (count - 1)))
      let nums ← alloc (append W nums v)
      padLast W count fuel (int64 (i - 1)) nums
    branch (decide (0 < i)) again (pure nums)

/-- `TestPutUint32DeltaScalar`, `/repo/pkg/encode/encode_test.go:135-160`. -/
def putDeltaScalar (W : World) : M Unit := do
  let r ← randIntn W 4
  let count := int64 (r + 1)
  let nums ← gen W count
  call (sortWords W nums)
  let nums ← padLast W count 10 (int64 (4 - count)) nums
  let deltas ← makeW 4
  call (utilDelta nums deltas)
  let expected ← makeB 16
  let ctrl ← call (put4uint32Scalar deltas expected)
  let size ← call (controlByteToSize ctrl)
  let expected ← upto expected (int64 (size - int64 (4 - count)))
  let out ← makeB (int64 (count * 4))
  let nums' ← upto nums count
  let ctrl ← call (putUint32DeltaScalar nums' out count 0)
  let size ← call (controlByteToSize ctrl)
  let out ← upto out (int64 (size - int64 (4 - count)))
  let eq ← call (deepEqualB expected out)
  failIf !eq

/-! ## `/repo/pkg/decode/decode_test.go` -/

/-- `TestGet8uint32Scalar`, `/repo/pkg/decode/decode_test.go:19-30`. -/
def get8Scalar (W : World) : M Unit := do
  let expected ← gen W 8
  let inn ← makeB 32
  let ctrl ← call (put8uint32Scalar expected inn)
  let out ← makeW 8
  call (get8uint32Scalar inn out ctrl)
  let eq ← call (deepEqualW expected out)
  failIf !eq

/-- `TestGet8uint32DeltaScalar`, `/repo/pkg/decode/decode_test.go:32-44`. -/
def get8DeltaScalar (W : World) : M Unit := do
  let expected ← gen W 8
  call (sortWords W expected)
  let inn ← makeB 32
  let ctrl ← call (put8uint32DeltaScalar expected inn 0)
  let out ← makeW 8
  call (get8uint32DeltaScalar inn out ctrl 0)
  let eq ← call (deepEqualW expected out)
  failIf !eq

/-- `TestGet8uint32Fast`, `/repo/pkg/decode/decode_test.go:46-61`. -/
def get8Fast (W : World) : M Unit := do
  skipIf (decide (decodeMode W.cpu = .normal))
  let expected ← gen W 8
  let inn ← makeB 32
  let ctrl ← call (put8uint32Scalar expected inn)
  let out ← makeW 8
  call (onAmd64 W.cpu (get8uint32Fast inn out ctrl))
  let eq ← call (deepEqualW expected out)
  failIf !eq

/-- `TestGet8uint32DeltaFast`, `/repo/pkg/decode/decode_test.go:63-79`. -/
def get8DeltaFast (W : World) : M Unit := do
  skipIf (decide (decodeMode W.cpu = .normal))
  let expected ← gen W 8
  call (sortWords W expected)
  let inn ← makeB 32
  let ctrl ← call (put8uint32DeltaScalar expected inn 0)
  let out ← makeW 8
  call (onAmd64 W.cpu (get8uint32DeltaFast inn out ctrl 0))
  let eq ← call (deepEqualW expected out)
  failIf !eq

/-- `TestGetUint32Scalar`, `/repo/pkg/decode/decode_test.go:81-92`. -/
def getScalar (W : World) : M Unit := do
  let r ← randIntn W 4
  let count := int64 (r + 1)
  let expected ← gen W count
  let inn ← makeB (int64 (count * 4))
  let ctrl ← call (putUint32Scalar expected inn count)
  let out ← makeW count
  let _ ← call (getUint32Scalar inn out ctrl count)
  let eq ← call (deepEqualW expected out)
  failIf !eq

/-- `TestGetUint32DeltaScalar`, `/repo/pkg/decode/decode_test.go:94-108`. -/
def getDeltaScalar (W : World) : M Unit := do
  let r ← randIntn W 4
  let count := int64 (r + 1)
  let expected ← gen W count
  call (sortWords W expected)
  let inn ← makeB (int64 (count * 4))
  let deltas ← makeW count
  call (utilDelta expected deltas)
  let ctrl ← call (putUint32Scalar deltas inn count)
  let out ← makeW count
  let _ ← call (getUint32DeltaScalar inn out ctrl count 0)
  let eq ← call (deepEqualW expected out)
  failIf !eq

/-! ## `/repo/pkg/stream/writer/writer_test.go` -/

/-- `int(util.RandUint32() % 1e6)` -/
def randCount (W : World) : M Int := do
  let v ← randU32 W
  return ((v % 1000000#32).toNat : Int)

/-- `TestWriteAllScalar`, `/repo/pkg/stream/writer/writer_test.go:22-35`. -/
def writeAllScalar (W : World) : M Unit := times 6 do
  let count ← randCount W
  let nums ← gen W count
  let stream ← alloc fun b => SVB.writeAllScalar b nums
  subtest do
    let out ← makeW count
    call (SVB.readAllScalar count stream out)
    let eq ← call (deepEqualW nums out)
    failIf !eq

/-- `TestWriteAllDeltaScalar`, `/repo/pkg/stream/writer/writer_test.go:37-53`. -/
def writeAllDeltaScalar (W : World) : M Unit := times 6 do
  let count ← randCount W
  let nums ← gen W count
  call (sortWords W nums)
  let diffed ← makeW count
  call (utilDelta nums diffed)
  let stream ← alloc fun b => SVB.writeAllScalar b diffed
  subtest do
    let actual ← alloc fun b => SVB.writeAllDeltaScalar b nums 0
    let eq ← call (deepEqualB stream actual)
    failIf !eq

/-- `TestWriteAllFast`, `/repo/pkg/stream/writer/writer_test.go:55-71`. -/
def writeAllFast (W : World) : M Unit := do
  skipIf (decide (encodeMode W.cpu = .normal))
  times 6 do
    let count ← randCount W
    let nums ← gen W count
    let stream ← alloc fun b => SVB.writeAllScalar b nums
    subtest do
      let actual ← alloc fun b => onAmd64 W.cpu (SVB.writeAllFast b nums)
      let eq ← call (deepEqualB stream actual)
      failIf !eq

/-- `TestWriteAllDeltaFast`, `/repo/pkg/stream/writer/writer_test.go:73-93`. -/
def writeAllDeltaFast (W : World) : M Unit := do
  skipIf (decide (encodeMode W.cpu = .normal))
  times 6 do
    let count ← randCount W
    let nums ← gen W count
    call (sortWords W nums)
    let diffed ← makeW count
    call (utilDelta nums diffed)
    let stream ← alloc fun b => SVB.writeAllScalar b diffed
    subtest do
      let actual ← alloc fun b => onAmd64 W.cpu (SVB.writeAllDeltaFast b nums 0)
      let eq ← call (deepEqualB stream actual)
      failIf !eq

/-! ## `/repo/pkg/stream/reader/reader_test.go` -/

/-- `TestReadAllScalar`, `/repo/pkg/stream/reader/reader_test.go:23-36`. -/
def readAllScalar (W : World) : M Unit := times 6 do
  let count ← randCount W
  let nums ← gen W count
  let stream ← alloc fun b => SVB.writeAllScalar b nums
  subtest do
    let out ← makeW count
    call (SVB.readAllScalar count stream out)
    let eq ← call (deepEqualW nums out)
    failIf !eq

/-- `TestReadAllDeltaScalar`, `/repo/pkg/stream/reader/reader_test.go:38-52`. -/
def readAllDeltaScalar (W : World) : M Unit := times 6 do
  let count ← randCount W
  let nums ← gen W count
  call (sortWords W nums)
  let stream ← alloc fun b => SVB.writeAllDeltaScalar b nums 0
  subtest do
    let out ← makeW count
    call (SVB.readAllDeltaScalar count stream out 0)
    let eq ← call (deepEqualW nums out)
    failIf !eq

/-- `TestReadAllFast`, `/repo/pkg/stream/reader/reader_test.go:54-71`. -/
def readAllFast (W : World) : M Unit := do
  skipIf (decide (decodeMode W.cpu = .normal))
  times 6 do
    let count ← randCount W
    let nums ← gen W count
    let stream ← alloc fun b => SVB.writeAllScalar b nums
    subtest do
      let out ← makeW count
      call (onAmd64 W.cpu (SVB.readAllFast count stream out))
      let eq ← call (deepEqualW nums out)
      failIf !eq

/-- `TestReadAllDeltaFast`, `/repo/pkg/stream/reader/reader_test.go:73-94`. -/
def readAllDeltaFast (W : World) : M Unit := do
  skipIf (decide (decodeMode W.cpu = .normal))
  times 6 do
    let count ← randCount W
    let nums ← gen W count
    call (sortWords W nums)
    let diffed ← makeW count
    call (utilDelta nums diffed)
    let stream ← alloc fun b => SVB.writeAllScalar b diffed
    subtest do
      let out ← makeW count
      call (onAmd64 W.cpu (SVB.readAllDeltaFast count stream out 0))
      let eq ← call (deepEqualW nums out)
      failIf !eq

/-! ## `/repo/pkg/util/varint_test.go` -/

/-- `TestVarintRoundTrip`, `/repo/pkg/util/varint_test.go:9-26`. -/
def varintRoundTrip (W : World) : M Unit := do
  let nums ← gen W 8
  let out ← makeB 40
  let written ← call (putVarint nums out)
  let out ← upto out written
  let actual ← makeW 8
  let read ← call (getVarint out actual)
  failIf (!decide (written = read))
  let eq ← call (deepEqualW nums actual)
  failIf !eq

/-- `TestVarintDeltaRoundTrip`, `/repo/pkg/util/varint_test.go:28-46`. -/
def varintDeltaRoundTrip (W : World) : M Unit := do
  let nums ← gen W 8
  call (sortWords W nums)
  let out ← makeB 40
  let written ← call (putDeltaVarint nums out 0)
  let out ← upto out written
  let actual ← makeW 8
  let read ← call (getDeltaVarint out actual 0)
  failIf (!decide (written = read))
  let eq ← call (deepEqualW nums actual)
  failIf !eq

end SVB.Tests
