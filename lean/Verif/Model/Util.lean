import Verif.Model.Prog

/-!
# Package `util`: varints, deltas, random numbers

`/repo/pkg/util/varint.go`, `/repo/pkg/util/util.go`, `/repo/pkg/util/rand.go`, and the two functions of Go's
`encoding/binary` (`varint.go`, Go ≥ 1.15; `/repo/go.mod:3` asks for 1.16) they call.  Modelled elsewhere:
`SilentClose` (`/repo/pkg/util/util.go:8-10`, closes a file) in `ScriptSem`, and `SortUint32` (`/repo/pkg/util/util.go:21-25`,
a call of `sort.Slice`) in `SortSem`.
-/

set_option autoImplicit false

namespace SVB

/-! ## `encoding/binary` -/

/-- `binary.PutUvarint(buf, x)`:
```
i := 0
for x >= 0x80 { buf[i] = byte(x) | 0x80; x >>= 7; i++ }
buf[i] = byte(x)
return i + 1
```
The loop runs at most nine times for a `uint64`. -/
def putUvarint (buf : Bytes) (x : U64) : Prog Int := do
  let s ← loop 9 (fun s : U64 × Int => decide (0x80 ≤ s.1.toNat))
    (fun s => do
      setB buf s.2 (s.1.setWidth 8 ||| 0x80)
      return (s.1 >>> 7, s.2 + 1)) (x, 0)
  setB buf s.2 (s.1.setWidth 8)
  return s.2 + 1

/-- The loop of `binary.Uvarint`, over the remaining `r` bytes of `buf`; `i`, `x`, `s` are the loop variables
of the Go code:
```
for i, b := range buf {
    if i == MaxVarintLen64 { return 0, -(i + 1) }
    if b < 0x80 {
        if i == MaxVarintLen64-1 && b > 1 { return 0, -(i + 1) }
        return x | uint64(b)<<s, i + 1
    }
    x |= uint64(b&0x7f) << s
    s += 7
}
return 0, 0
```
-/
def uvarintLoop (buf : Bytes) : Nat → Nat → U64 → Nat → Prog (U64 × Int)
  | 0, _, _, _ => return (0, 0)
  | r + 1, i, x, s => do
    let b ← getB buf i
    if i = 10 then return (0, -(i + 1))
    if b.toNat < 0x80 then
      if i = 9 ∧ 1 < b.toNat then return (0, -(i + 1))
      return (x ||| (b.setWidth 64 <<< s), i + 1)
    uvarintLoop buf r (i + 1) (x ||| ((b &&& 0x7f).setWidth 64 <<< s)) (s + 7)

/-- `binary.Uvarint(buf)`: value and number of bytes; 0 bytes if `buf` ends too early, a negative number if
the value does not fit. -/
def uvarint (buf : Bytes) : Prog (U64 × Int) := uvarintLoop buf buf.len 0 0 0

/-! ## `/repo/pkg/util/varint.go` -/

/-- `PutVarint`, `/repo/pkg/util/varint.go:5-13`.  State: `i`, `pos`. -/
def putVarint (nums : U32s) (out : Bytes) : Prog Int := do
  let s ← loop nums.len (fun s : Int × Int => decide (s.1 < nums.len))
    (fun s => do
      let o ← out.from s.2
      let v ← getW nums s.1
      let size ← putUvarint o (v.setWidth 64)
      return (s.1 + 1, int64 (s.2 + size))) (0, 0)
  return s.2

/-- `GetVarint`, `/repo/pkg/util/varint.go:15-25`.  State: `pos`, `i`.  The loop has no bound of its own; the
bound `len(out) + 1` on the number of iterations is one of the theorems. -/
def getVarint (data : Bytes) (out : U32s) : Prog Int := do
  let s ← loop (out.len + 1) (fun s : Int × Int => decide (s.1 < data.len))
    (fun s => do
      let d ← data.from s.1
      let r ← uvarint d
      setW out s.2 (r.1.setWidth 32)
      return (int64 (s.1 + r.2), s.2 + 1)) (0, 0)
  return s.1

/-- `PutDeltaVarint`, `/repo/pkg/util/varint.go:27-36`.  State: `i`, `pos`, `prev`. -/
def putDeltaVarint (nums : U32s) (out : Bytes) (prev : U32) : Prog Int := do
  let s ← loop nums.len (fun s : Int × Int × U32 => decide (s.1 < nums.len))
    (fun s => do
      let o ← out.from s.2.1
      let v ← getW nums s.1
      let size ← putUvarint o ((v - s.2.2).setWidth 64)
      let prev' ← getW nums s.1
      return (s.1 + 1, int64 (s.2.1 + size), prev')) (0, 0, prev)
  return s.2.1

/-- `GetDeltaVarint`, `/repo/pkg/util/varint.go:38-51`.  State: `pos`, `i`, `prev`. -/
def getDeltaVarint (data : Bytes) (out : U32s) (prev : U32) : Prog Int := do
  let s ← loop (out.len + 1) (fun s : Int × Int × U32 => decide (s.1 < data.len))
    (fun s => do
      let d ← data.from s.1
      let r ← uvarint d
      let res := r.1.setWidth 32 + s.2.2
      setW out s.2.1 res
      return (int64 (s.1 + r.2), s.2.1 + 1, res)) (0, 0, prev)
  return s.1

/-! ## `/repo/pkg/util/util.go` -/

/-- `Delta`, `/repo/pkg/util/util.go:27-35`. -/
def utilDelta (inn out : U32s) : Prog Unit := do
  let _ ← loop inn.len (fun i : Int => decide (i < inn.len))
    (fun i => do
      if i > 0 then
        let a ← getW inn i
        let b ← getW inn (i - 1)
        setW out i (a - b)
      else
        let a ← getW inn i
        setW out i a
      return i + 1) 0
  return

/-! ## `/repo/pkg/util/rand.go`

The random source is a parameter: `r` is what `rand.Uint32()` returned, `k` what `rand.Int()` returned (a
non-negative `int`). -/

/-- `randUint32Range`, `/repo/pkg/util/rand.go:17-19`. -/
def randUint32Range (r low high : U32) : U32 := r % (high - low + 1) + low

/-- `generators`, `/repo/pkg/util/rand.go:21-40`. -/
def generators : List (U32 → U32) :=
  [fun r => randUint32Range r 0 (1 <<< 8),
   fun r => randUint32Range r (1 <<< 8) (1 <<< 16),
   fun r => randUint32Range r (1 <<< 16) (1 <<< 24),
   fun r => randUint32Range r (1 <<< 24) 0xFFFFFFFF]

/-- `RandUint32`, `/repo/pkg/util/rand.go:46-48`: `k` and `r` are the two draws.  (The index is always in range;
the default never applies.) -/
def randUint32 (k : Nat) (r : U32) : U32 := (generators.getD (k % 4) id) r

/-- `GenUint32`, `/repo/pkg/util/util.go:12-19`, for `n ≥ 0` (a negative `n` panics in `make`): the numbers of
the new slice, given the draws. -/
def genUint32 (n : Nat) (draws : Nat → Nat × U32) : List U32 :=
  (List.range n).map fun i => randUint32 (draws i).1 (draws i).2

end SVB
