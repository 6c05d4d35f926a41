import Verif.Proofs.Word32
import Verif.Props.RoundTrip

/-! # C76: platforms where `int` has 32 bits

`maxWords32` is the longest input for which the worst-case size of the stream fits a 32-bit `int`.  On such a platform a
`[]uint32` has fewer than 2³⁰ elements and a `[]byte` fewer than 2³¹, because neither exceeds 2³¹ bytes. -/

set_option autoImplicit false

namespace SVB.Props
open Spec

/-- ⌈n/4⌉ + 4n < 2³¹ exactly for n up to this number. -/
def maxWords32 : Nat := 505290269

theorem C76_maxWords32 (n : Nat) : ctrlLen n + 4 * n < 2 ^ 31 ↔ n ≤ maxWords32 := by
  unfold ctrlLen maxWords32
  omega

/-- Up to `maxWords32` numbers, the writers behave step by step as where `int` has 64 bits. -/
theorem C76_write_same (fresh : Block) (inn : U32s) (prev : U32) (h : inn.len ≤ maxWords32) :
    Word32.writeAllScalar fresh inn = writeAllScalar fresh inn ∧
      Word32.writeAllDeltaScalar fresh inn prev = writeAllDeltaScalar fresh inn prev :=
  have h' := (C76_maxWords32 inn.len).2 h
  ⟨Word32.writeAllScalar_eq fresh inn h', Word32.writeAllDeltaScalar_eq fresh inn prev h'⟩

/-- The writers return the stream of the numbers. -/
theorem C76_write {fresh : Block} {inn : U32s} {m : Mem} (h : WriterPre fresh inn m) (hn : inn.len ≤ maxWords32) :
    ∃ r m', run (Word32.writeAllScalar fresh inn) m = (.ok r, m') ∧ bytesOf m' r = encode (wordsOf m inn) := by
  rw [(C76_write_same fresh inn 0 hn).1]
  exact C01_writeAllScalar h

theorem C76_writeDelta {fresh : Block} {inn : U32s} {m : Mem} (prev : U32) (h : WriterPre fresh inn m)
    (hn : inn.len ≤ maxWords32) :
    ∃ r m', run (Word32.writeAllDeltaScalar fresh inn prev) m = (.ok r, m') ∧
      bytesOf m' r = encode (delta prev (wordsOf m inn)) := by
  rw [(C76_write_same fresh inn prev hn).2]
  exact C03_writeAllDeltaScalar prev h

/-- Every longer input makes the writers panic, whatever the numbers: no wrong stream is returned. -/
theorem C76_write_overflow (fresh : Block) {inn : U32s} (prev : U32) (m : Mem) (hi : inn.len ≤ inn.cap)
    (hn : maxWords32 < inn.len) (hn' : inn.len < 2 ^ 30) :
    (∃ m', run (Word32.writeAllScalar fresh inn) m = (.panic .slice, m')) ∧
      ∃ m', run (Word32.writeAllDeltaScalar fresh inn prev) m = (.panic .slice, m') := by
  have h : 2 ^ 31 ≤ ctrlLen inn.len + 4 * inn.len := by
    have := (C76_maxWords32 inn.len).1
    omega
  exact ⟨Word32.writeAllScalar_ovf fresh inn hi hn' h m, Word32.writeAllDeltaScalar_ovf fresh inn prev hi hn' h m⟩

/-- With all 32-bit counts but the last three, the readers behave step by step as where `int` has 64 bits: whatever the
stream, the output and the contents of the memory, and also with a negative count. -/
theorem C76_read_same {count : Int} {st : Bytes} (out : U32s) (prev : U32) (h1 : -2 ^ 31 ≤ count) (h2 : count < 2 ^ 31 - 3)
    (hst : st.len < 2 ^ 31) :
    Word32.readAllScalar count st out = readAllScalar count st out ∧
      Word32.readAllDeltaScalar count st out prev = readAllDeltaScalar count st out prev :=
  ⟨Word32.readAllScalar_eq out h1 h2 hst, Word32.readAllDeltaScalar_eq out prev h1 h2 hst⟩

/-- With the last three they panic before the first memory access. -/
theorem C76_read_overflow {count : Int} (st : Bytes) (out : U32s) (prev : U32) (h1 : 2 ^ 31 - 3 ≤ count) (h2 : count < 2 ^ 31) :
    Word32.readAllScalar count st out = .panic .slice ∧ Word32.readAllDeltaScalar count st out prev = .panic .slice :=
  ⟨Word32.readAllScalar_ovf st out h1 h2, Word32.readAllDeltaScalar_ovf st out prev h1 h2⟩

/-- The readers deliver the numbers in the stream. -/
theorem C76_read {n : Nat} {st : Bytes} {out : U32s} {m : Mem} (h : ReaderPre n st out m)
    (hlen : needed m st n ≤ st.len) (ho : out.len < 2 ^ 30) (hst : st.len < 2 ^ 31) :
    ∃ xs m', decode n (bytesOf m st) = some xs ∧ run (Word32.readAllScalar n st out) m = (.ok (), m') ∧
      wordsN m' out n = xs := by
  have := h.room
  rw [(C76_read_same out 0 (by omega) (by omega) hst).1]
  exact C07_readAllScalar h hlen

theorem C76_readDelta {n : Nat} {st : Bytes} {out : U32s} {m : Mem} (prev : U32) (h : ReaderPre n st out m)
    (hlen : needed m st n ≤ st.len) (ho : out.len < 2 ^ 30) (hst : st.len < 2 ^ 31) :
    ∃ xs m', decode n (bytesOf m st) = some xs ∧ run (Word32.readAllDeltaScalar n st out prev) m = (.ok (), m') ∧
      wordsN m' out n = undelta prev xs := by
  have := h.room
  rw [(C76_read_same out prev (by omega) (by omega) hst).2]
  exact C07_readAllDeltaScalar prev h hlen

/-- A stream written on a 64-bit platform, by any writer, is read on a 32-bit one. -/
theorem C76_across (w : Fn) {fresh : Block} {inn out : U32s} {m : Mem} (prev : U32) (hw : WriterPre fresh inn m)
    (ho : Valid out) (hne : out.blk ≠ fresh) (hroom : inn.len ≤ out.len) (hn : inn.len ≤ maxWords32) :
    (∃ m', run (w.write fresh inn >>= fun s => Word32.readAllScalar inn.len s out) m = (.ok (), m') ∧
      wordsN m' out inn.len = wordsOf m inn) ∧
    ∃ m', run (w.writeDelta fresh inn prev >>= fun s => Word32.readAllDeltaScalar inn.len s out prev) m = (.ok (), m') ∧
      wordsN m' out inn.len = wordsOf m inn := by
  have h' := (C76_maxWords32 inn.len).2 hn
  obtain ⟨m₁, e1, b1, -⟩ := (write_result w hw).ex
  obtain ⟨m₂, e2, b2, -⟩ := (writeDelta_result w prev hw).ex
  have c5 := C05_roundtrip w .scalar hw ho hne hroom
  have c6 := C06_roundtrip_delta w .scalar prev hw ho hne hroom
  rw [Prog.bind_eq, run_bind, e1] at c5
  rw [Prog.bind_eq, run_bind, e2] at c6
  simp only [Prog.bind_eq, run_bind, e1, e2]
  have hz1 := (sum_bounds (wordsOf m inn)).2
  have hz2 := (sum_bounds (delta prev (wordsOf m inn))).2
  rw [wordsOf_length] at hz1
  rw [delta_length, wordsOf_length] at hz2
  unfold maxWords32 at hn
  refine ⟨?_, ?_⟩
  · rw [(C76_read_same out prev (by omega) (by omega) (by
      dsimp only; rw [encode_length_sum, wordsOf_length]; omega)).1]
    exact c5
  · rw [(C76_read_same out prev (by omega) (by omega) (by
      dsimp only; rw [encode_length_sum, delta_length, wordsOf_length]; omega)).2]
    exact c6

/-- Round trip on a 32-bit platform. -/
theorem C76_roundtrip {fresh : Block} {inn out : U32s} {m : Mem} (prev : U32) (hw : WriterPre fresh inn m)
    (ho : Valid out) (hne : out.blk ≠ fresh) (hroom : inn.len ≤ out.len) (hn : inn.len ≤ maxWords32) :
    (∃ m', run (Word32.writeAllScalar fresh inn >>= fun s => Word32.readAllScalar inn.len s out) m = (.ok (), m') ∧
      wordsN m' out inn.len = wordsOf m inn) ∧
    ∃ m', run (Word32.writeAllDeltaScalar fresh inn prev >>=
        fun s => Word32.readAllDeltaScalar inn.len s out prev) m = (.ok (), m') ∧
      wordsN m' out inn.len = wordsOf m inn := by
  rw [(C76_write_same fresh inn prev hn).1, (C76_write_same fresh inn prev hn).2]
  exact C76_across .scalar prev hw ho hne hroom hn

/-! ## Concrete cases -/

example := C76_write exWriter (by decide)
example := C76_writeDelta 5 exWriter (by decide)
example : Word32.int32 (4 * (maxWords32 + 1) + 126322568) = -2 ^ 31 := by decide +kernel
-- The size of the buffer wraps to 268435452 for the longest input that fits the address space, and to 4 for another.
example : Word32.int32 (268435456 + Word32.int32 (4 * (2 ^ 30 - 1))) = 268435452 ∧
    Word32.int32 (Word32.int32 (1010580541 + 3) / 4 + Word32.int32 (4 * 1010580541)) = 4 := by decide +kernel
example := C76_write_overflow (.heap 7) (inn := ⟨.heap 0, 0, 600000000, 600000000⟩) 0 exMem (by decide) (by decide) (by decide)
example := C76_write_overflow (.heap 7) (inn := ⟨.heap 0, 0, 1010580541, 1010580541⟩) 0 exMem (by decide) (by decide) (by decide)
example := C76_read exReader (by decide +kernel) (by decide) (by decide)
example := C76_readDelta 5 exReader (by decide +kernel) (by decide) (by decide)
example := C76_read_same (count := -7) (st := exSt) exOut 0 (by decide) (by decide) (by decide)
example := C76_read_overflow (count := 2147483647) exSt exOut 0 (by decide) (by decide)
example := C76_across .fast (out := ⟨.heap 3, 0, 17, 17⟩) 5 exWriter ⟨by decide, rfl, by decide⟩ (by decide) (by decide) (by decide)
example := C76_roundtrip (out := ⟨.heap 3, 0, 17, 17⟩) 5 exWriter ⟨by decide, rfl, by decide⟩ (by decide) (by decide) (by decide)

end SVB.Props
