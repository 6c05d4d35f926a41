import Verif.Proofs.Results
import Verif.Proofs.SpecFacts

/-! # Properties of the readers: C07–C11, C13, C14, C28 (reading), C36 -/

set_option autoImplicit false

namespace SVB.Props
open Spec

/-! ## Concrete calls, used to show that the hypotheses below can be met -/

/-- A stream of 19 numbers that no writer would produce: numbers 0 and 1 have leading zero bytes, and the
spare code of the last group is 3. -/
def exStream : List Byte :=
  [0b00000111, 0, 0b11000000, 0, 0b11100100, 5, 0, 0, 0, 9, 0, 1, 2, 3, 4, 5, 6, 7, 8, 9, 10, 11, 12, 13,
    14, 15, 16, 17, 18, 19, 20, 21, 22, 23, 24, 25, 26, 27, 28, 29, 30]

def exRMem : Mem := memWith [] exStream
/-- The stream with one byte to spare, and as capacity exactly its length. -/
def exSt : Bytes := ⟨.heap 1, 0, 35, 35⟩
def exOut : U32s := ⟨.heap 2, 0, 19, 24⟩

theorem exReader : ReaderPre 19 exSt exOut exRMem :=
  ⟨memWith_tables _ _, by decide, ⟨by decide, rfl, by decide⟩, .inl (by decide), by decide⟩

/-- A truncated call: the same stream, cut short. -/
theorem exReaderShort : ReaderPre 19 { exSt with len := 33 } exOut exRMem :=
  ⟨memWith_tables _ _, by decide, ⟨by decide, rfl, by decide⟩, .inl (by decide), by decide⟩

/-- Bytes a stream of `n` numbers needs according to its own control bytes. -/
def needed (m : Mem) (st : Bytes) (n : Nat) : Nat := ctrlLen n + (lengths n (bytesOf m st)).sum

example : needed exRMem exSt 19 = 34 := by decide +kernel
example : decode 19 (bytesOf exRMem exSt) =
    some [5, 9, 1, 2, 3, 4, 5, 6, 7, 8, 9, 0x0d0c0b0a, 14, 15, 16, 17, 18, 0x1413, 0x171615] := by
  decide +kernel

/-! ## Statements shared by the scalar and the vectorised readers -/

theorem read_ok (f : Fn) {n : Nat} {st : Bytes} {out : U32s} {m : Mem} (h : ReaderPre n st out m)
    (hlen : needed m st n ≤ st.len) :
    ∃ xs m', decode n (bytesOf m st) = some xs ∧ run (f.read n st out) m = (.ok (), m') ∧
      wordsN m' out n = xs := by
  have hl := bytesOf_length m st
  obtain ⟨xs, hx⟩ := decode_isSome.2 (show _ ≤ (bytesOf m st).length by rw [hl]; exact hlen)
  have hr := (read_result f h).1
  rw [hx] at hr
  obtain ⟨m', h1, h2⟩ := hr
  exact ⟨xs, m', hx, h1, h2⟩

theorem readDelta_ok (f : Fn) {n : Nat} {st : Bytes} {out : U32s} {m : Mem} (prev : U32)
    (h : ReaderPre n st out m) (hlen : needed m st n ≤ st.len) :
    ∃ xs m', decode n (bytesOf m st) = some xs ∧ run (f.readDelta n st out prev) m = (.ok (), m') ∧
      wordsN m' out n = undelta prev xs := by
  have hl := bytesOf_length m st
  obtain ⟨xs, hx⟩ := decode_isSome.2 (show _ ≤ (bytesOf m st).length by rw [hl]; exact hlen)
  have hr := (readDelta_result f prev h).1
  rw [decodeDelta, hx] at hr
  obtain ⟨m', h1, h2⟩ := hr
  exact ⟨xs, m', hx, h1, h2⟩

theorem read_panic_iff (f : Fn) {n : Nat} {st : Bytes} {out : U32s} {m : Mem} (h : ReaderPre n st out m) :
    (∃ k m', run (f.read n st out) m = (.panic k, m')) ↔ st.len < needed m st n := by
  constructor
  · rintro ⟨k, m', hk⟩
    refine Nat.lt_of_not_le fun hle => ?_
    obtain ⟨xs, m'', -, h1, -⟩ := read_ok f h hle
    rw [h1] at hk; cases hk
  · intro hlt
    have hr := (read_result f h).1
    have : decode n (bytesOf m st) = none := decode_none.2 (by rw [bytesOf_length]; exact hlt)
    rw [this] at hr
    obtain ⟨k, m', h1, -⟩ := hr
    exact ⟨k, m', h1⟩

theorem readDelta_panic_iff (f : Fn) {n : Nat} {st : Bytes} {out : U32s} {m : Mem} (prev : U32)
    (h : ReaderPre n st out m) :
    (∃ k m', run (f.readDelta n st out prev) m = (.panic k, m')) ↔ st.len < needed m st n := by
  constructor
  · rintro ⟨k, m', hk⟩
    refine Nat.lt_of_not_le fun hle => ?_
    obtain ⟨xs, m'', -, h1, -⟩ := readDelta_ok f prev h hle
    rw [h1] at hk; cases hk
  · intro hlt
    have hr := (readDelta_result f prev h).1
    have : decode n (bytesOf m st) = none := decode_none.2 (by rw [bytesOf_length]; exact hlt)
    rw [decodeDelta, this] at hr
    obtain ⟨k, m', h1, -⟩ := hr
    exact ⟨k, m', h1⟩

/-! ## C07, C08: decoding -/

/-- C07: on every stream with enough bytes, `ReadAllScalar` returns the numbers the format defines. -/
theorem C07_readAllScalar {n : Nat} {st : Bytes} {out : U32s} {m : Mem} (h : ReaderPre n st out m)
    (hlen : needed m st n ≤ st.len) :
    ∃ xs m', decode n (bytesOf m st) = some xs ∧ run (readAllScalar n st out) m = (.ok (), m') ∧
      wordsN m' out n = xs :=
  read_ok .scalar h hlen

theorem C07_readAllDeltaScalar {n : Nat} {st : Bytes} {out : U32s} {m : Mem} (prev : U32)
    (h : ReaderPre n st out m) (hlen : needed m st n ≤ st.len) :
    ∃ xs m', decode n (bytesOf m st) = some xs ∧ run (readAllDeltaScalar n st out prev) m = (.ok (), m') ∧
      wordsN m' out n = undelta prev xs :=
  readDelta_ok .scalar prev h hlen

/-- C08. -/
theorem C08_readAllFast {n : Nat} {st : Bytes} {out : U32s} {m : Mem} (h : ReaderPre n st out m)
    (hlen : needed m st n ≤ st.len) :
    ∃ xs m', decode n (bytesOf m st) = some xs ∧ run (readAllFast n st out) m = (.ok (), m') ∧
      wordsN m' out n = xs :=
  read_ok .fast h hlen

theorem C08_readAllDeltaFast {n : Nat} {st : Bytes} {out : U32s} {m : Mem} (prev : U32)
    (h : ReaderPre n st out m) (hlen : needed m st n ≤ st.len) :
    ∃ xs m', decode n (bytesOf m st) = some xs ∧ run (readAllDeltaFast n st out prev) m = (.ok (), m') ∧
      wordsN m' out n = undelta prev xs :=
  readDelta_ok .fast prev h hlen

-- The hypotheses of C07 and C08 hold for the concrete stream.
example : ReaderPre 19 exSt exOut exRMem ∧ needed exRMem exSt 19 ≤ exSt.len :=
  ⟨exReader, by decide +kernel⟩

/-! ## C09, C10: truncation -/

/-- C09. -/
theorem C09_readAllScalar_panic_iff {n : Nat} {st : Bytes} {out : U32s} {m : Mem} (h : ReaderPre n st out m) :
    (∃ k m', run (readAllScalar n st out) m = (.panic k, m')) ↔ st.len < needed m st n :=
  read_panic_iff .scalar h

theorem C09_readAllDeltaScalar_panic_iff {n : Nat} {st : Bytes} {out : U32s} {m : Mem} (prev : U32)
    (h : ReaderPre n st out m) :
    (∃ k m', run (readAllDeltaScalar n st out prev) m = (.panic k, m')) ↔ st.len < needed m st n :=
  readDelta_panic_iff .scalar prev h

/-- C10. -/
theorem C10_readAllFast_panic_iff {n : Nat} {st : Bytes} {out : U32s} {m : Mem} (h : ReaderPre n st out m) :
    (∃ k m', run (readAllFast n st out) m = (.panic k, m')) ↔ st.len < needed m st n :=
  read_panic_iff .fast h

theorem C10_readAllDeltaFast_panic_iff {n : Nat} {st : Bytes} {out : U32s} {m : Mem} (prev : U32)
    (h : ReaderPre n st out m) :
    (∃ k m', run (readAllDeltaFast n st out prev) m = (.panic k, m')) ↔ st.len < needed m st n :=
  readDelta_panic_iff .fast prev h

/-- The panic is always one of Go's bounds panics, for every reader on every CPU. -/
theorem C10_panic_kind (f : Fn) {n : Nat} {st : Bytes} {out : U32s} {m m' : Mem} {k : Panic}
    (h : ReaderPre n st out m) (hr : run (f.read n st out) m = (.panic k, m')) : BoundsPanic k := by
  have h1 := (read_result f h).1
  split at h1
  · obtain ⟨m'', e, -⟩ := h1
    rw [e] at hr; cases hr
  · obtain ⟨k', m'', e, hk⟩ := h1
    rw [e] at hr; cases hr; exact hk

theorem C10_delta_panic_kind (f : Fn) {n : Nat} {st : Bytes} {out : U32s} {m m' : Mem} {k : Panic} (prev : U32)
    (h : ReaderPre n st out m) (hr : run (f.readDelta n st out prev) m = (.panic k, m')) : BoundsPanic k := by
  have h1 := (readDelta_result f prev h).1
  split at h1
  · obtain ⟨m'', e, -⟩ := h1
    rw [e] at hr; cases hr
  · obtain ⟨k', m'', e, hk⟩ := h1
    rw [e] at hr; cases hr; exact hk

-- Both sides of the equivalence occur: 35 bytes are enough, 33 are not.
example : ReaderPre 19 { exSt with len := 33 } exOut exRMem ∧
    ({ exSt with len := 33 } : Bytes).len < needed exRMem { exSt with len := 33 } 19 :=
  ⟨exReaderShort, by decide +kernel⟩

/-! ## C11: only `out[0:count]` is written -/

/-- C11: every store of every reader, whether it returns or panics, is into `out[0:n]`. -/
theorem C11_stores (f : Fn) {n : Nat} {st : Bytes} {out : U32s} {m : Mem} (h : ReaderPre n st out m) (q : Ptr)
    (hq : Event.wr q ∈ trace (f.read n st out) m) : inFirst out n q :=
  read_foot f h _ hq

theorem C11_delta_stores (f : Fn) {n : Nat} {st : Bytes} {out : U32s} {m : Mem} (prev : U32)
    (h : ReaderPre n st out m) (q : Ptr) (hq : Event.wr q ∈ trace (f.readDelta n st out prev) m) :
    inFirst out n q :=
  readDelta_foot f prev h _ hq

/-- C11, in terms of the final memory. -/
theorem C11_frame (f : Fn) {n : Nat} {st : Bytes} {out : U32s} {m : Mem} (h : ReaderPre n st out m) (q : Ptr)
    (hq : ¬ inFirst out n q) : (run (f.read n st out) m).2 q = m q :=
  (read_result f h).2 q hq

theorem C11_delta_frame (f : Fn) {n : Nat} {st : Bytes} {out : U32s} {m : Mem} (prev : U32)
    (h : ReaderPre n st out m) (q : Ptr) (hq : ¬ inFirst out n q) :
    (run (f.readDelta n st out prev) m).2 q = m q :=
  (readDelta_result f prev h).2 q hq

/-! ## C13: loads of the readers

The claim is false as stated for the vectorised readers: when `count` is not a multiple of 4 the second
16-byte load can reach past the end of the stream. -/

/-- Counterexample to C13: seventeen one-byte numbers, stream of exactly 22 bytes. -/
def exOver : Bytes := ⟨.heap 1, 0, 22, 22⟩
def exOverOut : U32s := ⟨.heap 2, 0, 17, 17⟩

theorem exOverPre : ReaderPre 17 exOver exOverOut initMem :=
  ⟨initMem_tables, by decide, ⟨by decide, rfl, by decide⟩, .inl (by decide), by decide⟩

theorem C13_false_readAllFast :
    ∃ (n : Nat) (st : Bytes) (out : U32s) (m : Mem), ReaderPre n st out m ∧ needed m st n ≤ st.len ∧
      ∃ q, Event.rd q ∈ trace (readAllFast n st out) m ∧ q.blk = st.blk ∧ st.off + st.cap ≤ q.off :=
  ⟨17, exOver, exOverOut, initMem, exOverPre, by decide +kernel, ⟨.heap 1, 24⟩, by decide +kernel, rfl,
    by decide⟩

theorem C13_false_readAllDeltaFast :
    ∃ (n : Nat) (st : Bytes) (out : U32s) (m : Mem) (prev : U32), ReaderPre n st out m ∧
      needed m st n ≤ st.len ∧
      ∃ q, Event.rd q ∈ trace (readAllDeltaFast n st out prev) m ∧ q.blk = st.blk ∧ st.off + st.cap ≤ q.off :=
  ⟨17, exOver, exOverOut, initMem, 0, exOverPre, by decide +kernel, ⟨.heap 1, 24⟩, by decide +kernel, rfl,
    by decide⟩

/-- What holds instead, first form: no load beyond the stream when `count` is a multiple of four. -/
theorem C13_readAllFast_mult4_partial {n : Nat} {st : Bytes} {out : U32s} {m : Mem} (h : ReaderPre n st out m)
    (hlen : needed m st n ≤ st.len) (h4 : n % 4 = 0) (q : Ptr)
    (hq : Event.rd q ∈ trace (readAllFast n st out) m) : inSlice st q ∨ inTables q := by
  rcases read_foot .fast h _ hq with h1 | h1 | ⟨-, h1, -, h2, -⟩
  · exact .inl h1
  · exact .inr h1
  · have := lengths_sum m st n (by unfold needed at hlen; omega)
    unfold needed at hlen
    rw [this] at hlen
    have hB : rB st n = st.off + ctrlLen n := rfl
    omega

theorem C13_readAllDeltaFast_mult4_partial {n : Nat} {st : Bytes} {out : U32s} {m : Mem} (prev : U32)
    (h : ReaderPre n st out m) (hlen : needed m st n ≤ st.len) (h4 : n % 4 = 0) (q : Ptr)
    (hq : Event.rd q ∈ trace (readAllDeltaFast n st out prev) m) :
    inSlice st q ∨ inTables q ∨ inFirst out n q := by
  rcases readDelta_foot .fast prev h _ hq with h1 | h1 | h1 | ⟨-, h1, -, h2, -⟩
  · exact .inl h1
  · exact .inr (.inl h1)
  · exact .inr (.inr h1)
  · have := lengths_sum m st n (by unfold needed at hlen; omega)
    unfold needed at hlen
    rw [this] at hlen
    have hB : rB st n = st.off + ctrlLen n := rfl
    omega

/-- Second form, every count: a load outside stream and tables hits one of the `(4 - n % 4) % 4 ≤ 3` bytes
that follow the last encoded number. -/
theorem C13_readAllFast_partial {n : Nat} {st : Bytes} {out : U32s} {m : Mem} (h : ReaderPre n st out m)
    (hlen : needed m st n ≤ st.len) (q : Ptr) (hq : Event.rd q ∈ trace (readAllFast n st out) m) :
    inSlice st q ∨ inTables q ∨
      (q.blk = st.blk ∧ st.off + st.len ≤ q.off ∧ q.off < st.off + needed m st n + (4 - n % 4) % 4) := by
  rcases read_foot .fast h _ hq with h1 | h1 | ⟨h0, h1, -, h2, -⟩
  · exact .inl h1
  · exact .inr (.inl h1)
  · have := lengths_sum m st n (by unfold needed at hlen; omega)
    unfold needed at hlen ⊢
    rw [this] at hlen ⊢
    have hB : rB st n = st.off + ctrlLen n := rfl
    exact .inr (.inr ⟨h0, h1, by omega⟩)

theorem C13_readAllDeltaFast_partial {n : Nat} {st : Bytes} {out : U32s} {m : Mem} (prev : U32)
    (h : ReaderPre n st out m) (hlen : needed m st n ≤ st.len) (q : Ptr)
    (hq : Event.rd q ∈ trace (readAllDeltaFast n st out prev) m) :
    inSlice st q ∨ inTables q ∨ inFirst out n q ∨
      (q.blk = st.blk ∧ st.off + st.len ≤ q.off ∧ q.off < st.off + needed m st n + (4 - n % 4) % 4) := by
  rcases readDelta_foot .fast prev h _ hq with h1 | h1 | h1 | ⟨h0, h1, -, h2, -⟩
  · exact .inl h1
  · exact .inr (.inl h1)
  · exact .inr (.inr (.inl h1))
  · have := lengths_sum m st n (by unfold needed at hlen; omega)
    unfold needed at hlen ⊢
    rw [this] at hlen ⊢
    have hB : rB st n = st.off + ctrlLen n := rfl
    exact .inr (.inr (.inr ⟨h0, h1, by omega⟩))

/-- Third form, every stream (also truncated ones, before the panic): at most 32 bytes past the end. -/
theorem C13_readAllFast_any_stream_partial {n : Nat} {st : Bytes} {out : U32s} {m : Mem}
    (h : ReaderPre n st out m) (q : Ptr) (hq : Event.rd q ∈ trace (readAllFast n st out) m) :
    inTables q ∨ (q.blk = st.blk ∧ st.off ≤ q.off ∧ q.off < st.off + st.len + 32) := by
  rcases read_foot .fast h _ hq with ⟨h1, h2, h3⟩ | h1 | ⟨h0, h1, h2, -, -⟩
  · exact .inr ⟨h1, h2, by omega⟩
  · exact .inl h1
  · exact .inr ⟨h0, by omega, h2⟩

theorem C13_readAllDeltaFast_any_stream_partial {n : Nat} {st : Bytes} {out : U32s} {m : Mem} (prev : U32)
    (h : ReaderPre n st out m) (q : Ptr) (hq : Event.rd q ∈ trace (readAllDeltaFast n st out prev) m) :
    inTables q ∨ inFirst out n q ∨ (q.blk = st.blk ∧ st.off ≤ q.off ∧ q.off < st.off + st.len + 32) := by
  rcases readDelta_foot .fast prev h _ hq with ⟨h1, h2, h3⟩ | h1 | h1 | ⟨h0, h1, h2, -, -⟩
  · exact .inr (.inr ⟨h1, h2, by omega⟩)
  · exact .inl h1
  · exact .inr (.inl h1)
  · exact .inr (.inr ⟨h0, by omega, h2⟩)

/-- The scalar readers do load only stream bytes (and, for the delta reader, the numbers just written),
on every stream and before every panic. -/
theorem C13_readAllScalar_loads {n : Nat} {st : Bytes} {out : U32s} {m : Mem} (h : ReaderPre n st out m) (q : Ptr)
    (hq : Event.rd q ∈ trace (readAllScalar n st out) m) : inSlice st q ∨ inTables q := by
  rcases readScalar_foot h _ hq with h1 | h1 | h1
  · exact .inl h1
  · exact .inr h1
  · exact h1.elim

theorem C13_readAllDeltaScalar_loads {n : Nat} {st : Bytes} {out : U32s} {m : Mem} (prev : U32)
    (h : ReaderPre n st out m) (q : Ptr) (hq : Event.rd q ∈ trace (readAllDeltaScalar n st out prev) m) :
    inSlice st q ∨ inTables q ∨ inFirst out n q :=
  readDeltaScalar_foot prev h _ hq

-- `n % 4 = 0` with the assembly in use: twenty one-byte numbers.
example : ReaderPre 20 ⟨.heap 1, 0, 25, 25⟩ ⟨.heap 2, 0, 20, 20⟩ initMem ∧
    needed initMem ⟨.heap 1, 0, 25, 25⟩ 20 ≤ 25 ∧
    Event.rd ⟨.heap 1, 24⟩ ∈ trace (readAllFast 20 ⟨.heap 1, 0, 25, 25⟩ ⟨.heap 2, 0, 20, 20⟩) initMem :=
  ⟨⟨initMem_tables, by decide, ⟨by decide, rfl, by decide⟩, .inl (by decide), by decide⟩,
    by decide +kernel, by decide +kernel⟩

/-! ## C14: the result depends on the stream only -/

/-- C14: two memories that agree on the `needed` bytes at the start of the stream (the rest of the stream,
the bytes after it, the old contents of `out` and everything else may differ): both calls return and leave
the same numbers, even with different readers on different CPUs. -/
theorem C14_read (f g : Fn) {n : Nat} {st : Bytes} {out : U32s} {m₁ m₂ : Mem} (h₁ : ReaderPre n st out m₁)
    (h₂ : ReaderPre n st out m₂) (hlen : needed m₁ st n ≤ st.len)
    (heq : ∀ i < needed m₁ st n, m₁ ⟨st.blk, st.off + i⟩ = m₂ ⟨st.blk, st.off + i⟩) :
    ∃ m₁' m₂', run (f.read n st out) m₁ = (.ok (), m₁') ∧ run (g.read n st out) m₂ = (.ok (), m₂') ∧
      wordsN m₁' out n = wordsN m₂' out n := by
  obtain ⟨xs, m₁', e1, r1, w1⟩ := read_ok f h₁ hlen
  have ht : (bytesOf m₁ st).take (needed m₁ st n) = (bytesOf m₂ st).take (needed m₁ st n) := by
    unfold bytesOf
    rw [← List.map_take, ← List.map_take, List.take_range]
    apply List.map_congr_left
    intro i hi
    rw [List.mem_range] at hi
    exact heq i (by omega)
  have e2 := decode_append (decode_trunc e1 (Nat.le_refl _)) ((bytesOf m₂ st).drop (needed m₁ st n))
  rw [show ctrlLen n + (lengths n (bytesOf m₁ st)).sum = needed m₁ st n from rfl, ht,
    List.take_append_drop] at e2
  have hr := (read_result g h₂).1
  rw [e2] at hr
  obtain ⟨m₂', r2, w2⟩ := hr
  exact ⟨m₁', m₂', r1, r2, by rw [w1, w2]⟩

theorem C14_readDelta (f g : Fn) {n : Nat} {st : Bytes} {out : U32s} {m₁ m₂ : Mem} (prev : U32)
    (h₁ : ReaderPre n st out m₁) (h₂ : ReaderPre n st out m₂) (hlen : needed m₁ st n ≤ st.len)
    (heq : ∀ i < needed m₁ st n, m₁ ⟨st.blk, st.off + i⟩ = m₂ ⟨st.blk, st.off + i⟩) :
    ∃ m₁' m₂', run (f.readDelta n st out prev) m₁ = (.ok (), m₁') ∧
      run (g.readDelta n st out prev) m₂ = (.ok (), m₂') ∧ wordsN m₁' out n = wordsN m₂' out n := by
  obtain ⟨xs, m₁', e1, r1, w1⟩ := readDelta_ok f prev h₁ hlen
  have ht : (bytesOf m₁ st).take (needed m₁ st n) = (bytesOf m₂ st).take (needed m₁ st n) := by
    unfold bytesOf
    rw [← List.map_take, ← List.map_take, List.take_range]
    apply List.map_congr_left
    intro i hi
    rw [List.mem_range] at hi
    exact heq i (by omega)
  have e2 := decode_append (decode_trunc e1 (Nat.le_refl _)) ((bytesOf m₂ st).drop (needed m₁ st n))
  rw [show ctrlLen n + (lengths n (bytesOf m₁ st)).sum = needed m₁ st n from rfl, ht,
    List.take_append_drop] at e2
  have hr := (readDelta_result g prev h₂).1
  rw [decodeDelta, e2] at hr
  obtain ⟨m₂', r2, w2⟩ := hr
  exact ⟨m₁', m₂', r1, r2, by rw [w1, w2]⟩

-- The over-read bytes of the counterexample to C13 may hold anything.
example : let m₂ := memWith [] (List.replicate 22 0 ++ [1, 2, 3])
    ReaderPre 17 exOver exOverOut initMem ∧ ReaderPre 17 exOver exOverOut m₂ ∧
    needed initMem exOver 17 = 22 ∧ initMem ⟨.heap 1, 24⟩ ≠ m₂ ⟨.heap 1, 24⟩ ∧
    ∀ i < 22, initMem ⟨exOver.blk, exOver.off + i⟩ = m₂ ⟨exOver.blk, exOver.off + i⟩ :=
  ⟨exOverPre, ⟨memWith_tables _ _, by decide, ⟨by decide, rfl, by decide⟩, .inl (by decide), by decide⟩,
    by decide +kernel, by decide +kernel, by decide +kernel⟩

/-! ## C36: longer streams, smaller counts -/

/-- C36: appending bytes to a stream that is long enough does not change the numbers read. -/
theorem C36_extra_bytes (f g : Fn) {n : Nat} {st st' : Bytes} {out out' : U32s} {m m' : Mem}
    (h : ReaderPre n st out m) (h' : ReaderPre n st' out' m') (hlen : needed m st n ≤ st.len)
    (hpre : bytesOf m st <+: bytesOf m' st') :
    ∃ m₁ m₂, run (f.read n st out) m = (.ok (), m₁) ∧ run (g.read n st' out' ) m' = (.ok (), m₂) ∧
      wordsN m₁ out n = wordsN m₂ out' n := by
  obtain ⟨xs, m₁, e1, r1, w1⟩ := read_ok f h hlen
  obtain ⟨t, ht⟩ := hpre
  have hr := (read_result g h').1
  rw [← ht, decode_append e1] at hr
  obtain ⟨m₂, r2, w2⟩ := hr
  exact ⟨m₁, m₂, r1, r2, by rw [w1, w2]⟩

theorem C36_extra_bytes_delta (f g : Fn) {n : Nat} {st st' : Bytes} {out out' : U32s} {m m' : Mem} (prev : U32)
    (h : ReaderPre n st out m) (h' : ReaderPre n st' out' m') (hlen : needed m st n ≤ st.len)
    (hpre : bytesOf m st <+: bytesOf m' st') :
    ∃ m₁ m₂, run (f.readDelta n st out prev) m = (.ok (), m₁) ∧
      run (g.readDelta n st' out' prev) m' = (.ok (), m₂) ∧ wordsN m₁ out n = wordsN m₂ out' n := by
  obtain ⟨xs, m₁, e1, r1, w1⟩ := readDelta_ok f prev h hlen
  obtain ⟨t, ht⟩ := hpre
  have hr := (readDelta_result g prev h').1
  rw [← ht, decodeDelta, decode_append e1] at hr
  obtain ⟨m₂, r2, w2⟩ := hr
  exact ⟨m₁, m₂, r1, r2, by rw [w1, w2]⟩

/-- C36: reading fewer numbers out of the same number of groups gives the first ones. -/
theorem C36_fewer (f g : Fn) {n k : Nat} {st : Bytes} {out out' : U32s} {m : Mem} (h : ReaderPre n st out m)
    (h' : ReaderPre k st out' m) (hk : k ≤ n) (hg : ctrlLen k = ctrlLen n) (hlen : needed m st n ≤ st.len) :
    ∃ m₁ m₂, run (f.read n st out) m = (.ok (), m₁) ∧ run (g.read k st out') m = (.ok (), m₂) ∧
      wordsN m₂ out' k = (wordsN m₁ out n).take k := by
  obtain ⟨xs, m₁, e1, r1, w1⟩ := read_ok f h hlen
  have hr := (read_result g h').1
  rw [decode_take e1 hk hg] at hr
  obtain ⟨m₂, r2, w2⟩ := hr
  exact ⟨m₁, m₂, r1, r2, by rw [w1, w2]⟩

theorem C36_fewer_delta (f g : Fn) {n k : Nat} {st : Bytes} {out out' : U32s} {m : Mem} (prev : U32)
    (h : ReaderPre n st out m) (h' : ReaderPre k st out' m) (hk : k ≤ n) (hg : ctrlLen k = ctrlLen n)
    (hlen : needed m st n ≤ st.len) :
    ∃ m₁ m₂, run (f.readDelta n st out prev) m = (.ok (), m₁) ∧
      run (g.readDelta k st out' prev) m = (.ok (), m₂) ∧ wordsN m₂ out' k = (wordsN m₁ out n).take k := by
  obtain ⟨xs, m₁, e1, r1, w1⟩ := readDelta_ok f prev h hlen
  have hr := (readDelta_result g prev h').1
  rw [decodeDelta, decode_take e1 hk hg] at hr
  obtain ⟨m₂, r2, w2⟩ := hr
  exact ⟨m₁, m₂, r1, r2, by rw [w1, w2, undelta_take]⟩

-- Seventeen and nineteen numbers have five groups each.
example : ReaderPre 17 exSt exOut exRMem ∧ ctrlLen 17 = ctrlLen 19 ∧ 17 ≤ 19 :=
  ⟨⟨memWith_tables _ _, by decide, ⟨by decide, rfl, by decide⟩, .inl (by decide), by decide⟩, rfl, by decide⟩

/-! ## C28: reading in batches -/

/-- C28 (reading): if the numbers of stream `c` are those of `a` followed by those of `b`, then reading `a`
with base `prev` and `b` with the last number read (or `prev` when `a` is empty) as base gives what reading
`c` with base `prev` gives. -/
theorem C28_read_chain (f g h : Fn) {na nb : Nat} {sa sb sc : Bytes} {oa ob oc : U32s} {ma mb mc : Mem}
    (prev : U32) (ha : ReaderPre na sa oa ma) (hb : ReaderPre nb sb ob mb) (hc : ReaderPre (na + nb) sc oc mc)
    {da db : List U32} (ea : decode na (bytesOf ma sa) = some da) (eb : decode nb (bytesOf mb sb) = some db)
    (ec : decode (na + nb) (bytesOf mc sc) = some (da ++ db)) :
    ∃ ma' mb' mc', run (f.readDelta na sa oa prev) ma = (.ok (), ma') ∧
      run (g.readDelta nb sb ob ((wordsN ma' oa na).getLast?.getD prev)) mb = (.ok (), mb') ∧
      run (h.readDelta (na + nb) sc oc prev) mc = (.ok (), mc') ∧
      wordsN mc' oc (na + nb) = wordsN ma' oa na ++ wordsN mb' ob nb := by
  have h1 := (readDelta_result f prev ha).1
  rw [decodeDelta, ea] at h1
  obtain ⟨ma', r1, w1⟩ := h1
  have h2 := (readDelta_result g ((wordsN ma' oa na).getLast?.getD prev) hb).1
  rw [decodeDelta, eb] at h2
  obtain ⟨mb', r2, w2⟩ := h2
  have h3 := (readDelta_result h prev hc).1
  rw [decodeDelta, ec] at h3
  obtain ⟨mc', r3, w3⟩ := h3
  refine ⟨ma', mb', mc', r1, r2, r3, ?_⟩
  rw [w3, w2, w1, undelta_append]

example : decode 4 [0, 1, 2, 3, 4] = some [1, 2, 3, 4] ∧ decode 3 [0, 5, 6, 7] = some [5, 6, 7] ∧
    decode (4 + 3) [0, 0, 1, 2, 3, 4, 5, 6, 7] = some ([1, 2, 3, 4] ++ [5, 6, 7]) := by decide +kernel

end SVB.Props
