import Verif.Props.RoundTrip
import Verif.Proofs.Client

/-!
# C67: streams put together and taken apart block by block

A caller of the block functions chooses for every block of numbers which function takes it (`Covers bs n`: the blocks
take `n` numbers).  Whatever the choices, encoding gives the call `WriteAll` gives, and decoding a complete stream gives
the call `ReadAll` gives, with the same final memory.
-/

set_option autoImplicit false

namespace SVB.Props
open Spec

/-! ## A plan that uses everything: eight by every variant, fours between them, a rest of one -/

def exPlan : List Portion := [.rest, .eight .fast, .four, .rest]
def exPlan' : List Portion := [.eight .scalar, .eight (.auto ⟨true, true, true⟩), .rest]

example : Covers exPlan 17 ∧ Covers exPlan' 17 ∧ Covers exPlan 19 := by decide +kernel
-- eight numbers need eight
example : ¬ Covers [.eight .fast, .eight .fast, .eight .fast] 17 ∧ ¬ Covers [.eight .fast] 17 := by decide +kernel

/-! ## Encoding -/

private theorem sameRun {p q : Prog Bytes} {fresh : Block} {inn : U32s} {xs : List U32} {m : Mem}
    (hp : WriteResult p fresh inn xs m) (hq : WriteResult q fresh inn xs m) :
    run p m = run q m := by
  obtain ⟨m₁, e1, b1, f1, z1⟩ := hp.ex
  obtain ⟨m₂, e2, b2, f2, z2⟩ := hq.ex
  rw [e1, e2]
  congr 1
  funext a
  by_cases ha : Seg fresh 0 (ctrlLen inn.len + 4 * inn.len) a
  · obtain ⟨ab, ao⟩ := a
    obtain ⟨rfl, -, h3⟩ := ha
    simp only at h3
    by_cases hb : ao < (encode xs).length
    · have h := congrArg (fun l => l.getD ao 0) (b1.trans b2.symm)
      unfold bytesOf at h
      simpa [hb] using h
    · rw [z1 ao (by omega) h3, z2 ao (by omega) h3]
  · rw [f1 a ha, f2 a ha]

/-- C67: encoding block by block gives the stream of the format, in a new slice, and changes nothing else. -/
theorem C67_encode {bs : List Portion} {fresh : Block} {inn : U32s} {m : Mem} (hb : Covers bs inn.len)
    (h : WriterPre fresh inn m) :
    ∃ r m', run (encodeBy bs fresh inn) m = (.ok r, m') ∧ bytesOf m' r = encode (wordsOf m inn) ∧
      ∀ q, q.blk ≠ fresh → m' q = m q := by
  obtain ⟨m', h1, h2, h3, -⟩ := (encodeBy_result hb h).ex
  exact ⟨_, m', h1, h2, fun q hq => h3 q fun hs => hq hs.1⟩

/-- C67: the slice and the final memory are those of `WriteAll`, every variant. -/
theorem C67_encode_writeAll (f : Fn) {bs : List Portion} {fresh : Block} {inn : U32s} {m : Mem} (hb : Covers bs inn.len)
    (h : WriterPre fresh inn m) : run (encodeBy bs fresh inn) m = run (f.write fresh inn) m :=
  sameRun (encodeBy_result hb h) (write_result f h)

/-- C67 with differences. -/
theorem C67_encodeDelta {bs : List Portion} {fresh : Block} {inn : U32s} {m : Mem} (prev : U32) (hb : Covers bs inn.len)
    (h : WriterPre fresh inn m) :
    ∃ r m', run (encodeDeltaBy bs fresh inn prev) m = (.ok r, m') ∧ bytesOf m' r = encode (delta prev (wordsOf m inn)) ∧
      ∀ q, q.blk ≠ fresh → m' q = m q := by
  obtain ⟨m', h1, h2, h3, -⟩ := (encodeDeltaBy_result prev hb h).ex
  exact ⟨_, m', h1, h2, fun q hq => h3 q fun hs => hq hs.1⟩

theorem C67_encodeDelta_writeAllDelta (f : Fn) {bs : List Portion} {fresh : Block} {inn : U32s} {m : Mem} (prev : U32)
    (hb : Covers bs inn.len) (h : WriterPre fresh inn m) :
    run (encodeDeltaBy bs fresh inn prev) m = run (f.writeDelta fresh inn prev) m :=
  sameRun (encodeDeltaBy_result prev hb h) (writeDelta_result f prev h)

/-- C67: no access outside `in`, the tables and the buffer of the worst-case size, although the vector functions are
called up to the very end. -/
theorem C67_encode_bounds {bs : List Portion} {fresh : Block} {inn : U32s} {m : Mem} (prev : U32) (hb : Covers bs inn.len)
    (h : WriterPre fresh inn m) :
    ∀ e, e ∈ trace (encodeBy bs fresh inn) m ∨ e ∈ trace (encodeDeltaBy bs fresh inn prev) m →
      match e with
      | .rd q => inSlice inn q ∨ inTables q
      | .wr q => q.blk = fresh ∧ q.off < ctrlLen inn.len + 4 * inn.len := by
  intro e he
  have : (wctx fresh inn).allows e := he.elim ((encodeBy_result hb h).foot e) ((encodeDeltaBy_result prev hb h).foot e)
  cases e with
  | rd q => exact this
  | wr q => exact ⟨this.1, this.2.2⟩

example := C67_encode (bs := exPlan) (by decide +kernel) exWriter
example := C67_encode_writeAll .fast (bs := exPlan') (by decide +kernel) exWriter
example := C67_encodeDelta (bs := exPlan) 5 (by decide +kernel) exWriter
example := C67_encode_bounds (bs := exPlan') 5 (by decide +kernel) exWriter

/-! ## Decoding -/

/-- C67: decoding a complete stream block by block gives its numbers, and changes nothing else. -/
theorem C67_decode {bs : List Portion} {n : Nat} {st : Bytes} {out : U32s} {m : Mem} {xs : List U32} (hb : Covers bs n)
    (h : ReaderPre n st out m) (hx : decode n (bytesOf m st) = some xs) :
    ∃ m', run (decodeBy bs n st out) m = (.ok (), m') ∧ wordsN m' out n = xs ∧ ∀ q, ¬ inFirst out n q → m' q = m q :=
  decodeBy_result hb h hx

/-- C67: the final memory is that of `ReadAll`, every variant. -/
theorem C67_decode_readAll (f : Fn) {bs : List Portion} {n : Nat} {st : Bytes} {out : U32s} {m : Mem} (hb : Covers bs n)
    (h : ReaderPre n st out m) (hx : (decode n (bytesOf m st)).isSome) :
    run (decodeBy bs n st out) m = run (f.read n st out) m := by
  obtain ⟨xs, hx⟩ := Option.isSome_iff_exists.1 hx
  obtain ⟨m₁, r1, w1, f1⟩ := C67_decode hb h hx
  obtain ⟨h2, f2⟩ := read_result f h
  rw [hx] at h2
  obtain ⟨m₂, r2, w2⟩ := h2
  rw [r2] at f2
  rw [r1, r2, mem_eq_of_words (m₁ := m₁) (m₂ := m₂) f1 f2 (w1.trans w2.symm)]

/-- C67 with differences. -/
theorem C67_decodeDelta {bs : List Portion} {n : Nat} {st : Bytes} {out : U32s} {m : Mem} {xs : List U32} (prev : U32)
    (hb : Covers bs n) (h : ReaderPre n st out m) (hx : decodeDelta prev n (bytesOf m st) = some xs) :
    ∃ m', run (decodeDeltaBy bs n st out prev) m = (.ok (), m') ∧ wordsN m' out n = xs ∧
      ∀ q, ¬ inFirst out n q → m' q = m q :=
  decodeDeltaBy_result prev hb h hx

theorem C67_decodeDelta_readAllDelta (f : Fn) {bs : List Portion} {n : Nat} {st : Bytes} {out : U32s} {m : Mem} (prev : U32)
    (hb : Covers bs n) (h : ReaderPre n st out m) (hx : (decodeDelta prev n (bytesOf m st)).isSome) :
    run (decodeDeltaBy bs n st out prev) m = run (f.readDelta n st out prev) m := by
  obtain ⟨xs, hx⟩ := Option.isSome_iff_exists.1 hx
  obtain ⟨m₁, r1, w1, f1⟩ := C67_decodeDelta prev hb h hx
  obtain ⟨h2, f2⟩ := readDelta_result f prev h
  rw [hx] at h2
  obtain ⟨m₂, r2, w2⟩ := h2
  rw [r2] at f2
  rw [r1, r2, mem_eq_of_words (m₁ := m₁) (m₂ := m₂) f1 f2 (w1.trans w2.symm)]

example := C67_decode (bs := exPlan) (by decide +kernel) exReader
  (xs := [5, 9, 1, 2, 3, 4, 5, 6, 7, 8, 9, 0x0d0c0b0a, 14, 15, 16, 17, 18, 0x1413, 0x171615]) (by decide +kernel)
example := C67_decode_readAll .fast (bs := exPlan) (by decide +kernel) exReader (by decide +kernel)
example := C67_decodeDelta_readAllDelta .fast (bs := exPlan) 5 (by decide +kernel) exReader (by decide +kernel)

/-! ## Both -/

/-- C67: the choices of the two sides need not agree. -/
theorem C67_roundtrip {bs bs' : List Portion} {fresh : Block} {inn out : U32s} {m : Mem} (hb : Covers bs inn.len)
    (hb' : Covers bs' inn.len) (hw : WriterPre fresh inn m) (ho : Valid out) (hne : out.blk ≠ fresh)
    (hroom : inn.len ≤ out.len) :
    ∃ m', run (encodeBy bs fresh inn >>= fun s => decodeBy bs' inn.len s out) m = (.ok (), m') ∧
      wordsN m' out inn.len = wordsOf m inn := by
  obtain ⟨m₁, e1, b1, f1, -⟩ := (encodeBy_result hb hw).ex
  have hsz : (encode (wordsOf m inn)).length ≤ ctrlLen inn.len + 4 * inn.len := by
    have := (sum_bounds (wordsOf m inn)).2
    rw [encode_length_sum, wordsOf_length] at *; omega
  have hd := decode_encode (wordsOf m inn) []
  rw [List.append_nil, wordsOf_length, ← b1] at hd
  obtain ⟨m', e2, w2, -⟩ := C67_decode hb' (readerPre_after hw ho hne hroom hsz f1) hd
  refine ⟨m', ?_, w2⟩
  rw [Prog.bind_eq, run_bind, e1]
  exact e2

theorem C67_roundtrip_delta {bs bs' : List Portion} {fresh : Block} {inn out : U32s} {m : Mem} (prev : U32)
    (hb : Covers bs inn.len) (hb' : Covers bs' inn.len) (hw : WriterPre fresh inn m) (ho : Valid out)
    (hne : out.blk ≠ fresh) (hroom : inn.len ≤ out.len) :
    ∃ m', run (encodeDeltaBy bs fresh inn prev >>= fun s => decodeDeltaBy bs' inn.len s out prev) m = (.ok (), m') ∧
      wordsN m' out inn.len = wordsOf m inn := by
  obtain ⟨m₁, e1, b1, f1, -⟩ := (encodeDeltaBy_result prev hb hw).ex
  have hsz : (encode (delta prev (wordsOf m inn))).length ≤ ctrlLen inn.len + 4 * inn.len := by
    have := (sum_bounds (delta prev (wordsOf m inn))).2
    rw [encode_length_sum, delta_length, wordsOf_length] at *; omega
  have hd := decodeDelta_encode prev (wordsOf m inn) []
  rw [List.append_nil, wordsOf_length, ← b1] at hd
  obtain ⟨m', e2, w2, -⟩ := C67_decodeDelta prev hb' (readerPre_after hw ho hne hroom hsz f1) hd
  refine ⟨m', ?_, w2⟩
  rw [Prog.bind_eq, run_bind, e1]
  exact e2

example := C67_roundtrip (bs := exPlan) (bs' := exPlan') (out := exIn) (by decide +kernel) (by decide +kernel) exWriter
  exWriter.valid (by decide) (by decide)
example := C67_roundtrip_delta (bs := exPlan) (bs' := exPlan') (out := ⟨.heap 3, 0, 17, 17⟩) 5 (by decide +kernel)
  (by decide +kernel) exWriter ⟨by decide, rfl, by decide⟩ (by decide) (by decide)

end SVB.Props
