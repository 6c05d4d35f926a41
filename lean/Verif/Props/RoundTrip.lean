import Verif.Props.Writers
import Verif.Props.Readers

/-! # Properties of writers and readers together: C05, C06, C16, C26 (streams) -/

set_option autoImplicit false

namespace SVB.Props
open Spec

/-! ## C05, C06: round trips -/

/-- C05: any writer, then any reader, each on any CPU: the numbers come back.  `out` may be anywhere except
in the writer's buffer; in particular it may be `in` itself. -/
theorem C05_roundtrip (w r : Fn) {fresh : Block} {inn out : U32s} {m : Mem} (hw : WriterPre fresh inn m)
    (ho : Valid out) (hne : out.blk ≠ fresh) (hroom : inn.len ≤ out.len) :
    ∃ m', run (w.write fresh inn >>= fun s => r.read inn.len s out) m = (.ok (), m') ∧
      wordsN m' out inn.len = wordsOf m inn := by
  obtain ⟨m₁, e1, b1, f1, -⟩ := (write_result w hw).ex
  have hsz : (encode (wordsOf m inn)).length ≤ ctrlLen inn.len + 4 * inn.len := by
    have := (sum_bounds (wordsOf m inn)).2
    rw [encode_length_sum, wordsOf_length] at *; omega
  have hr := (read_result r (readerPre_after hw ho hne hroom hsz f1)).1
  have hd := decode_encode (wordsOf m inn) []
  rw [List.append_nil, wordsOf_length] at hd
  rw [b1, hd] at hr
  obtain ⟨m', e2, w2⟩ := hr
  refine ⟨m', ?_, w2⟩
  rw [Prog.bind_eq, run_bind, e1]
  exact e2

/-- C06: the same for the delta pairs, with any base. -/
theorem C06_roundtrip_delta (w r : Fn) {fresh : Block} {inn out : U32s} {m : Mem} (prev : U32)
    (hw : WriterPre fresh inn m) (ho : Valid out) (hne : out.blk ≠ fresh) (hroom : inn.len ≤ out.len) :
    ∃ m', run (w.writeDelta fresh inn prev >>= fun s => r.readDelta inn.len s out prev) m = (.ok (), m') ∧
      wordsN m' out inn.len = wordsOf m inn := by
  obtain ⟨m₁, e1, b1, f1, -⟩ := (writeDelta_result w prev hw).ex
  have hsz : (encode (delta prev (wordsOf m inn))).length ≤ ctrlLen inn.len + 4 * inn.len := by
    have := (sum_bounds (delta prev (wordsOf m inn))).2
    rw [encode_length_sum, delta_length, wordsOf_length] at *; omega
  have hr := (readDelta_result r prev (readerPre_after hw ho hne hroom hsz f1)).1
  have hd := decodeDelta_encode prev (wordsOf m inn) []
  rw [List.append_nil, wordsOf_length] at hd
  rw [b1, hd] at hr
  obtain ⟨m', e2, w2⟩ := hr
  refine ⟨m', ?_, w2⟩
  rw [Prog.bind_eq, run_bind, e1]
  exact e2

-- A separate output slice, and the input slice itself as output.
example := C05_roundtrip .fast .fast (out := ⟨.heap 3, 0, 17, 17⟩) exWriter ⟨by decide, rfl, by decide⟩
  (by decide) (by decide)
example := C06_roundtrip_delta .fast (.auto ⟨true, true, false⟩) (out := exIn) 12345 exWriter
  ⟨by decide, rfl, by decide⟩ (by decide) (by decide)

/-! ## C16: the fast readers are safe on streams returned by the writers -/

/-- C16: after any writer, any reader (with the matching count) loads only bytes of the writer's
allocation and of the tables. -/
theorem C16_reader_loads (w r : Fn) {fresh : Block} {inn out : U32s} {m m₁ : Mem} {s : Bytes}
    (hw : WriterPre fresh inn m) (ho : Valid out) (hne : out.blk ≠ fresh) (hroom : inn.len ≤ out.len)
    (hs : run (w.write fresh inn) m = (.ok s, m₁)) (q : Ptr)
    (hq : Event.rd q ∈ trace (r.read inn.len s out) m₁) :
    (q.blk = s.blk ∧ q.off < s.off + s.cap) ∨ inTables q := by
  obtain ⟨m₁', e1, b1, f1, -⟩ := (write_result w hw).ex
  rw [e1, Prod.mk.injEq, Outcome.ok.injEq] at hs
  obtain ⟨rfl, rfl⟩ := hs
  have hsz : (encode (wordsOf m inn)).length ≤ ctrlLen inn.len + 4 * inn.len := by
    have := (sum_bounds (wordsOf m inn)).2
    rw [encode_length_sum, wordsOf_length] at *; omega
  rcases read_foot r (readerPre_after hw ho hne hroom hsz f1) _ hq with ⟨h1, -, h3⟩ | h1 | ⟨h1, -, -, -, h5⟩
  · exact .inl ⟨h1, by simp only at h3 ⊢; omega⟩
  · exact .inr h1
  · exact .inl ⟨h1, by simp only [rB] at h5 ⊢; omega⟩

theorem C16_delta_reader_loads (w r : Fn) {fresh : Block} {inn out : U32s} {m m₁ : Mem} {s : Bytes} (prev : U32)
    (hw : WriterPre fresh inn m) (ho : Valid out) (hne : out.blk ≠ fresh) (hroom : inn.len ≤ out.len)
    (hs : run (w.writeDelta fresh inn prev) m = (.ok s, m₁)) (q : Ptr)
    (hq : Event.rd q ∈ trace (r.readDelta inn.len s out prev) m₁) :
    (q.blk = s.blk ∧ q.off < s.off + s.cap) ∨ inTables q ∨ inFirst out inn.len q := by
  obtain ⟨m₁', e1, b1, f1, -⟩ := (writeDelta_result w prev hw).ex
  rw [e1, Prod.mk.injEq, Outcome.ok.injEq] at hs
  obtain ⟨rfl, rfl⟩ := hs
  have hsz : (encode (delta prev (wordsOf m inn))).length ≤ ctrlLen inn.len + 4 * inn.len := by
    have := (sum_bounds (delta prev (wordsOf m inn))).2
    rw [encode_length_sum, delta_length, wordsOf_length] at *; omega
  rcases readDelta_foot r prev (readerPre_after hw ho hne hroom hsz f1) _ hq with
    ⟨h1, -, h3⟩ | h1 | h1 | ⟨h1, -, -, -, h5⟩
  · exact .inl ⟨h1, by simp only at h3 ⊢; omega⟩
  · exact .inr (.inl h1)
  · exact .inr (.inr h1)
  · exact .inl ⟨h1, by simp only [rB] at h5 ⊢; omega⟩

-- The load past `len` of C13 does occur on a writer's stream (22 bytes long, capacity 73): it is the slack
-- in the capacity that makes it harmless.
example : let m := memWith (List.replicate 17 0) []
    WriterPre (.heap 1) ⟨.heap 0, 0, 17, 17⟩ m ∧
    (encode (wordsOf m ⟨.heap 0, 0, 17, 17⟩)).length = 22 ∧
    Event.rd ⟨.heap 1, 24⟩ ∈ trace (readAllFast 17 ⟨.heap 1, 0, 22, 73⟩ ⟨.heap 2, 0, 17, 17⟩)
      (run (writeAllScalar (.heap 1) ⟨.heap 0, 0, 17, 17⟩) m).2 :=
  ⟨⟨memWith_tables _ _, ⟨by decide, rfl, by decide⟩, rfl, by decide⟩, by decide +kernel, by decide +kernel⟩

/-! ## C26: dispatch -/

/-- C26: `WriteAll` gives the same slice and the same bytes on every CPU. -/
theorem C26_writeAll (c₁ c₂ : Cpu) {fresh : Block} {inn : U32s} {m : Mem} (h : WriterPre fresh inn m) :
    ∃ r m₁ m₂, run (writeAll c₁ fresh inn) m = (.ok r, m₁) ∧ run (writeAll c₂ fresh inn) m = (.ok r, m₂) ∧
      bytesOf m₁ r = bytesOf m₂ r := by
  obtain ⟨m₁, e1, b1, -⟩ := (write_result (.auto c₁) h).ex
  obtain ⟨m₂, e2, b2, -⟩ := (write_result (.auto c₂) h).ex
  exact ⟨_, m₁, m₂, e1, e2, by rw [b1, b2]⟩

theorem C26_writeAllDelta (c₁ c₂ : Cpu) {fresh : Block} {inn : U32s} {m : Mem} (prev : U32)
    (h : WriterPre fresh inn m) :
    ∃ r m₁ m₂, run (writeAllDelta c₁ fresh inn prev) m = (.ok r, m₁) ∧
      run (writeAllDelta c₂ fresh inn prev) m = (.ok r, m₂) ∧ bytesOf m₁ r = bytesOf m₂ r := by
  obtain ⟨m₁, e1, b1, -⟩ := (writeDelta_result (.auto c₁) prev h).ex
  obtain ⟨m₂, e2, b2, -⟩ := (writeDelta_result (.auto c₂) prev h).ex
  exact ⟨_, m₁, m₂, e1, e2, by rw [b1, b2]⟩

/-- C26: `ReadAll` either returns on every CPU, with the same final memory, or panics on every CPU. -/
theorem C26_readAll (c₁ c₂ : Cpu) {n : Nat} {st : Bytes} {out : U32s} {m : Mem} (h : ReaderPre n st out m) :
    (∃ m', run (readAll c₁ n st out) m = (.ok (), m') ∧ run (readAll c₂ n st out) m = (.ok (), m')) ∨
    (∃ k₁ k₂ m₁ m₂, run (readAll c₁ n st out) m = (.panic k₁, m₁) ∧
      run (readAll c₂ n st out) m = (.panic k₂, m₂) ∧ BoundsPanic k₁ ∧ BoundsPanic k₂) := by
  obtain ⟨h1, f1⟩ := read_result (.auto c₁) h
  obtain ⟨h2, f2⟩ := read_result (.auto c₂) h
  simp only [Fn.read] at h1 f1 h2 f2
  cases hd : decode n (bytesOf m st) with
  | none =>
    rw [hd] at h1 h2
    obtain ⟨k₁, m₁, r1, p1⟩ := h1
    obtain ⟨k₂, m₂, r2, p2⟩ := h2
    exact .inr ⟨k₁, k₂, m₁, m₂, r1, r2, p1, p2⟩
  | some xs =>
    rw [hd] at h1 h2
    obtain ⟨m₁, r1, w1⟩ := h1
    obtain ⟨m₂, r2, w2⟩ := h2
    refine .inl ⟨m₁, r1, ?_⟩
    rw [r1] at f1; rw [r2] at f2
    rw [r2, mem_eq_of_words (m₁ := m₁) (m₂ := m₂) f1 f2 (w1.trans w2.symm)]

theorem C26_readAllDelta (c₁ c₂ : Cpu) {n : Nat} {st : Bytes} {out : U32s} {m : Mem} (prev : U32)
    (h : ReaderPre n st out m) :
    (∃ m', run (readAllDelta c₁ n st out prev) m = (.ok (), m') ∧
      run (readAllDelta c₂ n st out prev) m = (.ok (), m')) ∨
    (∃ k₁ k₂ m₁ m₂, run (readAllDelta c₁ n st out prev) m = (.panic k₁, m₁) ∧
      run (readAllDelta c₂ n st out prev) m = (.panic k₂, m₂) ∧ BoundsPanic k₁ ∧ BoundsPanic k₂) := by
  obtain ⟨h1, f1⟩ := readDelta_result (.auto c₁) prev h
  obtain ⟨h2, f2⟩ := readDelta_result (.auto c₂) prev h
  simp only [Fn.readDelta] at h1 f1 h2 f2
  cases hd : decodeDelta prev n (bytesOf m st) with
  | none =>
    rw [hd] at h1 h2
    obtain ⟨k₁, m₁, r1, p1⟩ := h1
    obtain ⟨k₂, m₂, r2, p2⟩ := h2
    exact .inr ⟨k₁, k₂, m₁, m₂, r1, r2, p1, p2⟩
  | some xs =>
    rw [hd] at h1 h2
    obtain ⟨m₁, r1, w1⟩ := h1
    obtain ⟨m₂, r2, w2⟩ := h2
    refine .inl ⟨m₁, r1, ?_⟩
    rw [r1] at f1; rw [r2] at f2
    rw [r2, mem_eq_of_words (m₁ := m₁) (m₂ := m₂) f1 f2 (w1.trans w2.symm)]

/-- C26: streams written on one machine read back on any other. -/
theorem C26_across (c₁ c₂ : Cpu) {fresh : Block} {inn out : U32s} {m : Mem} (prev : U32) (hw : WriterPre fresh inn m)
    (ho : Valid out) (hne : out.blk ≠ fresh) (hroom : inn.len ≤ out.len) :
    (∃ m', run (writeAll c₁ fresh inn >>= fun s => readAll c₂ inn.len s out) m = (.ok (), m') ∧
      wordsN m' out inn.len = wordsOf m inn) ∧
    ∃ m', run (writeAllDelta c₁ fresh inn prev >>= fun s => readAllDelta c₂ inn.len s out prev) m = (.ok (), m') ∧
      wordsN m' out inn.len = wordsOf m inn :=
  ⟨C05_roundtrip (.auto c₁) (.auto c₂) hw ho hne hroom, C06_roundtrip_delta (.auto c₁) (.auto c₂) prev hw ho hne hroom⟩

/-- Outside the documented arguments the CPU can be told: a negative count decodes numbers without AVX and does nothing
with it; a block decoder given too short an input panics without AVX and returns with it. -/
theorem C26_observable_bad_arguments :
    (∃ (st : Bytes) (out : U32s) (m : Mem), ReaderPre 3 st out m ∧
      run (readAll ⟨true, true, true⟩ (-1) st out) m = (.ok (), m) ∧
      (run (readAll ⟨true, false, false⟩ (-1) st out) m).2 ≠ m) ∧
    ∃ (inn : Bytes) (out : U32s) (m : Mem), BlockPre inn out m ∧ out.len = 8 ∧
      (run (get8uint32 ⟨true, true, true⟩ inn out 0) m).1 = .ok () ∧
      (run (get8uint32 ⟨true, false, false⟩ inn out 0) m).1 = .panic .slice := by
  refine ⟨⟨⟨.heap 1, 0, 5, 5⟩, ⟨.heap 2, 0, 3, 3⟩, memWith [] [0, 7, 8, 9, 10],
    ⟨memWith_tables _ _, by decide, ⟨by decide, rfl, by decide⟩, .inl (by decide), by decide⟩, rfl, fun h => ?_⟩,
    ⟨.heap 1, 0, 5, 5⟩, ⟨.heap 2, 0, 8, 8⟩, memWith [] [], ⟨memWith_tables _ _, rfl, .inl (by decide)⟩, rfl,
    by decide +kernel, by decide +kernel⟩
  have := congrFun h ⟨.heap 2, 4⟩
  revert this; decide +kernel

-- Both implementations are really selected, on different CPUs.
example : encodeMode ⟨true, true, true⟩ = .fast ∧ encodeMode ⟨true, true, false⟩ = .normal ∧
    decodeMode ⟨true, true, false⟩ = .fast ∧ decodeMode ⟨false, true, true⟩ = .normal := by decide
example := C26_readAll ⟨true, true, true⟩ ⟨true, false, false⟩ exReader

end SVB.Props
