import Verif.Props.RoundTrip

/-! # C49: the spare capacity of a returned stream

A writer returns a slice of a larger buffer (`make([]byte, ctrlLen+4*len(in))`, then `stream[:dataPos]`), so the caller
can reslice up to the capacity.  The vector code stores 16 bytes per group of four numbers, past the end of the data.
The spare bytes are nevertheless zero, and so the whole buffer, not only the stream, is the same on every CPU. -/

set_option autoImplicit false

namespace SVB.Props
open SVB Spec

/-- The slice `s[:cap(s)]`. -/
def fullCap (s : Bytes) : Bytes := ⟨s.blk, s.off, s.cap, s.cap⟩

private theorem bytes_full {m : Mem} {b : Block} {n c : Nat} {xs : List Byte} (hn : n ≤ c)
    (h : bytesOf m ⟨b, 0, n, c⟩ = xs) (hz : ZeroTail m b n c) :
    bytesOf m (fullCap ⟨b, 0, n, c⟩) = xs ++ List.replicate (c - n) 0 := by
  subst h
  unfold bytesOf fullCap
  simp only
  apply List.ext_getElem
  · simp; omega
  · intro i h1 h2
    simp only [List.length_map, List.length_range] at h1
    simp only [List.getElem_map, List.getElem_range, List.getElem_append, List.length_map, List.length_range,
      List.getElem_replicate]
    split
    · rfl
    · exact hz _ (by omega) (by omega)

private theorem size_le {n : Nat} (xs : List U32) (h : xs.length = n) :
    (encode xs).length ≤ ctrlLen n + 4 * n := by
  have := (sum_bounds xs).2
  rw [encode_length_sum, h] at *; omega

private theorem byte_of {m : Mem} {s : Bytes} {i : Nat} (h : i < s.len) :
    m ⟨s.blk, s.off + i⟩ = (bytesOf m s).getD i 0 := by
  simp [bytesOf, List.getD_eq_getElem?_getD, h]

/-- What two writer runs with the same result and the same encoding have in common. -/
private theorem same_run {p q : Prog Bytes} {fresh : Block} {inn : U32s} {xs : List U32} {m : Mem}
    (hp : WriteResult p fresh inn xs m) (hq : WriteResult q fresh inn xs m) (hx : xs.length = inn.len) :
    run p m = run q m := by
  obtain ⟨m₁, r1, b1, f1, z1⟩ := hp.ex
  obtain ⟨m₂, r2, b2, f2, z2⟩ := hq.ex
  rw [r1, r2]
  congr 1
  have hs := size_le xs hx
  funext a
  by_cases h : Seg fresh 0 (ctrlLen inn.len + 4 * inn.len) a
  · obtain ⟨b, o⟩ := a
    obtain ⟨h1, -, h3⟩ := h
    simp only at h1 h3
    subst h1
    have e1 := bytes_full hs b1 z1
    have e2 := bytes_full hs b2 z2
    have g1 := byte_of (m := m₁) (s := fullCap ⟨b, 0, (encode xs).length, ctrlLen inn.len + 4 * inn.len⟩) (i := o) h3
    have g2 := byte_of (m := m₂) (s := fullCap ⟨b, 0, (encode xs).length, ctrlLen inn.len + 4 * inn.len⟩) (i := o) h3
    rw [e1] at g1; rw [e2] at g2
    simp only [fullCap, Nat.zero_add] at g1 g2
    rw [g1, g2]
  · rw [f1 a h, f2 a h]

/-- C49: after a writer, the buffer up to the capacity holds the encoding and then only zeros. -/
theorem C49_spare_zero (f : Fn) {fresh : Block} {inn : U32s} {m : Mem} (h : WriterPre fresh inn m) :
    ∃ r m', run (f.write fresh inn) m = (.ok r, m') ∧ r.cap = ctrlLen inn.len + 4 * inn.len ∧
      bytesOf m' (fullCap r) = encode (wordsOf m inn) ++
        List.replicate (r.cap - (encode (wordsOf m inn)).length) 0 := by
  obtain ⟨m', h1, h2, -, h4⟩ := (write_result f h).ex
  exact ⟨_, m', h1, rfl, bytes_full (size_le _ (wordsOf_length m inn)) h2 h4⟩

/-- C49 for the writers of differences. -/
theorem C49_spare_zero_delta (f : Fn) {fresh : Block} {inn : U32s} {m : Mem} (prev : U32)
    (h : WriterPre fresh inn m) :
    ∃ r m', run (f.writeDelta fresh inn prev) m = (.ok r, m') ∧ r.cap = ctrlLen inn.len + 4 * inn.len ∧
      bytesOf m' (fullCap r) = encode (delta prev (wordsOf m inn)) ++
        List.replicate (r.cap - (encode (delta prev (wordsOf m inn))).length) 0 := by
  obtain ⟨m', h1, h2, -, h4⟩ := (writeDelta_result f prev h).ex
  exact ⟨_, m', h1, rfl, bytes_full (size_le _ (by rw [delta_length, wordsOf_length])) h2 h4⟩

/-- C49: scalar, vector and dispatching writers have exactly the same effect: the same slice and the same memory. -/
theorem C49_same_effect (f g : Fn) {fresh : Block} {inn : U32s} {m : Mem} (h : WriterPre fresh inn m) :
    run (f.write fresh inn) m = run (g.write fresh inn) m :=
  same_run (write_result f h) (write_result g h) (wordsOf_length m inn)

/-- C49 for the writers of differences. -/
theorem C49_same_effect_delta (f g : Fn) {fresh : Block} {inn : U32s} {m : Mem} (prev : U32)
    (h : WriterPre fresh inn m) :
    run (f.writeDelta fresh inn prev) m = run (g.writeDelta fresh inn prev) m :=
  same_run (writeDelta_result f prev h) (writeDelta_result g prev h) (by rw [delta_length, wordsOf_length])

/-- C49: nothing that was in the allocated memory before the call, and nothing else but the numbers, shows in the
buffer up to its capacity. -/
theorem C49_no_leak (f g : Fn) {fresh fresh' : Block} {inn inn' : U32s} {m m' : Mem} (h : WriterPre fresh inn m)
    (h' : WriterPre fresh' inn' m') (he : wordsOf m inn = wordsOf m' inn') :
    ∃ r₁ m₁ r₂ m₂, run (f.write fresh inn) m = (.ok r₁, m₁) ∧ run (g.write fresh' inn') m' = (.ok r₂, m₂) ∧
      bytesOf m₁ (fullCap r₁) = bytesOf m₂ (fullCap r₂) := by
  obtain ⟨r₁, m₁, e1, c1, b1⟩ := C49_spare_zero f h
  obtain ⟨r₂, m₂, e2, c2, b2⟩ := C49_spare_zero g h'
  have hl : inn.len = inn'.len := by rw [← wordsOf_length m inn, he, wordsOf_length]
  exact ⟨r₁, m₁, r₂, m₂, e1, e2, by rw [b1, b2, c1, c2, he, hl]⟩

-- The example leaves spare bytes, and both implementations start from memory that is not zero there.
example : (encode (wordsOf exMem exIn)).length < ctrlLen exIn.len + 4 * exIn.len := by decide +kernel
example := C49_spare_zero .fast exWriter
example := C49_same_effect .fast .scalar exWriter

end SVB.Props
