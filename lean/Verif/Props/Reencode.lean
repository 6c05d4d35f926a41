import Verif.Props.RoundTrip
import Verif.Proofs.Canon

/-! # C51: decoding a stream and encoding the result -/

set_option autoImplicit false

namespace SVB.Props
open Spec

private theorem writerPre_after {n : Nat} {st : Bytes} {out : U32s} {m m' : Mem} {fresh : Block}
    (h : ReaderPre n st out m) (hf : fresh.isConst = false) (hne : fresh ≠ out.blk)
    (hk : ∀ q, ¬ inFirst out n q → m' q = m q) : WriterPre fresh { out with len := n } m' where
  tables := h.tables.frame fun q hq => hk q fun hi => by
    have := h.vout.heap; rw [← hi.1, hq] at this; cases this
  valid := ⟨Nat.le_trans h.room h.vout.len_le, h.vout.heap, h.vout.small⟩
  fresh_heap := hf
  fresh_ne := hne

/-- C51: read `n` numbers from any stream that holds them, write `out[:n]`: the new stream decodes to the same numbers,
is not longer than the old one, is canonical, and has the same bytes exactly if the old one is canonical. -/
theorem C51_reencode (r w : Fn) {n : Nat} {st : Bytes} {out : U32s} {m : Mem} {fresh : Block} (h : ReaderPre n st out m)
    (hlen : needed m st n ≤ st.len) (hf : fresh.isConst = false) (hne : fresh ≠ out.blk) :
    ∃ t m', run (r.read n st out >>= fun _ => w.write fresh { out with len := n }) m = (.ok t, m') ∧
      decode n (bytesOf m' t) = decode n (bytesOf m st) ∧ t.len ≤ needed m st n ∧ Canonical n (bytesOf m' t) ∧
      (bytesOf m' t = (bytesOf m st).take (needed m st n) ↔ Canonical n (bytesOf m st)) := by
  obtain ⟨xs, hd⟩ := decode_isSome.2 (show ctrlLen n + (lengths n (bytesOf m st)).sum ≤ (bytesOf m st).length by
    rw [bytesOf_length]; exact hlen)
  have hn := decode_length hd
  obtain ⟨h1, h2⟩ := read_result r h
  rw [hd] at h1
  obtain ⟨m₁, e1, w1⟩ := h1
  rw [e1] at h2
  obtain ⟨m', e2, b2, -⟩ := (write_result w (writerPre_after h hf hne h2)).ex
  have hw : wordsOf m₁ { out with len := n } = xs := w1
  rw [hw] at e2 b2
  have hdx : decode n (encode xs) = some xs := by
    have := decode_encode xs []
    rwa [List.append_nil, hn] at this
  refine ⟨_, m', by rw [Prog.bind_eq, run_bind, e1]; exact e2, ?_, ?_, ?_, ?_⟩
  · rw [b2, hdx, hd]
  · have := encode_min (s := (bytesOf m st).take (needed m st n)) (xs := xs)
      (by rw [hn]; exact decode_trunc hd (Nat.le_refl _))
    rwa [List.length_take_of_le (by rw [bytesOf_length]; exact hlen)] at this
  · rw [b2, ← canonical_iff hdx, ← hn]
    have := lengths_encode xs (dataBytes xs)
    rw [List.take_of_length_le]
    rw [encode_length_sum, show lengths xs.length (encode xs) = _ from this]; exact Nat.le_refl _
  · rw [b2]; exact canonical_iff hd

/-- C51, the delta functions with the same base. -/
theorem C51_reencodeDelta (r w : Fn) (prev : U32) {n : Nat} {st : Bytes} {out : U32s} {m : Mem} {fresh : Block}
    (h : ReaderPre n st out m) (hlen : needed m st n ≤ st.len) (hf : fresh.isConst = false) (hne : fresh ≠ out.blk) :
    ∃ t m', run (r.readDelta n st out prev >>= fun _ => w.writeDelta fresh { out with len := n } prev) m = (.ok t, m') ∧
      decode n (bytesOf m' t) = decode n (bytesOf m st) ∧ t.len ≤ needed m st n ∧ Canonical n (bytesOf m' t) ∧
      (bytesOf m' t = (bytesOf m st).take (needed m st n) ↔ Canonical n (bytesOf m st)) := by
  obtain ⟨xs, hd⟩ := decode_isSome.2 (show ctrlLen n + (lengths n (bytesOf m st)).sum ≤ (bytesOf m st).length by
    rw [bytesOf_length]; exact hlen)
  have hn := decode_length hd
  obtain ⟨h1, h2⟩ := readDelta_result r prev h
  rw [decodeDelta, hd] at h1
  obtain ⟨m₁, e1, w1⟩ := h1
  rw [e1] at h2
  obtain ⟨m', e2, b2, -⟩ := (writeDelta_result w prev (writerPre_after h hf hne h2)).ex
  have hw : wordsOf m₁ { out with len := n } = undelta prev xs := w1
  rw [hw, delta_undelta] at e2 b2
  have hdx : decode n (encode xs) = some xs := by
    have := decode_encode xs []
    rwa [List.append_nil, hn] at this
  refine ⟨_, m', by rw [Prog.bind_eq, run_bind, e1]; exact e2, ?_, ?_, ?_, ?_⟩
  · rw [b2, hdx, hd]
  · have := encode_min (s := (bytesOf m st).take (needed m st n)) (xs := xs)
      (by rw [hn]; exact decode_trunc hd (Nat.le_refl _))
    rwa [List.length_take_of_le (by rw [bytesOf_length]; exact hlen)] at this
  · rw [b2, ← canonical_iff hdx, ← hn]
    have := lengths_encode xs (dataBytes xs)
    rw [List.take_of_length_le]
    rw [encode_length_sum, show lengths xs.length (encode xs) = _ from this]; exact Nat.le_refl _
  · rw [b2]; exact canonical_iff hd

example := C51_reencode .fast .scalar (fresh := .heap 9) exReader (by decide +kernel) rfl (by decide)
example := C51_reencodeDelta .fast (.auto ⟨true, true, true⟩) 7 (fresh := .heap 9) exReader (by decide +kernel) rfl (by decide)

-- A canonical stream, one with a number that is too long, one with unused control bits set.
example : Canonical 2 [0b0100, 5, 0, 7] ∧ ¬ Canonical 2 [0b0001, 5, 0, 7] ∧ ¬ Canonical 2 [0b11110000, 5, 7] := by
  refine ⟨⟨?_, by decide +kernel⟩, fun h => ?_, fun h => ?_⟩
  · intro i h1 h2
    have h3 : i < 4 := h2
    match i, h1, h3 with
    | 2, _, _ => rfl
    | 3, _, _ => rfl
  · exact absurd (h.2 0 (by decide)) (by decide +kernel)
  · exact absurd (h.1 2 (by decide) (by decide)) (by decide +kernel)

end SVB.Props
