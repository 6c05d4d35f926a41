import Verif.Props.Counts
import Verif.Props.Blocks

/-! # C31 for the negative counts -1, -2, -3, -5 and -6 of the scalar readers, in terms of the format

`C31_readAllScalar_partial` reduces these calls to `GetUint32Scalar`; here the outcome is stated with the
specification only.  The number of values stored is `count mod 4` (3, 2, 1, 3, 2), the first byte of the stream serves
both as control byte and as first data byte. -/

set_option autoImplicit false

namespace SVB.Props
open Spec

private theorem run_getB_empty {β : Type} {st : Bytes} (h : st.len = 0) (K : Byte → Prog β) (m : Mem) :
    run ((getB st 0).bind K) m = (.panic .index, m) := by
  unfold getB
  rw [if_neg (by omega)]; rfl

private theorem run_getB {β : Type} {st : Bytes} (h : 0 < st.len) (K : Byte → Prog β) (m : Mem) :
    run ((getB st 0).bind K) m = run (K ((bytesOf m st).headD 0)) m := by
  have e : (bytesOf m st).headD 0 = m ⟨st.blk, st.off⟩ := by
    obtain ⟨b, o, l, c⟩ := st
    cases l with
    | zero => exact absurd h (Nat.lt_irrefl 0)
    | succ l => simp [bytesOf, List.range_succ_eq_map]
  rw [e]
  unfold getB
  rw [if_pos (by omega)]
  rfl

/-- C31, what `ReadAllScalar` does for -1, -2, -3, -5 and -6: an empty stream panics; otherwise it stores the
`count mod 4` numbers whose lengths are in the first byte of the stream and whose data begins at that same byte, or
panics if they do not fit the stream or `out`; nothing else changes.
(`_partial`: the full statement wants a no-op.) -/
theorem C31_readAllScalar_negative_partial {count : Int} {n : Nat} (hn : n = (count % 4).toNat) {st : Bytes}
    {out : U32s} {m : Mem} (h1 : -6 ≤ count) (h2 : count < 0) (h4 : count % 4 ≠ 0) (hd : Disjoint st out) :
    (st.len = 0 → run (readAllScalar count st out) m = (.panic .index, m)) ∧
    (0 < st.len → ∀ ls, ls = codeLens n ((bytesOf m st).headD 0).toNat →
      (n ≤ out.len ∧ ls.sum ≤ st.len → ∃ m', run (readAllScalar count st out) m = (.ok (), m') ∧
        some (wordsN m' out n) = readNums ls (bytesOf m st)) ∧
      (¬ (n ≤ out.len ∧ ls.sum ≤ st.len) → ∃ k m', run (readAllScalar count st out) m = (.panic k, m') ∧
        BoundsPanic k)) ∧
    ∀ q, ¬ inPrefix out n q → (run (readAllScalar count st out) m).2 q = m q := by
  rw [(C31_readAllScalar_partial (m := m) (by omega) (by omega)).2.2 h1 h4]
  rcases Nat.eq_zero_or_pos st.len with h0 | h0
  · rw [run_getB_empty h0]
    exact ⟨fun _ => rfl, fun h => by omega, fun _ _ => rfl⟩
  · rw [run_getB h0, run_bind]
    obtain ⟨ha, hb, hc⟩ := C20_get (count % 4) (n := n) (by omega) (m := m) ((bytesOf m st).headD 0) hd
    refine ⟨fun h => by omega, fun _ ls hls => ?_, fun q hq => ?_⟩
    · subst hls
      refine ⟨fun ok => ?_, fun bad => ?_⟩
      · obtain ⟨m', r, w⟩ := ha ok
        rw [r]; exact ⟨m', rfl, w⟩
      · obtain ⟨k, m', r, w⟩ := hb bad
        rw [r]; exact ⟨k, m', rfl, w⟩
    · rw [← hc q hq]
      generalize run (getUint32Scalar st out ((bytesOf m st).headD 0) (count % 4)) m = r
      obtain ⟨o, m'⟩ := r
      cases o <;> rfl

/-- C31, the same for `ReadAllDeltaScalar`: the numbers are the running sums. -/
theorem C31_readAllDeltaScalar_negative_partial {count : Int} {n : Nat} (hn : n = (count % 4).toNat) {st : Bytes}
    {out : U32s} {m : Mem} (prev : U32) (h1 : -6 ≤ count) (h2 : count < 0) (h4 : count % 4 ≠ 0)
    (hd : Disjoint st out) :
    (st.len = 0 → run (readAllDeltaScalar count st out prev) m = (.panic .index, m)) ∧
    (0 < st.len → ∀ ls, ls = codeLens n ((bytesOf m st).headD 0).toNat →
      (n ≤ out.len ∧ ls.sum ≤ st.len → ∃ m', run (readAllDeltaScalar count st out prev) m = (.ok (), m') ∧
        some (wordsN m' out n) = (readNums ls (bytesOf m st)).map (undelta prev)) ∧
      (¬ (n ≤ out.len ∧ ls.sum ≤ st.len) → ∃ k m', run (readAllDeltaScalar count st out prev) m = (.panic k, m') ∧
        BoundsPanic k)) ∧
    ∀ q, ¬ inPrefix out n q → (run (readAllDeltaScalar count st out prev) m).2 q = m q := by
  rw [(C31_readAllDeltaScalar_partial (m := m) prev (by omega) (by omega)).2.2 h1 h4]
  rcases Nat.eq_zero_or_pos st.len with h0 | h0
  · rw [run_getB_empty h0]
    exact ⟨fun _ => rfl, fun h => by omega, fun _ _ => rfl⟩
  · rw [run_getB h0, run_bind]
    obtain ⟨ha, hb, hc⟩ := C20_getDelta (count % 4) (n := n) (by omega) (m := m) ((bytesOf m st).headD 0) prev hd
    refine ⟨fun h => by omega, fun _ ls hls => ?_, fun q hq => ?_⟩
    · subst hls
      refine ⟨fun ok => ?_, fun bad => ?_⟩
      · obtain ⟨m', r, w⟩ := ha ok
        rw [r]; exact ⟨m', rfl, w⟩
      · obtain ⟨k, m', r, w⟩ := hb bad
        rw [r]; exact ⟨k, m', rfl, w⟩
    · rw [← hc q hq]
      generalize run (getUint32DeltaScalar st out ((bytesOf m st).headD 0) (count % 4) prev) m = r
      obtain ⟨o, m'⟩ := r
      cases o <;> rfl

-- `ReadAllScalar(-1, [0x04 7 8 9 10], out)`: lengths 1, 2, 1 and the numbers 4, 7 + 256·8, 9.
example : readNums (codeLens 3 4) [4, 7, 8, 9, 10] = some [4, 2055, 9] := by decide +kernel
example := C31_readAllScalar_negative_partial (count := -1) rfl (st := ⟨.heap 1, 0, 5, 5⟩) (out := ⟨.heap 2, 0, 3, 3⟩)
  (m := memWith [] [4, 7, 8, 9, 10]) (by decide) (by decide) (by decide) (.inl (by decide))

end SVB.Props
