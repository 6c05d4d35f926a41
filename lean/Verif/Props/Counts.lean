import Verif.Proofs.SafeStream
import Verif.Proofs.Results

/-!
# Counts that are not positive or overflow: C31

`ReadAll*(count, …)` for every 64-bit `count ≤ 0` and every `count` for which `count + 3` overflows.  Nothing
is assumed about the slices.
-/

set_option autoImplicit false

namespace SVB.Props
open Spec

/-! ## Auxiliary -/

private theorem loop_skip {σ : Type} {fuel : Nat} {cond : σ → Bool} {body : σ → Prog σ} {s : σ}
    (h : cond s = false) : loop fuel cond body s = .ret s := by
  unfold loop; simp [h]

private theorem loop_panic {σ : Type} {fuel : Nat} {cond : σ → Bool} {body : σ → Prog σ} {s : σ} {k : Panic}
    (h : cond s = true) (hb : body s = .panic k) : loop (fuel + 1) cond body s = .panic k := by
  rw [loop]; simp [h, hb]

private theorem from_neg {e : Nat} {s : Slice e} {i : Int} (h : i < 0) : s.from i = .panic .slice := by
  unfold Slice.from; rw [if_neg (by omega)]

private theorem rs16_neg {st : Bytes} {out : U32s} {s : RSt} (h : s.dataPos < 0) :
    rsBody16 st out s = .panic .slice := by
  unfold rsBody16; simp only [Prog.bind_eq, from_neg h, Prog.panic_bind]

private theorem rds16_neg {st : Bytes} {out : U32s} {s : RSt} (h : s.dataPos < 0) :
    rdsBody16 st out s = .panic .slice := by
  unfold rdsBody16; simp only [Prog.bind_eq, from_neg h, Prog.panic_bind]

private theorem rf32_neg {st : Bytes} {out : U32s} {s : RSt} (h : s.dataPos < 0) :
    rfBody32 st out s = .panic .slice := by
  unfold rfBody32; simp only [Prog.bind_eq, from_neg h, Prog.panic_bind]

private theorem rdf32_neg {st : Bytes} {out : U32s} {s : RSt} (h : s.dataPos < 0) :
    rdfBody32 st out s = .panic .slice := by
  unfold rdfBody32; simp only [Prog.bind_eq, from_neg h, Prog.panic_bind]

private theorem jump15 {count : Int} (h1 : -2 ^ 63 ≤ count) (h2 : count < 2 ^ 63) :
    andNot count (jump - 1) = count - count % 16 := by
  rw [jump_val, show (16 - 1 : Int) = 15 by decide, andNot15 h1 h2]

private theorem hdr_nonpos {count : Int} (h1 : -2 ^ 63 ≤ count) (h2 : count ≤ 0) :
    hdr count ≤ 0 ∧ (hdr count < 0 ↔ count ≤ -7) ∧ 4 * hdr count ≤ count + 6 ∧ -2 ^ 61 < hdr count := by
  have := hdr_val h1 (by omega)
  split at this <;> omega

/-- The bound of the first loop, when the product overflows. -/
private theorem low32_ovf {c : Int} (h1 : -2 ^ 61 ≤ c) (h2 : c < -2 ^ 61 + 3) : 0 < lowest32Of c := by
  unfold lowest32Of
  rw [int64_eq (x := c - 3) (by omega) (by omega), int64_wrap_neg (by omega) (by omega),
    andNot31 (by omega) (by omega)]
  omega

private theorem low32_nonpos {c : Int} (h1 : -2 ^ 61 + 3 ≤ c) (h2 : c ≤ 0) : lowest32Of c ≤ 0 := by
  unfold lowest32Of
  rw [int64_eq (x := c - 3) (by omega) (by omega), int64_eq (by omega) (by omega),
    andNot31 (by omega) (by omega)]
  omega

/-! ## Zero -/

/-- C31: `count = 0` is a no-op on every path, whatever the slices are (even empty ones). -/
theorem C31_zero (f : Fn) (st : Bytes) (out : U32s) (prev : U32) (m : Mem) :
    run (f.read 0 st out) m = (.ok (), m) ∧ run (f.readDelta 0 st out prev) m = (.ok (), m) := by
  cases f with
  | scalar => exact ⟨rfl, rfl⟩
  | fast => exact ⟨rfl, rfl⟩
  | auto c =>
    refine ⟨?_, ?_⟩
    · rcases readAll_cases c 0 st out with e | e <;> (simp only [Fn.read, e]; rfl)
    · rcases readAllDelta_cases c 0 st out prev with e | e <;> (simp only [Fn.readDelta, e]; rfl)

/-! ## Overflowing counts -/

/-- C31: a count for which `count + 3` overflows panics (before touching memory). -/
theorem C31_overflow_readAllScalar {count : Int} {st : Bytes} {out : U32s} {m : Mem}
    (h1 : 2 ^ 63 - 3 ≤ count) (h2 : count < 2 ^ 63) :
    run (readAllScalar count st out) m = (.panic .slice, m) := by
  have hn := hdr_ovf h1 h2
  unfold readAllScalar
  rw [show goDiv (int64 (count + 3)) 4 = hdr count from rfl, jump15 (by omega) h2]
  simp only [Prog.bind_eq]
  rw [loop_panic (by simp; omega) (rs16_neg hn)]
  rfl

theorem C31_overflow_readAllDeltaScalar {count : Int} {st : Bytes} {out : U32s} {m : Mem} (prev : U32)
    (h1 : 2 ^ 63 - 3 ≤ count) (h2 : count < 2 ^ 63) :
    run (readAllDeltaScalar count st out prev) m = (.panic .slice, m) := by
  have hn := hdr_ovf h1 h2
  unfold readAllDeltaScalar
  rw [show goDiv (int64 (count + 3)) 4 = hdr count from rfl, jump15 (by omega) h2]
  simp only [Prog.bind_eq]
  rw [loop_panic (by simp; omega) (rds16_neg hn)]
  rfl

private theorem hdr_ovf' {count : Int} (h1 : 2 ^ 63 - 3 ≤ count) (h2 : count < 2 ^ 63) :
    -2 ^ 61 ≤ hdr count ∧ hdr count < -2 ^ 61 + 3 := by
  unfold hdr
  rw [int64_wrap (by omega) (by omega), goDiv4]
  split <;> omega

theorem C31_overflow_readAllFast {count : Int} {st : Bytes} {out : U32s} {m : Mem}
    (h1 : 2 ^ 63 - 3 ≤ count) (h2 : count < 2 ^ 63) :
    run (readAllFast count st out) m = (.panic .slice, m) := by
  have hn := hdr_ovf' h1 h2
  have hl := low32_ovf hn.1 hn.2
  unfold readAllFast
  rw [show goDiv (int64 (count + 3)) 4 = hdr count from rfl]
  simp only [Prog.bind_eq]
  rw [loop_panic (by simp; omega) (rf32_neg (by simp only; omega))]
  rfl

theorem C31_overflow_readAllDeltaFast {count : Int} {st : Bytes} {out : U32s} {m : Mem} (prev : U32)
    (h1 : 2 ^ 63 - 3 ≤ count) (h2 : count < 2 ^ 63) :
    run (readAllDeltaFast count st out prev) m = (.panic .slice, m) := by
  have hn := hdr_ovf' h1 h2
  have hl := low32_ovf hn.1 hn.2
  unfold readAllDeltaFast
  rw [show goDiv (int64 (count + 3)) 4 = hdr count from rfl]
  simp only [Prog.bind_eq]
  rw [loop_panic (by simp; omega) (rdf32_neg (by simp only; omega))]
  rfl

example {st : Bytes} {out : U32s} {m : Mem} :=
  C31_overflow_readAllFast (count := 9223372036854775807) (st := st) (out := out) (m := m) (by omega) (by omega)

/-! ## Negative counts, vectorised readers -/

/-- C31 for `ReadAllFast`: a no-op for every negative count except the six smallest ones … -/
theorem C31_readAllFast_nonpos {count : Int} {st : Bytes} {out : U32s} {m : Mem}
    (h1 : -2 ^ 63 + 6 ≤ count) (h2 : count ≤ 0) : run (readAllFast count st out) m = (.ok (), m) := by
  have hn := hdr_nonpos (by omega) h2
  have hl : lowest32Of (hdr count) ≤ 0 := low32_nonpos (by
    have := hdr_val (count := count) (by omega) (by omega)
    split at this <;> omega) hn.1
  unfold readAllFast
  rw [show goDiv (int64 (count + 3)) 4 = hdr count from rfl]
  simp only [Prog.bind_eq]
  rw [loop_skip (by simp; omega), Prog.ret_bind, loop_skip (by simp; omega), Prog.ret_bind,
    loop_skip (by simp; omega)]
  rfl

/-- … for which the computation of the loop bound overflows and the call panics. -/
theorem C31_readAllFast_min {count : Int} {st : Bytes} {out : U32s} {m : Mem}
    (h1 : -2 ^ 63 ≤ count) (h2 : count < -2 ^ 63 + 6) :
    run (readAllFast count st out) m = (.panic .slice, m) := by
  have hn := hdr_nonpos (by omega) (show count ≤ 0 by omega)
  have hv := hdr_val (count := count) (by omega) (by omega)
  have hl : 0 < lowest32Of (hdr count) := low32_ovf (by omega) (by split at hv <;> omega)
  unfold readAllFast
  rw [show goDiv (int64 (count + 3)) 4 = hdr count from rfl]
  simp only [Prog.bind_eq]
  rw [loop_panic (by simp; omega) (rf32_neg (by simp only; omega))]
  rfl

theorem C31_readAllDeltaFast_nonpos {count : Int} {st : Bytes} {out : U32s} {m : Mem} (prev : U32)
    (h1 : -2 ^ 63 + 6 ≤ count) (h2 : count ≤ 0) :
    run (readAllDeltaFast count st out prev) m = (.ok (), m) := by
  have hn := hdr_nonpos (by omega) h2
  have hl : lowest32Of (hdr count) ≤ 0 := low32_nonpos (by
    have := hdr_val (count := count) (by omega) (by omega)
    split at this <;> omega) hn.1
  unfold readAllDeltaFast
  rw [show goDiv (int64 (count + 3)) 4 = hdr count from rfl]
  simp only [Prog.bind_eq]
  rw [loop_skip (by simp; omega), Prog.ret_bind, loop_skip (by simp; omega), Prog.ret_bind,
    loop_skip (by simp; omega)]
  rfl

theorem C31_readAllDeltaFast_min {count : Int} {st : Bytes} {out : U32s} {m : Mem} (prev : U32)
    (h1 : -2 ^ 63 ≤ count) (h2 : count < -2 ^ 63 + 6) :
    run (readAllDeltaFast count st out prev) m = (.panic .slice, m) := by
  have hn := hdr_nonpos (by omega) (show count ≤ 0 by omega)
  have hv := hdr_val (count := count) (by omega) (by omega)
  have hl : 0 < lowest32Of (hdr count) := low32_ovf (by omega) (by split at hv <;> omega)
  unfold readAllDeltaFast
  rw [show goDiv (int64 (count + 3)) 4 = hdr count from rfl]
  simp only [Prog.bind_eq]
  rw [loop_panic (by simp; omega) (rdf32_neg (by simp only; omega))]
  rfl

/-! ## Negative counts, scalar readers -/

/-- What `ReadAllScalar` does for a negative count: both loops are skipped; unless the count is a multiple of
four the call at `/repo/pkg/stream/reader/reader.go:94-96` follows. -/
private theorem scalar_nonpos {count : Int} {st : Bytes} {out : U32s} (h1 : -2 ^ 63 ≤ count) (h2 : count ≤ 0) :
    readAllScalar count st out = if count % 4 = 0 then .ret () else
      (st.from (hdr count)).bind fun d => (out.from 0).bind fun o => (getB st 0).bind fun c =>
        (getUint32Scalar d o c (count % 4)).bind fun _ => .ret () := by
  unfold readAllScalar
  rw [show goDiv (int64 (count + 3)) 4 = hdr count from rfl, jump15 h1 (by omega), andNot3 h1 (by omega)]
  simp only [Prog.bind_eq, Prog.pure_eq]
  rw [loop_skip (by simp; omega), Prog.ret_bind, loop_skip (by simp; omega), Prog.ret_bind]
  by_cases h : count % 4 = 0
  · rw [if_neg (by omega), if_pos h]
  · rw [if_pos (by omega), if_neg h, int64_eq (by omega) (by omega),
      show count - (count - count % 4) = count % 4 by omega]

private theorem scalarDelta_nonpos {count : Int} {st : Bytes} {out : U32s} (prev : U32) (h1 : -2 ^ 63 ≤ count)
    (h2 : count ≤ 0) :
    readAllDeltaScalar count st out prev = if count % 4 = 0 then .ret () else
      (st.from (hdr count)).bind fun d => (out.from 0).bind fun o => (getB st 0).bind fun c =>
        (getUint32DeltaScalar d o c (count % 4) prev).bind fun _ => .ret () := by
  unfold readAllDeltaScalar
  rw [show goDiv (int64 (count + 3)) 4 = hdr count from rfl, jump15 h1 (by omega), andNot3 h1 (by omega)]
  simp only [Prog.bind_eq, Prog.pure_eq]
  rw [loop_skip (by simp; omega), Prog.ret_bind, loop_skip (by simp; omega), Prog.ret_bind]
  by_cases h : count % 4 = 0
  · rw [if_neg (by omega), if_pos h]
  · rw [if_pos (by omega), if_neg h, int64_eq (by omega) (by omega),
      show count - (count - count % 4) = count % 4 by omega]

/-- C31 is false of the scalar readers: `ReadAllScalar(-1, stream, out)` overwrites `out[0:3]`, and
`ReadAllScalar(-9, stream, out)` panics; `ReadAllFast` does nothing in both cases. -/
theorem C31_false_readAllScalar :
    ∃ (st : Bytes) (out : U32s) (m : Mem), ReaderPre 3 st out m ∧
      (run (readAllScalar (-1) st out) m).1 = .ok () ∧
      (run (readAllScalar (-1) st out) m).2 ≠ m ∧
      run (readAllScalar (-9) st out) m = (.panic .slice, m) := by
  refine ⟨⟨.heap 1, 0, 5, 5⟩, ⟨.heap 2, 0, 3, 3⟩, memWith [] [0, 7, 8, 9, 10],
    ⟨memWith_tables _ _, by decide, ⟨by decide, rfl, by decide⟩, .inl (by decide), by decide⟩,
    by decide +kernel, ?_, ?_⟩
  · intro h
    have := congrFun h ⟨.heap 2, 4⟩
    revert this; decide +kernel
  · rw [scalar_nonpos (by omega) (by omega), if_neg (by decide), from_neg (by decide)]; rfl

theorem C31_false_readAllDeltaScalar :
    ∃ (st : Bytes) (out : U32s) (prev : U32) (m : Mem), ReaderPre 3 st out m ∧
      (run (readAllDeltaScalar (-1) st out prev) m).1 = .ok () ∧
      (run (readAllDeltaScalar (-1) st out prev) m).2 ≠ m ∧
      run (readAllDeltaScalar (-9) st out prev) m = (.panic .slice, m) := by
  refine ⟨⟨.heap 1, 0, 5, 5⟩, ⟨.heap 2, 0, 3, 3⟩, 1, memWith [] [0, 7, 8, 9, 10],
    ⟨memWith_tables _ _, by decide, ⟨by decide, rfl, by decide⟩, .inl (by decide), by decide⟩,
    by decide +kernel, ?_, ?_⟩
  · intro h
    have := congrFun h ⟨.heap 2, 4⟩
    revert this; decide +kernel
  · rw [scalarDelta_nonpos _ (by omega) (by omega), if_neg (by decide), from_neg (by decide)]; rfl

/-- C31, what is true of `ReadAllScalar` for non-positive counts, completely: multiples of four are no-ops,
other counts below -6 panic at once; -1, -2, -3, -5, -6 behave like `GetUint32Scalar` with 3, 2, 1, 3, 2 on
the start of the stream (the control byte itself being the first data byte).
(`_partial`: the full statement wants a no-op for all of them.) -/
theorem C31_readAllScalar_partial {count : Int} {st : Bytes} {out : U32s} {m : Mem}
    (h1 : -2 ^ 63 ≤ count) (h2 : count ≤ 0) :
    (count % 4 = 0 → run (readAllScalar count st out) m = (.ok (), m)) ∧
    (count ≤ -7 → count % 4 ≠ 0 → run (readAllScalar count st out) m = (.panic .slice, m)) ∧
    (-6 ≤ count → count % 4 ≠ 0 → run (readAllScalar count st out) m =
      run ((getB st 0).bind fun c => (getUint32Scalar st out c (count % 4)).bind fun _ => .ret ()) m) := by
  have hn := hdr_nonpos h1 h2
  rw [scalar_nonpos h1 h2]
  refine ⟨fun h => ?_, fun h h' => ?_, fun h h' => ?_⟩
  · rw [if_pos h]; rfl
  · rw [if_neg h', from_neg (by omega)]; rfl
  · rw [if_neg h', show hdr count = 0 by omega]
    unfold Slice.from
    rw [if_pos (by omega), if_pos (by omega)]
    rfl

theorem C31_readAllDeltaScalar_partial {count : Int} {st : Bytes} {out : U32s} {m : Mem} (prev : U32)
    (h1 : -2 ^ 63 ≤ count) (h2 : count ≤ 0) :
    (count % 4 = 0 → run (readAllDeltaScalar count st out prev) m = (.ok (), m)) ∧
    (count ≤ -7 → count % 4 ≠ 0 → run (readAllDeltaScalar count st out prev) m = (.panic .slice, m)) ∧
    (-6 ≤ count → count % 4 ≠ 0 → run (readAllDeltaScalar count st out prev) m =
      run ((getB st 0).bind fun c =>
        (getUint32DeltaScalar st out c (count % 4) prev).bind fun _ => .ret ()) m) := by
  have hn := hdr_nonpos h1 h2
  rw [scalarDelta_nonpos prev h1 h2]
  refine ⟨fun h => ?_, fun h h' => ?_, fun h h' => ?_⟩
  · rw [if_pos h]; rfl
  · rw [if_neg h', from_neg (by omega)]; rfl
  · rw [if_neg h', show hdr count = 0 by omega]
    unfold Slice.from
    rw [if_pos (by omega), if_pos (by omega)]
    rfl

example {st : Bytes} {out : U32s} {m : Mem} :=
  C31_readAllScalar_partial (count := -5) (st := st) (out := out) (m := m) (by omega) (by omega)

end SVB.Props
