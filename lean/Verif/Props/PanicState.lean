import Verif.Props.Readers

/-! # C54: what is in `out` after a reader has panicked -/

set_option autoImplicit false

namespace SVB.Props
open Spec

/-- Numbers of the given lengths from the beginning of a byte string, as many as are complete. -/
def readSome : List Nat → List Byte → List U32
  | [], _ => []
  | l :: ls, bs =>
    if bs.length < l then [] else BitVec.ofNat 32 (leValue (bs.take l)) :: readSome ls (bs.drop l)

/-- The numbers that lie completely inside a stream of `n` numbers that may be too short. -/
def decodeSome (n : Nat) (s : List Byte) : List U32 :=
  if s.length < ctrlLen n then [] else readSome (lengths n s) (s.drop (ctrlLen n))

/-- If the stream is long enough these are all the numbers. -/
theorem decodeSome_full {n : Nat} {s : List Byte} {xs : List U32} (h : decode n s = some xs) : decodeSome n s = xs := by
  have key : ∀ (ls : List Nat) (bs : List Byte) (xs : List U32), readNums ls bs = some xs → readSome ls bs = xs := by
    intro ls
    induction ls with
    | nil => intro bs xs h; cases h; rfl
    | cons l ls ih =>
      intro bs xs h
      unfold readNums at h
      split at h
      · cases h
      · rename_i hl
        cases e : readNums ls (bs.drop l) with
        | none => rw [e] at h; cases h
        | some zs =>
          rw [e] at h
          simp only [Option.map_some, Option.some.injEq] at h
          subst h
          simp only [readSome, if_neg hl, ih _ _ e]
  unfold decode at h
  unfold decodeSome
  split at h
  · cases h
  · rename_i hl; rw [if_neg hl]; exact key _ _ _ h

private theorem readSome_eq (m : Mem) (st : Bytes) (n k i j : Nat) (hi : ctrlLen n + psum (rsz st m) i ≤ st.len)
    (hij : i ≤ j) (hj : j ≤ i + k) (h1 : ¬ Short st n m j) (h2 : j = i + k ∨ Short st n m (j + 1)) :
    readSome ((List.range' i k).map (rsz st m)) ((bytesOf m st).drop (ctrlLen n + psum (rsz st m) i)) =
      (List.range' i (j - i)).map (rd st n m) := by
  have hB : rB st n = st.off + ctrlLen n := rfl
  induction k generalizing i with
  | zero =>
    obtain rfl : j = i := by omega
    simp [readSome]
  | succ k ih =>
    rw [List.range'_succ]
    simp only [List.map_cons, readSome, List.length_drop, bytesOf_length]
    have hs : psum (rsz st m) (i + 1) = psum (rsz st m) i + rsz st m i := rfl
    by_cases e : j = i
    · subst e
      rw [if_pos]
      · simp
      · rcases h2 with h2 | h2
        · omega
        · unfold Short at h2; omega
    · have hle : ¬ Short st n m (i + 1) := fun h => h1 (h.mono (by omega))
      have hle' : rB st n + psum (rsz st m) (i + 1) ≤ st.off + st.len := Classical.not_not.1 hle
      rw [if_neg (by omega), List.drop_drop, leValue_take _ _ _ _ (by omega)]
      have := ih (i + 1) (by omega) (by omega) (by omega) (h2.imp_left fun h => by omega)
      rw [hs, ← Nat.add_assoc] at this
      rw [this, show j - i = (j - (i + 1)) + 1 by omega, List.range'_succ, List.map_cons]
      congr 1
      rw [rd, hB, Nat.add_assoc]

private theorem decodeSome_eq {m : Mem} {st : Bytes} {n j : Nat} (hj : j < n) (h1 : j = 0 ∨ ¬ Short st n m j)
    (h2 : Short st n m (j + 1)) : decodeSome n (bytesOf m st) = (List.range j).map (rd st n m) := by
  have hB : rB st n = st.off + ctrlLen n := rfl
  unfold decodeSome
  rw [bytesOf_length]
  split
  · rename_i hl
    rcases h1 with rfl | h1
    · rfl
    · exact absurd (show ¬ (rB st n + psum (rsz st m) j ≤ st.off + st.len) by omega) h1
  · rename_i hl
    have h0 : ¬ Short st n m j := by
      rcases h1 with rfl | h1
      · intro h; exact h (by simp only [psum_zero]; omega)
      · exact h1
    have := readSome_eq m st n n 0 j (by simp only [psum_zero]; omega) (by omega) (by omega) h0 (.inr h2)
    simp only [psum_zero, Nat.add_zero, Nat.sub_zero] at this
    rw [lengths_eq m st n (by omega), List.range_eq_range', this, ← List.range_eq_range']

/-- There is a first number that is not inside a short stream. -/
private theorem first_short {m : Mem} {st : Bytes} {n N : Nat} (hn : 0 < N) (h : Short st n m N) :
    ∃ c < N, (c = 0 ∨ ¬ Short st n m c) ∧ Short st n m (c + 1) := by
  induction N with
  | zero => omega
  | succ N ih =>
    by_cases h0 : N = 0
    · subst h0; exact ⟨0, by omega, .inl rfl, h⟩
    · by_cases hN : Short st n m N
      · obtain ⟨c, h1, h2⟩ := ih (by omega) hN
        exact ⟨c, by omega, h2⟩
      · exact ⟨N, by omega, .inr hN, h⟩

private theorem first_unique {m : Mem} {st : Bytes} {n c d : Nat} (hc : Short st n m (c + 1)) (hd : d = 0 ∨ ¬ Short st n m d) :
    d ≤ c := by
  rcases hd with rfl | hd
  · omega
  · exact Nat.le_of_not_lt fun h => hd (hc.mono h)

private theorem panic_state {p : Prog Unit} {st : Bytes} {out : U32s} {n : Nat} {m m' : Mem} {y : Nat → U32} {X : Nat → Prop}
    {Z : Ptr → Prop} {Q : Unit → Mem → Prop} {k : Panic} (h : wp (rctxP st out n m y X Z) p m Q)
    (hr : run p m = (.panic k, m')) : ∃ j, RI st out n m y m' j ∧ X j := by
  have := ((wp_iff _ _ _ _).1 h).2
  rw [hr] at this
  exact this.2

/-- C54: `ReadAllScalar` on a stream that is too short stores the numbers of the groups that lie completely inside the
stream, and of the last group, if it is shorter, the numbers that lie inside the stream; then it panics.  All the
remaining memory is as before. -/
theorem C54_scalar {n : Nat} {st : Bytes} {out : U32s} {m m' : Mem} {k : Panic} (h : ReaderPre n st out m)
    (hr : run (readAllScalar n st out) m = (.panic k, m')) :
    let xs := decodeSome n (bytesOf m st)
    let j := if xs.length < n / 4 * 4 then xs.length / 4 * 4 else xs.length
    xs.length < n ∧ wordsN m' out j = xs.take j ∧ ∀ q, ¬ inFirst out j q → m' q = m q := by
  obtain ⟨j, hI, hjn, hj0, hX⟩ := panic_state (readAllScalar_specP (Z := fun _ => True) h.rhyp) hr
  have hs : Short st n m n := by
    rcases hX with ⟨h1, -, h2⟩ | ⟨-, h2⟩
    · exact h2.mono h1
    · exact h2.mono hjn
  obtain ⟨c, hc, hc0, hc1⟩ := first_short (by omega) hs
  intro xs j'
  have hx : xs = _ := decodeSome_eq hc hc0 hc1
  have hxl : xs.length = c := by rw [hx]; simp
  have hjc : j ≤ c := first_unique hc1 hj0
  have hj : j' = j := by
    show (if xs.length < n / 4 * 4 then xs.length / 4 * 4 else xs.length) = j
    rw [hxl]
    rcases hX with ⟨h1, h2, h3⟩ | ⟨h1, h3⟩
    · have := first_unique (c := j + 3) h3 hc0
      rw [if_pos (by omega)]; omega
    · have := first_unique (c := j) h3 hc0
      rw [if_neg (by omega)]; omega
  rw [hj]
  refine ⟨by omega, ?_, fun q hq => hI.frameI q hq⟩
  rw [wordsN_eq fun t ht => hI.words t ht (Classical.not_not.1 fun hh => ?_), hx, ← List.map_take, List.take_range,
    Nat.min_eq_left hjc]
  have : ¬ Short st n m j := by
    rcases hj0 with rfl | h0
    · omega
    · exact h0
  exact this (Short.mono hh (by omega))

/-- C54: `ReadAllDeltaScalar` stores exactly the numbers that lie completely inside the stream. -/
theorem C54_deltaScalar {n : Nat} {st : Bytes} {out : U32s} {m m' : Mem} {k : Panic} (prev : U32) (h : ReaderPre n st out m)
    (hr : run (readAllDeltaScalar n st out prev) m = (.panic k, m')) :
    let ys := undelta prev (decodeSome n (bytesOf m st))
    ys.length < n ∧ wordsN m' out ys.length = ys ∧ ∀ q, ¬ inFirst out ys.length q → m' q = m q := by
  obtain ⟨j, hI, hjn, hj0, hj1⟩ := panic_state (readAllDeltaScalar_specP (Z := fun _ => True) prev h.rhyp
    (fun _ _ => trivial)) hr
  intro ys
  have hx : ys = (List.range j).map (ysum (rd st n m) prev) := by
    show undelta prev (decodeSome n (bytesOf m st)) = _
    rw [decodeSome_eq hjn hj0 hj1, undelta_range]
  have hl : ys.length = j := by rw [hx]; simp
  rw [hl]
  refine ⟨hjn, ?_, fun q hq => hI.frameI q hq⟩
  rw [wordsN_eq fun t ht => hI.words t ht (Classical.not_not.1 fun hh => ?_), hx]
  have : ¬ Short st n m j := by
    rcases hj0 with rfl | h0
    · omega
    · exact h0
  exact this (Short.mono hh (by omega))

private theorem fast_state {st : Bytes} {out : U32s} {n : Nat} {m m' : Mem} {y : Nat → U32} {j : Nat}
    (hI : RI st out n m y m' j) (hX : XF st n m j) : ∃ c j, c < n ∧
      decodeSome n (bytesOf m st) = (List.range c).map (rd st n m) ∧ c ≤ j ∧ j ≤ c + 8 ∧ j < n ∧
      wordsN m' out c = (List.range c).map y ∧ ∀ q, ¬ inFirst out j q → m' q = m q := by
  obtain ⟨hjn, h8, hj1⟩ := hX
  obtain ⟨c, hc, hc0, hc1⟩ := first_short (by omega) (hj1.mono hjn)
  have hcj : c ≤ j := first_unique hj1 hc0
  refine ⟨c, j, hc, decodeSome_eq hc hc0 hc1, hcj, ?_, hjn, ?_, fun q hq => hI.frameI q hq⟩
  · rcases h8 with h8 | h8
    · omega
    · have := first_unique hc1 (.inr h8); omega
  · refine wordsN_eq fun t ht => hI.words t (by omega) (Classical.not_not.1 fun hh => ?_)
    have : ¬ Short st n m c := by
      rcases hc0 with rfl | h0
      · omega
      · exact h0
    exact this (Short.mono hh (by omega))

/-- C54: the vector readers store all the numbers that lie completely inside the stream before they panic, and at most
eight words behind them; all the remaining memory is as before. -/
theorem C54_fast {n : Nat} {st : Bytes} {out : U32s} {m m' : Mem} {k : Panic} (h : ReaderPre n st out m)
    (hr : run (readAllFast n st out) m = (.panic k, m')) :
    let xs := decodeSome n (bytesOf m st)
    ∃ j < n, xs.length ≤ j ∧ j ≤ xs.length + 8 ∧ wordsN m' out xs.length = xs ∧ ∀ q, ¬ inFirst out j q → m' q = m q := by
  obtain ⟨j, hI, hX⟩ := panic_state (readAllFast_specP (Z := fun _ => True) h.rhyp (fun _ _ => trivial)) hr
  obtain ⟨c, j, h1, h2, h3, h4, h5, h6, h7⟩ := fast_state hI hX
  intro xs
  have hx : xs = _ := h2
  have hl : xs.length = c := by rw [hx]; simp
  rw [hl]
  exact ⟨j, h5, h3, h4, by rw [hx, h6], h7⟩

theorem C54_deltaFast {n : Nat} {st : Bytes} {out : U32s} {m m' : Mem} {k : Panic} (prev : U32) (h : ReaderPre n st out m)
    (hr : run (readAllDeltaFast n st out prev) m = (.panic k, m')) :
    let ys := undelta prev (decodeSome n (bytesOf m st))
    ∃ j < n, ys.length ≤ j ∧ j ≤ ys.length + 8 ∧ wordsN m' out ys.length = ys ∧ ∀ q, ¬ inFirst out j q → m' q = m q := by
  obtain ⟨j, hI, hX⟩ := panic_state (readAllDeltaFast_specP (Z := fun _ => True) prev h.rhyp (fun _ _ => trivial)
    (fun _ _ => trivial)) hr
  obtain ⟨c, j, h1, h2, h3, h4, h5, h6, h7⟩ := fast_state hI hX
  intro ys
  have hx : ys = (List.range c).map (ysum (rd st n m) prev) := by
    show undelta prev (decodeSome n (bytesOf m st)) = _
    rw [h2, undelta_range]
  have hl : ys.length = c := by rw [hx]; simp
  rw [hl]
  exact ⟨j, h5, h3, h4, by rw [hx, h6], h7⟩

private theorem wordsN_take (m : Mem) (out : U32s) {i j : Nat} (h : i ≤ j) : (wordsN m out j).take i = wordsN m out i := by
  simp only [wordsN]
  rw [← List.map_take, List.take_range, Nat.min_eq_left h]

/-- What a caller can rely on after a panic without knowing the reader: the numbers of the complete groups of four that
lie inside the stream are there, and nothing has changed beyond `min n (c + 8)` words, `c` the number of numbers inside
the stream. -/
private def Rest (out : U32s) (n c : Nat) (m m' : Mem) (ys : List U32) : Prop :=
  c < n ∧ wordsN m' out (c / 4 * 4) = ys.take (c / 4 * 4) ∧ ∀ q, ¬ inFirst out (min n (c + 8)) q → m' q = m q

private theorem inFirst_mono {out : U32s} {i j : Nat} {q : Ptr} (h : i ≤ j) (hq : inFirst out i q) : inFirst out j q :=
  ⟨hq.1, hq.2.1, by have := hq.2.2; omega⟩

private theorem rest_of {out : U32s} {n c i j : Nat} {m m' : Mem} {ys : List U32} (hc : c < n) (h1 : c / 4 * 4 ≤ i)
    (h3 : j ≤ c + 8) (h4 : j ≤ n) (h5 : wordsN m' out i = ys.take i)
    (h6 : ∀ q, ¬ inFirst out j q → m' q = m q) : Rest out n c m m' ys := by
  refine ⟨hc, ?_, fun q hq => h6 q fun h => hq (inFirst_mono (by omega) h)⟩
  rw [← wordsN_take _ _ h1, h5, List.take_take, Nat.min_eq_left h1]

/-- C54: for every reader the numbers of the groups that lie completely inside the stream are in `out` after a panic, and
nothing has changed further than eight words behind the last number that lies inside the stream. -/
theorem C54_any (f : Fn) {n : Nat} {st : Bytes} {out : U32s} {m m' : Mem} {k : Panic} (h : ReaderPre n st out m)
    (hr : run (f.read n st out) m = (.panic k, m')) :
    let xs := decodeSome n (bytesOf m st)
    let c := xs.length
    c < n ∧ wordsN m' out (c / 4 * 4) = xs.take (c / 4 * 4) ∧ ∀ q, ¬ inFirst out (min n (c + 8)) q → m' q = m q := by
  intro xs c
  have hs (hr : run (readAllScalar n st out) m = (.panic k, m')) : Rest out n c m m' xs := by
    obtain ⟨h1, h2, h3⟩ := C54_scalar h hr
    have h1 : c < n := h1
    refine rest_of h1 ?_ ?_ ?_ h2 h3
    · show c / 4 * 4 ≤ if c < n / 4 * 4 then c / 4 * 4 else c
      split <;> omega
    · show (if c < n / 4 * 4 then c / 4 * 4 else c) ≤ _
      split <;> omega
    · show (if c < n / 4 * 4 then c / 4 * 4 else c) ≤ _
      split <;> omega
  have hf (hr : run (readAllFast n st out) m = (.panic k, m')) : Rest out n c m m' xs := by
    obtain ⟨j, h1, h2, h3, h4, h5⟩ := C54_fast h hr
    have h2 : c ≤ j := h2
    refine rest_of (i := c) (by omega) (by omega) h3 (by omega) ?_ h5
    rw [List.take_length]; exact h4
  cases f with
  | scalar => exact hs hr
  | fast => exact hf hr
  | auto c => rcases readAll_cases c n st out with e | e <;> simp only [Fn.read, e] at hr <;> first | exact hs hr | exact hf hr

theorem C54_delta_any (f : Fn) {n : Nat} {st : Bytes} {out : U32s} {m m' : Mem} {k : Panic} (prev : U32)
    (h : ReaderPre n st out m) (hr : run (f.readDelta n st out prev) m = (.panic k, m')) :
    let ys := undelta prev (decodeSome n (bytesOf m st))
    let c := ys.length
    c < n ∧ wordsN m' out c = ys ∧ ∀ q, ¬ inFirst out (min n (c + 8)) q → m' q = m q := by
  intro ys c
  have hs (hr : run (readAllDeltaScalar n st out prev) m = (.panic k, m')) :
      c < n ∧ wordsN m' out c = ys ∧ ∀ q, ¬ inFirst out (min n (c + 8)) q → m' q = m q := by
    obtain ⟨h1, h2, h3⟩ := C54_deltaScalar prev h hr
    have h1 : c < n := h1
    exact ⟨h1, h2, fun q hq => h3 q fun h => hq (inFirst_mono (show c ≤ _ by omega) h)⟩
  have hf (hr : run (readAllDeltaFast n st out prev) m = (.panic k, m')) :
      c < n ∧ wordsN m' out c = ys ∧ ∀ q, ¬ inFirst out (min n (c + 8)) q → m' q = m q := by
    obtain ⟨j, h1, h2, h3, h4, h5⟩ := C54_deltaFast prev h hr
    have h2 : c ≤ j := h2
    have h3 : j ≤ c + 8 := h3
    exact ⟨by omega, h4, fun q hq => h5 q fun h => hq (inFirst_mono (by omega) h)⟩
  cases f with
  | scalar => exact hs hr
  | fast => exact hf hr
  | auto c =>
    rcases readAllDelta_cases c n st out prev with e | e <;> simp only [Fn.readDelta, e] at hr <;>
      first | exact hs hr | exact hf hr

/-- A stream of 17 numbers of one byte each that ends after the first six; the bytes behind it belong to somebody else. -/
def exCut : Mem := memWith [] [0, 0, 0, 0, 0, 1, 2, 3, 4, 5, 6, 0xa0, 0xa1, 0xa2, 0xa3, 0xa4, 0xa5, 0xa6, 0xa7, 0xa8, 0xa9, 0xaa]
def exCutSt : Bytes := ⟨.heap 1, 0, 11, 11⟩
def exCutOut : U32s := ⟨.heap 2, 0, 17, 17⟩

theorem exCutPre : ReaderPre 17 exCutSt exCutOut exCut :=
  ⟨memWith_tables _ _, by decide, ⟨by decide, rfl, by decide⟩, .inl (by decide), by decide⟩

example : decodeSome 17 (bytesOf exCut exCutSt) = [1, 2, 3, 4, 5, 6] := by decide +kernel

/-- What a reader leaves in the first eight places of `out`. -/
def leftBy (p : Prog Unit) : Option (Panic × List U32) :=
  match run p exCut with
  | (.ok _, _) => none
  | (.panic k, m') => some (k, wordsN m' exCutOut 8)

/-- C54: after `ReadAllScalar` has panicked, `out` holds the first group only (the other places are zero as before). -/
theorem C54_scalar_example : leftBy (readAllScalar 17 exCutSt exCutOut) = some (.slice, [1, 2, 3, 4, 0, 0, 0, 0]) := by
  decide +kernel

/-- C54: after `ReadAllDeltaScalar` has panicked, `out` holds all the numbers inside the stream. -/
theorem C54_deltaScalar_example :
    leftBy (readAllDeltaScalar 17 exCutSt exCutOut 0) = some (.index, [1, 3, 6, 10, 15, 21, 0, 0]) := by decide +kernel

/-- C54: after `ReadAllFast` has panicked, `out` can hold bytes from behind the stream. -/
theorem C54_fast_leak : leftBy (readAllFast 17 exCutSt exCutOut) = some (.slice, [1, 2, 3, 4, 5, 6, 0xa0, 0xa1]) := by
  decide +kernel

end SVB.Props
