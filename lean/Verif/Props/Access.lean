import Verif.Props.Blocks
import Verif.Props.Readers
import Verif.Proofs.Local

/-! # C52: single groups of a stream, C53: what a damaged byte changes -/

set_option autoImplicit false

namespace SVB.Props
open Spec

/-! ## C52: random access -/

/-- The control byte of group `k`, as `stream[k]` loads it. -/
def ctrlOf (m : Mem) (st : Bytes) (k : Nat) : Byte := m ⟨st.blk, st.off + k⟩

/-- C52: the data of the first group begins after the control bytes, and `ControlByteToSize` of a control byte is the
distance to the data of the next group. -/
theorem C52_seek {n k : Nat} {st : Bytes} {m : Mem} (hT : TablesLoaded m) (hs : ctrlLen n ≤ st.len) (hk : 4 * k + 4 ≤ n) :
    numPos n (bytesOf m st) 0 = ctrlLen n ∧
    run (controlByteToSize (ctrlOf m st k)) m =
      (.ok ((numPos n (bytesOf m st) (4 * (k + 1)) : Int) - numPos n (bytesOf m st) (4 * k)), m) := by
  refine ⟨by simp [numPos], ?_⟩
  rw [(C37_size _ hT).1, numPos_succ hk, bytesOf_getD _ _ _ (by simp only [ctrlLen] at hs; omega)]
  unfold ctrlOf
  congr 2
  omega

private theorem bytesOf_from {st : Bytes} {m : Mem} {p : Nat} :
    bytesOf m ⟨st.blk, st.off + 1 * p, st.len - p, st.cap - p⟩ = (bytesOf m st).drop p := by
  refine List.ext_getElem (by simp [bytesOf]) fun i h1 h2 => ?_
  simp only [bytesOf, List.getElem_map, List.getElem_range, List.getElem_drop]
  rw [Nat.one_mul, Nat.add_assoc]

private theorem from_run {α : Type} {st : Bytes} {m : Mem} {p : Nat} (h : p ≤ st.len) (f : Bytes → Prog α) :
    run (st.from (p : Int) >>= f) m = run (f ⟨st.blk, st.off + 1 * p, st.len - p, st.cap - p⟩) m := by
  rw [Prog.bind_eq, run_bind, Slice.from, if_pos ⟨by omega, by omega⟩]
  rfl

private theorem disj_from {st : Bytes} {out : U32s} (p : Nat) (hp : p ≤ st.len) (h : Disjoint st out) :
    Disjoint (⟨st.blk, st.off + 1 * p, st.len - p, st.cap - p⟩ : Bytes) out := by
  rcases h with h | h | h
  · exact .inl h
  · exact .inr (.inl (by simp only at h ⊢; omega))
  · exact .inr (.inr (by simp only at h ⊢; omega))

/-- C52: decode group `k` of a stream alone, by `GetUint32Scalar` with the number of numbers in the group: it delivers the
numbers that `ReadAll` delivers there, and returns the number of their data bytes. -/
theorem C52_group {n k c : Nat} {st : Bytes} {out : U32s} {m : Mem} {xs : List U32} (hd : Disjoint st out)
    (h : decode n (bytesOf m st) = some xs) (hc : c ≤ 4) (hk : 4 * k + c ≤ n) (hk' : 4 * k < n) (ho : c ≤ out.len) :
    ∃ m', run (st.from (numPos n (bytesOf m st) (4 * k)) >>= fun d => getUint32Scalar d out (ctrlOf m st k) c) m =
        (.ok ((codeLens c (ctrlOf m st k).toNat).sum : Int), m') ∧
      wordsN m' out c = (xs.drop (4 * k)).take c ∧ ∀ q, ¬ inPrefix out c q → m' q = m q := by
  have hl := numPos_le h (4 * k) c
  have hg := decode_group h (4 * k) c
  have hcl := decode_some_len h
  rw [bytesOf_length] at hl hcl
  rw [lengths_group hc hk, bytesOf_getD _ _ _ (by simp only [ctrlLen] at hcl; omega)] at hl hg
  rw [from_run (by omega)]
  have hh := C20_get (c : Int) (n := c) (by omega) (m := m) (ctrlOf m st k)
    (disj_from (numPos n (bytesOf m st) (4 * k)) (by omega) hd)
  obtain ⟨m', e1, e2⟩ := hh.1 ⟨ho, by show (codeLens c (ctrlOf m st k).toNat).sum ≤ st.len - _; unfold ctrlOf; omega⟩
  have e3 := hh.2.2
  rw [e1] at e3
  rw [bytesOf_from] at e2
  exact ⟨m', e1, Option.some.inj (e2.trans hg), e3⟩

private theorem undelta_drop (prev : U32) (ds : List U32) (i : Nat) :
    (undelta prev ds).drop i = undelta (((undelta prev ds).take i).getLast?.getD prev) (ds.drop i) := by
  by_cases h : i ≤ ds.length
  · have := undelta_append prev (ds.take i) (ds.drop i)
    rw [List.take_append_drop, undelta_take] at this
    rw [this, List.drop_left' (by rw [List.length_take, undelta_length]; omega), ← this]
  · rw [List.drop_of_length_le (by rw [undelta_length]; omega), List.drop_of_length_le (by omega)]; rfl

/-- C52, the delta variant, from the number before the group. -/
theorem C52_groupDelta {n k c : Nat} {st : Bytes} {out : U32s} {m : Mem} {ys : List U32} (prev : U32) (hd : Disjoint st out)
    (h : decodeDelta prev n (bytesOf m st) = some ys) (hc : c ≤ 4) (hk : 4 * k + c ≤ n) (hk' : 4 * k < n)
    (ho : c ≤ out.len) :
    ∃ m', run (st.from (numPos n (bytesOf m st) (4 * k)) >>= fun d =>
        getUint32DeltaScalar d out (ctrlOf m st k) c ((ys.take (4 * k)).getLast?.getD prev)) m =
        (.ok ((codeLens c (ctrlOf m st k).toNat).sum : Int), m') ∧
      wordsN m' out c = (ys.drop (4 * k)).take c ∧ ∀ q, ¬ inPrefix out c q → m' q = m q := by
  unfold decodeDelta at h
  cases hx : decode n (bytesOf m st) with
  | none => rw [hx] at h; cases h
  | some xs =>
    rw [hx] at h
    cases h
    have hl := numPos_le hx (4 * k) c
    have hg := decode_group hx (4 * k) c
    have hcl := decode_some_len hx
    rw [bytesOf_length] at hl hcl
    rw [lengths_group hc hk, bytesOf_getD _ _ _ (by simp only [ctrlLen] at hcl; omega)] at hl hg
    rw [from_run (by omega)]
    have hh := C20_getDelta (c : Int) (n := c) (by omega) (m := m) (ctrlOf m st k)
      (((undelta prev xs).take (4 * k)).getLast?.getD prev)
      (disj_from (numPos n (bytesOf m st) (4 * k)) (by omega) hd)
    obtain ⟨m', e1, e2⟩ := hh.1 ⟨ho, by show (codeLens c (ctrlOf m st k).toNat).sum ≤ st.len - _; unfold ctrlOf; omega⟩
    have e3 := hh.2.2
    rw [e1] at e3
    rw [bytesOf_from, show ctrlOf m st k = m ⟨st.blk, st.off + k⟩ from rfl, hg, Option.map_some, Option.some.injEq] at e2
    refine ⟨m', e1, ?_, e3⟩
    rw [e2, undelta_take]
    rw [undelta_drop]

/-- C52: two groups at once by `Get8uint32` in any variant on any CPU; the control value is `stream[k] | stream[k+1] << 8`. -/
theorem C52_two_groups (f : Fn) {n k : Nat} {st : Bytes} {out : U32s} {m : Mem} {xs : List U32} (hp : BlockPre st out m)
    (h : decode n (bytesOf m st) = some xs) (hk : 4 * k + 8 ≤ n) (ho : 8 ≤ out.len) :
    ∃ m', run (st.from (numPos n (bytesOf m st) (4 * k)) >>= fun d =>
        f.get8 d out (ctrlOf m st (k + 1) ++ ctrlOf m st k)) m = (.ok (), m') ∧
      wordsN m' out 8 = (xs.drop (4 * k)).take 8 ∧ ∀ q, ¬ inPrefix out 8 q → m' q = m q := by
  have hl := numPos_le h (4 * k) 8
  have hg := decode_group h (4 * k) 8
  have hcl := decode_some_len h
  rw [bytesOf_length] at hl hcl
  simp only [ctrlLen] at hcl
  rw [lengths_group8 hk, bytesOf_getD _ _ _ (by omega), bytesOf_getD _ _ _ (by omega)] at hl hg
  rw [from_run (by omega)]
  have hh := get8_res f (inn := ⟨st.blk, st.off + 1 * numPos n (bytesOf m st) (4 * k), _, _⟩)
    (ctrlOf m st (k + 1) ++ ctrlOf m st k) (m := m) (out := out)
    ⟨hp.tables, hp.heap, disj_from (numPos n (bytesOf m st) (4 * k)) (by omega) hp.disj⟩
    (by rw [← codeLens_sum]; unfold ctrlOf; show _ ≤ st.len - _; omega) ho
  obtain ⟨m', e1, e2⟩ := hh.good trivial
  have e3 := hh.frame
  rw [e1] at e3
  refine ⟨m', e1, ?_, fun q hq => e3 q hq⟩
  rw [← bytesOf_from, readNums_block, if_pos (by show _ ≤ st.len - _; omega)] at hg
  rw [e2]
  exact Option.some.inj hg

/-- C52, two groups at once, the delta variant. -/
theorem C52_two_groupsDelta (f : Fn) (prev : U32) {n k : Nat} {st : Bytes} {out : U32s} {m : Mem} {ys : List U32} (hp : BlockPre st out m)
    (h : decodeDelta prev n (bytesOf m st) = some ys) (hk : 4 * k + 8 ≤ n) (ho : 8 ≤ out.len) :
    ∃ m', run (st.from (numPos n (bytesOf m st) (4 * k)) >>= fun d =>
        f.get8Delta d out (ctrlOf m st (k + 1) ++ ctrlOf m st k) ((ys.take (4 * k)).getLast?.getD prev)) m = (.ok (), m') ∧
      wordsN m' out 8 = (ys.drop (4 * k)).take 8 ∧ ∀ q, ¬ inPrefix out 8 q → m' q = m q := by
  unfold decodeDelta at h
  cases hx : decode n (bytesOf m st) with
  | none => rw [hx] at h; cases h
  | some xs =>
    rw [hx] at h
    cases h
    have hl := numPos_le hx (4 * k) 8
    have hg := decode_group hx (4 * k) 8
    have hcl := decode_some_len hx
    rw [bytesOf_length] at hl hcl
    simp only [ctrlLen] at hcl
    rw [lengths_group8 hk, bytesOf_getD _ _ _ (by omega), bytesOf_getD _ _ _ (by omega)] at hl hg
    rw [from_run (by omega)]
    have hh := get8Delta_res f (inn := ⟨st.blk, st.off + 1 * numPos n (bytesOf m st) (4 * k), _, _⟩)
      (ctrlOf m st (k + 1) ++ ctrlOf m st k) (((undelta prev xs).take (4 * k)).getLast?.getD prev) (m := m) (out := out)
      ⟨hp.tables, hp.heap, disj_from (numPos n (bytesOf m st) (4 * k)) (by omega) hp.disj⟩
      (by rw [← codeLens_sum]; unfold ctrlOf; show _ ≤ st.len - _; omega) ho
    obtain ⟨m', e1, e2⟩ := hh.good trivial
    have e3 := hh.frame
    rw [e1] at e3
    refine ⟨m', e1, ?_, fun q hq => e3 q hq⟩
    rw [← bytesOf_from, readNums_block, if_pos (by show _ ≤ st.len - _; omega)] at hg
    rw [e2, undelta_drop, ← undelta_take _ (xs.drop _), ← Option.some.inj hg, undelta_range]
    rfl

-- The second group of the concrete stream alone, and the second and third group at once.
example := C52_group (n := 19) (k := 1) (c := 4) (out := ⟨.heap 2, 0, 4, 4⟩) (m := exRMem) (st := exSt) (.inl (by decide))
  (show decode 19 (bytesOf exRMem exSt) =
    some [5, 9, 1, 2, 3, 4, 5, 6, 7, 8, 9, 0x0d0c0b0a, 14, 15, 16, 17, 18, 0x1413, 0x171615] by decide +kernel)
  (by decide) (by decide) (by decide) (by decide)
example := C52_two_groups .fast (n := 19) (k := 1) (out := ⟨.heap 2, 0, 8, 8⟩) (m := exRMem) (st := exSt)
  ⟨exReader.tables, rfl, .inl (by decide)⟩
  (show decode 19 (bytesOf exRMem exSt) =
    some [5, 9, 1, 2, 3, 4, 5, 6, 7, 8, 9, 0x0d0c0b0a, 14, 15, 16, 17, 18, 0x1413, 0x171615] by decide +kernel)
  (by decide) (by decide)

/-! ## C53: damaged streams -/

/-- Number `j` is represented in the same way in two streams: the control bytes up to its own agree, and its data bytes
agree. -/
def SameNumber (n : Nat) (m : Mem) (st : Bytes) (m' : Mem) (st' : Bytes) (j : Nat) : Prop :=
  (∀ i ≤ j / 4, ctrlOf m st i = ctrlOf m' st' i) ∧
  ∀ k < (lengths n (bytesOf m st)).getD j 0,
    m ⟨st.blk, st.off + (numPos n (bytesOf m st) j + k)⟩ = m' ⟨st'.blk, st'.off + (numPos n (bytesOf m st) j + k)⟩

private theorem same_decode {n : Nat} {st st' : Bytes} {m m' : Mem} {xs xs' : List U32}
    (h : decode n (bytesOf m st) = some xs) (h' : decode n (bytesOf m' st') = some xs') {j : Nat} (hj : j < n)
    (hs : SameNumber n m st m' st' j) : xs[j]? = xs'[j]? := by
  have c1 := decode_some_len h
  have c2 := decode_some_len h'
  rw [bytesOf_length] at c1 c2
  simp only [ctrlLen] at c1 c2
  have hc : ∀ i ≤ j / 4, (bytesOf m st).getD i 0 = (bytesOf m' st').getD i 0 := fun i hi => by
    rw [bytesOf_getD _ _ _ (by omega), bytesOf_getD _ _ _ (by omega)]; exact hs.1 i hi
  refine decode_number h h' hj hc fun k hk => ?_
  have b1 := numPos_le h j 1
  have b2 := numPos_le h' j 1
  have hn : (lengths n (bytesOf m st)).take (j + 1) = (lengths n (bytesOf m' st')).take (j + 1) := by
    unfold lengths
    rw [← List.map_take, ← List.map_take]
    refine List.map_congr_left fun i hi => ?_
    rw [List.take_range, List.mem_range] at hi
    rw [hc (i / 4) (by omega)]
  have hp : numPos n (bytesOf m st) j = numPos n (bytesOf m' st') j := by
    have := congrArg (List.take j) hn
    rw [List.take_take, List.take_take, Nat.min_eq_left (Nat.le_succ j)] at this
    unfold numPos; rw [this]
  have hq : ((lengths n (bytesOf m st)).drop j).take 1 = ((lengths n (bytesOf m' st')).drop j).take 1 := by
    rw [List.take_drop, List.take_drop, hn]
  have hg : (((lengths n (bytesOf m st)).drop j).take 1).sum = (lengths n (bytesOf m st)).getD j 0 := by
    have hjl : j < (lengths n (bytesOf m st)).length := by rw [lengths_length]; exact hj
    rw [List.drop_eq_getElem_cons hjl, List.take_succ_cons, List.take_zero, List.sum_cons, List.sum_nil, Nat.add_zero,
      List.getD_eq_getElem?_getD, List.getElem?_eq_getElem hjl]; rfl
  rw [bytesOf_length] at b1 b2
  rw [← hq, ← hp] at b2
  rw [bytesOf_getD _ _ _ (by omega), bytesOf_getD _ _ _ (by omega)]
  exact hs.2 k hk

private theorem well_sized {n : Nat} {st : Bytes} {m : Mem} (h : needed m st n ≤ st.len) :
    ∃ xs, decode n (bytesOf m st) = some xs ∧ xs.length = n := by
  obtain ⟨xs, hx⟩ := decode_isSome.2 (show ctrlLen n + (lengths n (bytesOf m st)).sum ≤ (bytesOf m st).length by
    rw [bytesOf_length]; exact h)
  exact ⟨xs, hx, decode_length hx⟩

/-- C53: two streams that hold `n` numbers each, read by any two readers: number `j` comes out the same if the control
bytes up to its own and its data bytes agree, whatever differs elsewhere. -/
theorem C53_number (f g : Fn) {n j : Nat} {st st' : Bytes} {out out' : U32s} {m m' : Mem} (h : ReaderPre n st out m)
    (h' : ReaderPre n st' out' m') (hl : needed m st n ≤ st.len) (hl' : needed m' st' n ≤ st'.len) (hj : j < n)
    (hs : SameNumber n m st m' st' j) :
    ∃ m₁ m₂, run (f.read n st out) m = (.ok (), m₁) ∧ run (g.read n st' out') m' = (.ok (), m₂) ∧
      (wordsN m₁ out n)[j]? = (wordsN m₂ out' n)[j]? := by
  obtain ⟨xs, hx, -⟩ := well_sized hl
  obtain ⟨xs', hx', -⟩ := well_sized hl'
  have r1 := (read_result f h).1
  have r2 := (read_result g h').1
  rw [hx] at r1
  rw [hx'] at r2
  obtain ⟨m₁, e1, w1⟩ := r1
  obtain ⟨m₂, e2, w2⟩ := r2
  exact ⟨m₁, m₂, e1, e2, by rw [w1, w2]; exact same_decode hx hx' hj hs⟩

/-- C53, the delta readers: number `j` comes out the same if this holds of all the differences up to it. -/
theorem C53_delta_prefix (f g : Fn) (prev : U32) {n j : Nat} {st st' : Bytes} {out out' : U32s} {m m' : Mem}
    (h : ReaderPre n st out m) (h' : ReaderPre n st' out' m') (hl : needed m st n ≤ st.len)
    (hl' : needed m' st' n ≤ st'.len) (hj : j < n) (hs : ∀ t ≤ j, SameNumber n m st m' st' t) :
    ∃ m₁ m₂, run (f.readDelta n st out prev) m = (.ok (), m₁) ∧ run (g.readDelta n st' out' prev) m' = (.ok (), m₂) ∧
      (wordsN m₁ out n)[j]? = (wordsN m₂ out' n)[j]? := by
  obtain ⟨xs, hx, -⟩ := well_sized hl
  obtain ⟨xs', hx', -⟩ := well_sized hl'
  have r1 := (readDelta_result f prev h).1
  have r2 := (readDelta_result g prev h').1
  rw [decodeDelta, hx] at r1
  rw [decodeDelta, hx'] at r2
  obtain ⟨m₁, e1, w1⟩ := r1
  obtain ⟨m₂, e2, w2⟩ := r2
  refine ⟨m₁, m₂, e1, e2, ?_⟩
  rw [w1, w2]
  exact undelta_local fun t ht => same_decode hx hx' (by omega) (hs t ht)

private theorem undelta_shift {xs xs' : List U32} {prev prev' : U32} {i j n : Nat} (hn : xs.length = n) (hn' : xs'.length = n)
    (hij : i ≤ j) (hj : j < n) (hs : ∀ t, i < t → t ≤ j → xs[t]? = xs'[t]?) :
    ∃ a a' b b', (undelta prev xs)[i]? = some a ∧ (undelta prev' xs')[i]? = some a' ∧ (undelta prev xs)[j]? = some b ∧
      (undelta prev' xs')[j]? = some b' ∧ b - a = b' - a' := by
  induction j with
  | zero =>
    obtain rfl : i = 0 := by omega
    exact ⟨_, _, _, _, List.getElem?_eq_getElem (by rw [undelta_length]; omega),
      List.getElem?_eq_getElem (by rw [undelta_length]; omega), List.getElem?_eq_getElem (by rw [undelta_length]; omega),
      List.getElem?_eq_getElem (by rw [undelta_length]; omega), by rw [BitVec.sub_self, BitVec.sub_self]⟩
  | succ j ih =>
    by_cases e : i = j + 1
    · subst e
      exact ⟨_, _, _, _, List.getElem?_eq_getElem (by rw [undelta_length]; omega),
        List.getElem?_eq_getElem (by rw [undelta_length]; omega), List.getElem?_eq_getElem (by rw [undelta_length]; omega),
        List.getElem?_eq_getElem (by rw [undelta_length]; omega), by rw [BitVec.sub_self, BitVec.sub_self]⟩
    · obtain ⟨a, a', b, b', h1, h2, h3, h4, h5⟩ := ih (by omega) (by omega) fun t h1 h2 => hs t h1 (by omega)
      have hd := List.getElem?_eq_getElem (l := xs) (i := j + 1) (by omega)
      have hd' := hs (j + 1) (by omega) (Nat.le_refl _)
      rw [hd] at hd'
      refine ⟨a, a', _, _, h1, h2, (undelta_get prev xs).2 j _ b hd h3, (undelta_get prev' xs').2 j _ b' hd'.symm h4, ?_⟩
      rw [BitVec.add_comm, BitVec.add_comm _ b', BitVec.sub_eq_add_neg, BitVec.sub_eq_add_neg, BitVec.add_assoc,
        BitVec.add_assoc, BitVec.add_comm _ (-a), BitVec.add_comm _ (-a'), ← BitVec.add_assoc, ← BitVec.add_assoc,
        ← BitVec.sub_eq_add_neg, ← BitVec.sub_eq_add_neg, h5]

/-- C53, the delta readers: between two numbers `i ≤ j`, damage before `i` only shifts: if the differences after `i` up to
`j` agree, then the two results have the same distance from number `i` to number `j`.  The bases may be different. -/
theorem C53_delta_shift (f g : Fn) (prev prev' : U32) {n i j : Nat} {st st' : Bytes} {out out' : U32s} {m m' : Mem}
    (h : ReaderPre n st out m) (h' : ReaderPre n st' out' m') (hl : needed m st n ≤ st.len)
    (hl' : needed m' st' n ≤ st'.len) (hij : i ≤ j) (hj : j < n)
    (hs : ∀ t, i < t → t ≤ j → SameNumber n m st m' st' t) :
    ∃ m₁ m₂, run (f.readDelta n st out prev) m = (.ok (), m₁) ∧ run (g.readDelta n st' out' prev') m' = (.ok (), m₂) ∧
      ∃ a a' b b', (wordsN m₁ out n)[i]? = some a ∧ (wordsN m₂ out' n)[i]? = some a' ∧
        (wordsN m₁ out n)[j]? = some b ∧ (wordsN m₂ out' n)[j]? = some b' ∧ b - a = b' - a' := by
  obtain ⟨xs, hx, hn⟩ := well_sized hl
  obtain ⟨xs', hx', hn'⟩ := well_sized hl'
  have r1 := (readDelta_result f prev h).1
  have r2 := (readDelta_result g prev' h').1
  rw [decodeDelta, hx] at r1
  rw [decodeDelta, hx'] at r2
  obtain ⟨m₁, e1, w1⟩ := r1
  obtain ⟨m₂, e2, w2⟩ := r2
  refine ⟨m₁, m₂, e1, e2, ?_⟩
  rw [w1, w2]
  exact undelta_shift hn hn' hij hj fun t h1 h2 => same_decode hx hx' (by omega) (hs t h1 h2)

/-- The concrete stream with one data byte changed: the second byte of number 11. -/
def exDamaged : Mem := memWith [] (exStream.set 21 0x77)

theorem exDamagedReader : ReaderPre 19 exSt exOut exDamaged :=
  ⟨memWith_tables _ _, by decide, ⟨by decide, rfl, by decide⟩, .inl (by decide), by decide⟩

-- All the numbers after the damaged one come out the same.
example := C53_number .fast .scalar exReader exDamagedReader (j := 12) (by decide +kernel) (by decide +kernel) (by decide)
  ⟨by decide +kernel, by decide +kernel⟩
example : (decode 19 (bytesOf exDamaged exSt)) =
    some [5, 9, 1, 2, 3, 4, 5, 6, 7, 8, 9, 0x0d0c770a, 14, 15, 16, 17, 18, 0x1413, 0x171615] := by decide +kernel
example := C53_delta_shift .fast .scalar 0 0 exReader exDamagedReader (i := 11) (j := 12) (by decide +kernel)
  (by decide +kernel) (by decide) (by decide) (fun t h1 h2 => by
    obtain rfl : t = 12 := by omega
    exact ⟨by decide +kernel, by decide +kernel⟩)

end SVB.Props
