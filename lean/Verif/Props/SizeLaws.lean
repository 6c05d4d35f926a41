import Verif.Proofs.Results
import Verif.Proofs.Canon
import Verif.Props.Writers

/-!
# C72: how the length of a stream depends on the numbers

The order of the numbers does not matter to the plain writers, larger numbers never make a stream shorter, fewer numbers never make
it longer, cutting a list in two costs at most one byte, and one changed number changes the length by at most three bytes (six with
delta coding).
-/

set_option autoImplicit false

namespace SVB.Props
open Spec

/-- A plain writer returns `r`. -/
def Written (f : Fn) (fresh : Block) (inn : U32s) (m : Mem) (r : Bytes) : Prop := ∃ m', run (f.write fresh inn) m = (.ok r, m')
/-- A delta writer returns `r`. -/
def WrittenDelta (f : Fn) (fresh : Block) (inn : U32s) (prev : U32) (m : Mem) (r : Bytes) : Prop :=
  ∃ m', run (f.writeDelta fresh inn prev) m = (.ok r, m')

theorem Written.len {f : Fn} {fresh : Block} {inn : U32s} {m : Mem} {r : Bytes} (h : Written f fresh inn m r)
    (hw : WriterPre fresh inn m) : r.len = ((wordsOf m inn).length + 3) / 4 + ((wordsOf m inn).map byteLen).sum := by
  obtain ⟨_, h⟩ := h
  obtain ⟨m', e, -⟩ := (write_result f hw).ex
  rw [e] at h
  cases h
  exact encode_length_sum _

theorem WrittenDelta.len {f : Fn} {fresh : Block} {inn : U32s} {prev : U32} {m : Mem} {r : Bytes}
    (h : WrittenDelta f fresh inn prev m r) (hw : WriterPre fresh inn m) :
    r.len = ((wordsOf m inn).length + 3) / 4 + ((delta prev (wordsOf m inn)).map byteLen).sum := by
  obtain ⟨_, h⟩ := h
  obtain ⟨m', e, -⟩ := (writeDelta_result f prev hw).ex
  rw [e] at h
  cases h
  have := encode_length_sum (delta prev (wordsOf m inn))
  rw [delta_length] at this
  exact this

/-! ## Lists -/

theorem byteLen_mono {a b : U32} (h : a.toNat ≤ b.toNat) : byteLen a ≤ byteLen b := by
  unfold byteLen
  repeat' split <;> try omega

theorem byteLen_bounds (a : U32) : 1 ≤ byteLen a ∧ byteLen a ≤ 4 := by
  unfold byteLen
  repeat' split <;> try omega

theorem sum_mono : ∀ {xs ys : List U32}, xs.length ≤ ys.length →
    (∀ i (h : i < xs.length) (h' : i < ys.length), xs[i].toNat ≤ ys[i].toNat) → (xs.map byteLen).sum ≤ (ys.map byteLen).sum
  | [], _, _, _ => Nat.zero_le _
  | _ :: _, [], h, _ => by simp at h
  | x :: xs, y :: ys, hl, h => by
    simp only [List.map_cons, List.sum_cons]
    have := sum_mono (xs := xs) (ys := ys) (by simpa using hl) fun i h1 h2 => by
      have := h (i + 1) (by simpa using h1) (by simpa using h2)
      simpa using this
    have := byteLen_mono (h 0 (by simp) (by simp))
    simp only [List.getElem_cons_zero] at this
    omega

theorem sum_sublist {xs ys : List U32} (h : xs.Sublist ys) :
    (xs.map byteLen).sum + (ys.length - xs.length) ≤ (ys.map byteLen).sum := by
  have hl := h.length_le
  induction h with
  | slnil => exact Nat.le_refl _
  | cons a h ih =>
    have := h.length_le
    have := ih this
    have := byteLen_bounds a
    simp only [List.map_cons, List.sum_cons, List.length_cons] at *; omega
  | cons_cons a h ih =>
    have := h.length_le
    have := ih this
    simp only [List.map_cons, List.sum_cons, List.length_cons] at *; omega

theorem delta_head (x y : U32) (xs : List U32) :
    ((delta x xs).map byteLen).sum ≤ ((delta y xs).map byteLen).sum + 3 := by
  cases xs with
  | nil => simp [delta]
  | cons z zs =>
    simp only [delta, List.map_cons, List.sum_cons]
    have := byteLen_bounds (z - x)
    have := byteLen_bounds (z - y)
    omega

/-! ## Plain streams -/

section
variable {f g k : Fn} {fa fb fc : Block} {a b c : U32s} {m m₁ m₂ : Mem} {r s t : Bytes}

/-- C72: the same numbers in another order give a stream of the same length. -/
theorem C72_perm (ha : WriterPre fa a m) (hb : WriterPre fb b m₁) (hr : Written f fa a m r) (hs : Written g fb b m₁ s)
    (h : (wordsOf m a).Perm (wordsOf m₁ b)) : r.len = s.len := by
  rw [hr.len ha, hs.len hb, h.length_eq, (h.map byteLen).sum_nat]

/-- C72: no shorter stream for numbers that are at least as large (and as many). -/
theorem C72_mono (ha : WriterPre fa a m) (hb : WriterPre fb b m₁) (hr : Written f fa a m r) (hs : Written g fb b m₁ s)
    (hl : (wordsOf m a).length ≤ (wordsOf m₁ b).length)
    (h : ∀ i (h : i < (wordsOf m a).length) (h' : i < (wordsOf m₁ b).length), (wordsOf m a)[i].toNat ≤ (wordsOf m₁ b)[i].toNat) :
    r.len ≤ s.len := by
  have := sum_mono hl h
  rw [hr.len ha, hs.len hb]
  omega

/-- C72: leaving out numbers saves at least one byte for each. -/
theorem C72_sublist (ha : WriterPre fa a m) (hb : WriterPre fb b m₁) (hr : Written f fa a m r) (hs : Written g fb b m₁ s)
    (h : (wordsOf m a).Sublist (wordsOf m₁ b)) : r.len + (b.len - a.len) ≤ s.len := by
  have := sum_sublist h
  have := h.length_le
  have e1 := wordsOf_length m a
  have e2 := wordsOf_length m₁ b
  rw [hr.len ha, hs.len hb]
  omega

/-- C72: one stream for a list is never longer than two for its parts, and at most one byte shorter. -/
theorem C72_append (ha : WriterPre fa a m) (hb : WriterPre fb b m₁) (hc : WriterPre fc c m₂) (hr : Written f fa a m r)
    (hs : Written g fb b m₁ s) (ht : Written k fc c m₂ t) (h : wordsOf m₂ c = wordsOf m a ++ wordsOf m₁ b) :
    t.len ≤ r.len + s.len ∧ r.len + s.len ≤ t.len + 1 := by
  rw [hr.len ha, hs.len hb, ht.len hc, h]
  simp only [List.map_append, List.sum_append, List.length_append]
  omega

/-- C72: one other number makes at most three bytes difference. -/
theorem C72_change (ha : WriterPre fa a m) (hb : WriterPre fb b m₁) (hr : Written f fa a m r) (hs : Written g fb b m₁ s)
    {xs ys : List U32} {x y : U32} (h : wordsOf m a = xs ++ x :: ys) (h' : wordsOf m₁ b = xs ++ y :: ys) :
    s.len ≤ r.len + 3 ∧ r.len ≤ s.len + 3 := by
  have := byteLen_bounds x
  have := byteLen_bounds y
  rw [hr.len ha, hs.len hb, h, h']
  simp only [List.map_append, List.sum_append, List.length_append, List.map_cons, List.sum_cons, List.length_cons]
  omega

/-! ## Delta streams -/

variable {prev prev' : U32}

/-- C72: for the delta writers six, since two differences change. -/
theorem C72_delta_change (ha : WriterPre fa a m) (hb : WriterPre fb b m₁) (hr : WrittenDelta f fa a prev m r)
    (hs : WrittenDelta g fb b prev m₁ s) {xs ys : List U32} {x y : U32} (h : wordsOf m a = xs ++ x :: ys)
    (h' : wordsOf m₁ b = xs ++ y :: ys) : s.len ≤ r.len + 6 ∧ r.len ≤ s.len + 6 := by
  have := byteLen_bounds (x - xs.getLast?.getD prev)
  have := byteLen_bounds (y - xs.getLast?.getD prev)
  have := delta_head x y ys
  have := delta_head y x ys
  rw [hr.len ha, hs.len hb, h, h']
  simp only [delta_append, delta, List.map_append, List.sum_append, List.length_append, List.map_cons, List.sum_cons,
    List.length_cons]
  omega

/-- C72: another `prev` makes at most three bytes difference. -/
theorem C72_delta_prev (ha : WriterPre fa a m) (hb : WriterPre fb b m₁) (hr : WrittenDelta f fa a prev m r)
    (hs : WrittenDelta g fb b prev' m₁ s) (h : wordsOf m a = wordsOf m₁ b) : s.len ≤ r.len + 3 ∧ r.len ≤ s.len + 3 := by
  have := delta_head prev prev' (wordsOf m₁ b)
  have := delta_head prev' prev (wordsOf m₁ b)
  rw [hr.len ha, hs.len hb, h]
  omega

/-- C72: cutting a list in two costs at most one byte if the second part continues with the last number of the first. -/
theorem C72_delta_append (ha : WriterPre fa a m) (hb : WriterPre fb b m₁) (hc : WriterPre fc c m₂) (hr : WrittenDelta f fa a prev m r)
    (hs : WrittenDelta g fb b ((wordsOf m a).getLast?.getD prev) m₁ s) (ht : WrittenDelta k fc c prev m₂ t)
    (h : wordsOf m₂ c = wordsOf m a ++ wordsOf m₁ b) : t.len ≤ r.len + s.len ∧ r.len + s.len ≤ t.len + 1 := by
  rw [hr.len ha, hs.len hb, ht.len hc, h]
  simp only [delta_append, List.map_append, List.sum_append, List.length_append]
  omega

end

/-! ## Examples -/

def exSizeMem (xs : List U32) : Mem := memWith xs []
def exSizeIn (n : Nat) : U32s := ⟨.heap 0, 0, n, n⟩
theorem exSize_pre (xs : List U32) {n : Nat} (h : n ≤ 100) : WriterPre (.heap 7) (exSizeIn n) (exSizeMem xs) :=
  ⟨memWith_tables _ _, ⟨Nat.le_refl _, rfl, by simp only [exSizeIn]; omega⟩, rfl, fun h => by cases h⟩
theorem exSize_written (f : Fn) (xs : List U32) {n : Nat} (h : n ≤ 100) : ∃ r, Written f (.heap 7) (exSizeIn n) (exSizeMem xs) r := by
  obtain ⟨m', e, -⟩ := (write_result f (exSize_pre xs h)).ex
  exact ⟨_, m', e⟩
theorem exSize_writtenDelta (f : Fn) (prev : U32) (xs : List U32) {n : Nat} (h : n ≤ 100) :
    ∃ r, WrittenDelta f (.heap 7) (exSizeIn n) prev (exSizeMem xs) r := by
  obtain ⟨m', e, -⟩ := (writeDelta_result f prev (exSize_pre xs h)).ex
  exact ⟨_, m', e⟩

example : ∃ r s, Written .fast (.heap 7) (exSizeIn 9) (exSizeMem [1, 2, 3, 4, 5, 6, 7, 8, 70000]) r ∧
    Written .scalar (.heap 7) (exSizeIn 9) (exSizeMem [70000, 2, 1, 3, 4, 5, 6, 7, 8]) s ∧ r.len = s.len ∧ r.len = 14 := by
  obtain ⟨r, hr⟩ := exSize_written .fast [1, 2, 3, 4, 5, 6, 7, 8, 70000] (n := 9) (by decide)
  obtain ⟨s, hs⟩ := exSize_written .scalar [70000, 2, 1, 3, 4, 5, 6, 7, 8] (n := 9) (by decide)
  exact ⟨r, s, hr, hs, C72_perm (exSize_pre _ (by decide)) (exSize_pre _ (by decide)) hr hs (by decide +kernel),
    (hr.len (exSize_pre _ (by decide))).trans (by decide +kernel)⟩

example {r s : Bytes} (hr : Written .fast (.heap 7) (exSizeIn 3) (exSizeMem [1, 300, 3]) r)
    (hs : Written .fast (.heap 7) (exSizeIn 4) (exSizeMem [1, 301, 70000, 0]) s) : r.len ≤ s.len :=
  C72_mono (exSize_pre _ (by decide)) (exSize_pre _ (by decide)) hr hs (by decide +kernel) (by decide +kernel)

example {r s : Bytes} (hr : Written .fast (.heap 7) (exSizeIn 3) (exSizeMem [1, 300, 3]) r)
    (hs : Written .fast (.heap 7) (exSizeIn 5) (exSizeMem [1, 8, 300, 9, 3]) s) : r.len + 2 ≤ s.len :=
  C72_sublist (exSize_pre _ (by decide)) (exSize_pre _ (by decide)) hr hs (by decide +kernel)

/-- Both bounds are reached. -/
example {r s t : Bytes} (hr : Written .fast (.heap 7) (exSizeIn 1) (exSizeMem [1]) r)
    (hs : Written .fast (.heap 7) (exSizeIn 2) (exSizeMem [300, 3]) s)
    (ht : Written .fast (.heap 7) (exSizeIn 3) (exSizeMem [1, 300, 3]) t) :
    (t.len ≤ r.len + s.len ∧ r.len + s.len ≤ t.len + 1) ∧ r.len + s.len = t.len + 1 :=
  ⟨C72_append (exSize_pre _ (by decide)) (exSize_pre _ (by decide)) (exSize_pre _ (by decide)) hr hs ht (by decide +kernel), by
    rw [hr.len (exSize_pre _ (by decide)), hs.len (exSize_pre _ (by decide)), ht.len (exSize_pre _ (by decide))]
    decide +kernel⟩

example {r s : Bytes} (hr : Written .fast (.heap 7) (exSizeIn 3) (exSizeMem [1, 300, 3]) r)
    (hs : Written .fast (.heap 7) (exSizeIn 3) (exSizeMem [1, 0xffffffff, 3]) s) : s.len ≤ r.len + 3 ∧ r.len ≤ s.len + 3 :=
  C72_change (xs := [1]) (x := 300) (y := 0xffffffff) (ys := [3]) (exSize_pre _ (by decide)) (exSize_pre _ (by decide)) hr hs
    (by decide +kernel) (by decide +kernel)

/-- Six bytes is reached. -/
example {r s : Bytes} (hr : WrittenDelta .fast (.heap 7) (exSizeIn 3) 0 (exSizeMem [1, 2, 3]) r)
    (hs : WrittenDelta .fast (.heap 7) (exSizeIn 3) 0 (exSizeMem [1, 0x7fffffff, 3]) s) :
    (s.len ≤ r.len + 6 ∧ r.len ≤ s.len + 6) ∧ s.len = r.len + 6 :=
  ⟨C72_delta_change (xs := [1]) (x := 2) (y := 0x7fffffff) (ys := [3]) (exSize_pre _ (by decide)) (exSize_pre _ (by decide)) hr hs
    (by decide +kernel) (by decide +kernel), by
    rw [hr.len (exSize_pre _ (by decide)), hs.len (exSize_pre _ (by decide))]
    decide +kernel⟩

example {r s : Bytes} (hr : WrittenDelta .fast (.heap 7) (exSizeIn 3) 0 (exSizeMem [1, 2, 3]) r)
    (hs : WrittenDelta .scalar (.heap 7) (exSizeIn 3) 5 (exSizeMem [1, 2, 3]) s) :
    (s.len ≤ r.len + 3 ∧ r.len ≤ s.len + 3) ∧ s.len = r.len + 3 :=
  ⟨C72_delta_prev (exSize_pre _ (by decide)) (exSize_pre _ (by decide)) hr hs rfl, by
    rw [hr.len (exSize_pre _ (by decide)), hs.len (exSize_pre _ (by decide))]
    decide +kernel⟩

example {r s t : Bytes} (hr : WrittenDelta .fast (.heap 7) (exSizeIn 1) 9 (exSizeMem [500]) r)
    (hs : WrittenDelta .fast (.heap 7) (exSizeIn 2) 500 (exSizeMem [700, 701]) s)
    (ht : WrittenDelta .fast (.heap 7) (exSizeIn 3) 9 (exSizeMem [500, 700, 701]) t) :
    t.len ≤ r.len + s.len ∧ r.len + s.len ≤ t.len + 1 :=
  C72_delta_append (exSize_pre _ (by decide)) (exSize_pre _ (by decide)) (exSize_pre _ (by decide)) hr hs ht (by decide +kernel)

end SVB.Props
