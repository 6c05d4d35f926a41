import Verif.Proofs.SortRun
import Verif.Props.Writers

/-!
# C63: `util.SortUint32` sorts

The claims are about the text of `/repo/pkg/util/util.go` (`Verif.Model.ScriptSources`), run by `Verif.Model.SortSem`, for every
program `sort.Slice` may be that keeps the promise of its documentation.
-/

set_option autoImplicit false

namespace SVB.Props
open SVB.Tests SVB.Sources
open SVB.Spec

/-! ## Vocabulary -/

/-- `SortUint32(s)`, from the text of `util.go`, as a program that ends with a state of a test. -/
def callSort (W : World) (sorter : Nat → Sorter) (s : U32s) (st : St) : Prog St :=
  match Script.parse utilGo with
  | some F => sortUint32 W F sorter s .ret (fun _ st => .ret st) st
  | none => .panic .fault

private theorem callSort_eq (W : World) (sorter : Nat → Sorter) (s : U32s) (st : St) :
    callSort W sorter s st = sortUint32 W Script.Files.util sorter s .ret (fun _ st => .ret st) st := by
  rw [callSort, Script.util_parsed]

/-! ## C63 -/

/-- C63: `SortUint32` never panics; afterwards the elements of the slice are those it had before, in ascending order as unsigned
numbers; and nothing else in memory has changed. -/
theorem C63_sorts (W : World) {sorter : Nat → Sorter} {s : U32s} (h : (sorter s.len).Sorts s.len) (st : St) (m : Mem) :
    ∃ m', run (callSort W sorter s st) m = (.ok st, m') ∧ (wordsOf m' s).Perm (wordsOf m s) ∧
      (wordsOf m' s).Pairwise (fun a b => a.toNat ≤ b.toNat) ∧ ∀ q, ¬ inFirst s s.len q → m' q = m q := by
  obtain ⟨ys, ha, hp⟩ := h ltW ltW_order (wordsOf m s) (wordsOf_length m s)
  obtain ⟨m', h1, h2, h3⟩ := sortUint32_run W ha
  refine ⟨m', ?_, ?_, ?_, h2⟩
  · rw [callSort_eq]; exact h3 _ _ _
  · rw [h1]; exact Sorter.apply_perm _ _ _ ha
  · rw [h1]; exact hp.imp fun h => by simpa [ltW] using h

/-- C63: the result does not depend on how `sort.Slice` goes about it: it is the one list with these elements in this order. -/
theorem C63_result (W : World) {sorter : Nat → Sorter} {s : U32s} (h : (sorter s.len).Sorts s.len) (st : St) (m : Mem)
    {ys : List U32} (hy : ys.Perm (wordsOf m s)) (ho : ys.Pairwise (fun a b => a.toNat ≤ b.toNat)) :
    wordsOf (run (callSort W sorter s st) m).2 s = ys := by
  obtain ⟨m', hr, hp, hs, -⟩ := C63_sorts W h st m
  rw [hr]
  exact sorted_unique (hp.trans hy.symm) hs ho

/-- C63: without the promise that the result is in order, whatever `sort.Slice` does within the slice only moves elements (the
assumption about `sort.Slice` in C60 and C62). -/
theorem C63_moves (W : World) {sorter : Nat → Sorter} {s : U32s} {m : Mem} {ys : List U32}
    (h : (sorter s.len).apply (fun a b => decide (a.toNat < b.toNat)) (wordsOf m s) = some ys) (st : St) :
    ∃ m', run (callSort W sorter s st) m = (.ok st, m') ∧ wordsOf m' s = ys ∧ ys.Perm (wordsOf m s) := by
  obtain ⟨m', h1, -, h3⟩ := sortUint32_run W (s := s) (m := m) (ys := ys) h
  exact ⟨m', by rw [callSort_eq]; exact h3 _ _ _, h1, Sorter.apply_perm _ _ _ h⟩

/-- C63: the promise can be kept: insertion sort (which `sort.Slice` of the Go library uses for at most 12 elements) keeps it for
every length. -/
theorem C63_insertion (n : Nat) : (Sorter.insertion (n - 1) 1).Sorts n := by
  intro α lt hlt xs hn
  match xs, hn with
  | [], hn =>
    subst hn
    exact ⟨[], rfl, .nil⟩
  | x :: xs, hn =>
    have := insertion_apply hlt xs.length [x] xs rfl (by simp)
    rw [show n - 1 = xs.length by rw [← hn]; rfl]
    exact this

/-- C63: the delta stream of the sorted numbers (from `prev = 0`) is not longer than the plain stream of the numbers as they
were. -/
theorem C63_delta_not_longer (f g : Fn) (W : World) {sorter : Nat → Sorter} {inn : U32s} {fa fb : Block} {m : Mem} (st : St)
    (h : (sorter inn.len).Sorts inn.len) (ha : WriterPre fa inn m) (hb : WriterPre fb inn m) (hh : inn.blk.isConst = false) :
    ∃ m1 r m' rd md', run (callSort W sorter inn st) m = (.ok st, m1) ∧ run (f.write fa inn) m = (.ok r, m') ∧
      run (g.writeDelta fb inn 0) m1 = (.ok rd, md') ∧ rd.len ≤ r.len := by
  obtain ⟨m1, hr, hp, hs, hm⟩ := C63_sorts W h st m
  have pre : WriterPre fb inn m1 :=
    { hb with tables := hb.tables.frame fun q hq => hm q fun hi => by rw [hi.1, hh] at hq; exact Bool.noConfusion hq }
  obtain ⟨_, e1, -, -⟩ := (write_result f ha).ex
  obtain ⟨_, e2, -, -⟩ := (writeDelta_result g 0 pre).ex
  refine ⟨m1, _, _, _, _, hr, e1, e2, ?_⟩
  simp only [encode_length_sum, delta_length, hp.length_eq]
  have := delta_sum_le 0 _ (List.pairwise_cons.mpr ⟨fun _ _ => Nat.zero_le _, hs⟩)
  have hq := (hp.map byteLen).sum_nat
  omega

-- three numbers, two of them equal, and one that is negative as a signed number
example : (Sorter.insertion 2 1).apply (fun a b : U32 => decide (a.toNat < b.toNat)) [0x80000000#32, 5#32, 5#32] =
    some [5#32, 5#32, 0x80000000#32] := by decide
example : Order (fun a b : U32 => decide (a.toNat < b.toNat)) := ltW_order
-- a slice to sort and to write, and sorters for it
example : WriterPre (.heap 7) ⟨.heap 0, 0, 3, 3⟩ (memWith [0x80000000, 5, 5] []) ∧
    ∀ n, (Sorter.insertion (n - 1) 1).Sorts n :=
  ⟨⟨memWith_tables _ _, ⟨by decide, rfl, by decide⟩, rfl, by decide⟩, C63_insertion⟩
-- a sorter that keeps no promise: it does nothing
example : ¬ Sorter.done.Sorts 2 := fun h => by
  obtain ⟨ys, h1, h2⟩ := h (fun a b : Nat => decide (a < b)) ⟨by simp, by simp; omega, by simp; omega⟩ [2, 1] rfl
  obtain rfl := Option.some.inj h1
  exact absurd (List.pairwise_cons.mp h2).1 (by simp)

end SVB.Props
