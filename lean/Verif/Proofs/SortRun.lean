import Verif.SpecSort
import Verif.Proofs.TestRun
import Verif.Proofs.ScriptParse

/-!
# `SortUint32` sorts
-/

set_option autoImplicit false

namespace SVB.Tests
open SVB.Spec SVB.Props

/-! ## Memory -/

theorem setW_run' {s : U32s} {m : Mem} (i : Nat) (h : i < s.len) (v : U32) :
    run (setW s i v) m = (.ok (), m.set32 s.blk (s.off + 4 * i) v) := by
  unfold setW
  rw [if_pos (by omega)]
  simp only [store32, store8, Prog.bind_eq, Prog.bind, run, Ptr.add, Int.toNat_natCast]
  rfl

theorem wordsOf_get {m : Mem} {s : U32s} {i : Nat} (h : i < s.len) :
    (wordsOf m s)[i]? = some (wordAt m s.blk (s.off + 4 * i)) := by
  simp [wordsOf, wordsN, wordAt, h]

theorem wordsOf_set {m : Mem} {s : U32s} {i : Nat} (v : U32) :
    wordsOf (m.set32 s.blk (s.off + 4 * i) v) s = (wordsOf m s).set i v := by
  refine List.ext_getElem? fun j => ?_
  by_cases hj : j < s.len
  · rw [wordsOf_get hj, List.getElem?_set]
    by_cases e : i = j
    · subst e
      rw [wordAt_set32_self, if_pos rfl, if_pos (by rw [wordsOf_length]; exact hj)]
    · rw [if_neg e, wordsOf_get hj, wordAt_set32_other _ _ _ _ _ _ (Or.inr (by omega))]
  · rw [List.getElem?_eq_none (by rw [wordsOf_length]; omega), List.getElem?_eq_none (by rw [List.length_set, wordsOf_length]; omega)]

/-- Nothing but the elements of a slice has changed. -/
def Within (s : U32s) (m m' : Mem) : Prop := ∀ q, ¬ inFirst s s.len q → m' q = m q

theorem Within.trans {s : U32s} {m m' m'' : Mem} (h : Within s m m') (h' : Within s m' m'') : Within s m m'' :=
  fun q hq => (h' q hq).trans (h q hq)

theorem within_set {m : Mem} {s : U32s} {i : Nat} (h : i < s.len) (v : U32) :
    Within s m (m.set32 s.blk (s.off + 4 * i) v) := fun q hq =>
  set32_other _ _ _ _ _ fun hn => hq ⟨hn.1, by have := hn.2.1; omega, by have := hn.2.2; omega⟩

theorem swapWords_run {s : U32s} {m : Mem} {i j : Nat} (hi : i < s.len) (hj : j < s.len) :
    ∃ m', run (swapWords s i j) m = (.ok (), m') ∧ Within s m m' ∧
      wordsOf m' s = ((wordsOf m s).set i (wordAt m s.blk (s.off + 4 * j))).set j (wordAt m s.blk (s.off + 4 * i)) := by
  refine ⟨_, ?_, (within_set hi _).trans (within_set hj _), by rw [wordsOf_set, wordsOf_set]⟩
  simp only [swapWords, Prog.bind_eq]
  rw [run_bind, getW_run s m i rfl hi]
  simp only
  rw [run_bind, getW_run s m j rfl hj]
  simp only
  rw [run_bind, setW_run' i hi]
  simp only
  rw [setW_run' j hj]

/-! ## `sort.Slice` -/

def ltW (a b : U32) : Bool := decide (a.toNat < b.toNat)

theorem ltW_order : Order ltW where
  irrefl a := by simp [ltW]
  trans a b c := by simp only [ltW, decide_eq_true_eq]; omega
  trans' a b c := by simp only [ltW, decide_eq_false_iff_not]; omega

theorem sortSlice_run {s : U32s} {less : Nat → Nat → M Val}
    (hl : ∀ i j, i < s.len → j < s.len → ∀ e k st m, run (less i j e k st) m =
      run (k (.bool (ltW (wordAt m s.blk (s.off + 4 * i)) (wordAt m s.blk (s.off + 4 * j)))) st) m) :
    ∀ (σ : Sorter) (m : Mem) (ys : List U32), σ.apply ltW (wordsOf m s) = some ys →
      ∃ m', wordsOf m' s = ys ∧ Within s m m' ∧ ∀ e k st, run (sortSlice less s σ e k st) m = run (k () st) m' := by
  intro σ
  induction σ with
  | done =>
    intro m ys h
    exact ⟨m, Option.some.inj h, fun _ _ => rfl, fun _ _ _ => rfl⟩
  | less i j next ih =>
    intro m ys h
    rw [Sorter.apply] at h
    by_cases hi : i < s.len
    · by_cases hj : j < s.len
      · rw [wordsOf_get hi, wordsOf_get hj] at h
        obtain ⟨m', h1, h2, h3⟩ := ih _ m ys h
        refine ⟨m', h1, h2, fun e k st => ?_⟩
        rw [sortSlice]
        refine Eq.trans (hl i j hi hj e _ st m) ?_
        exact h3 e k st
      · rw [List.getElem?_eq_none (i := j) (by rw [wordsOf_length]; omega)] at h
        split at h <;> simp_all
    · rw [List.getElem?_eq_none (i := i) (by rw [wordsOf_length]; omega)] at h
      simp at h
  | swap i j next ih =>
    intro m ys h
    rw [Sorter.apply] at h
    by_cases hi : i < s.len
    · by_cases hj : j < s.len
      · rw [wordsOf_get hi, wordsOf_get hj] at h
        simp only at h
        obtain ⟨m1, r1, f1, w1⟩ := swapWords_run (m := m) hi hj
        rw [← w1] at h
        obtain ⟨m', h1, h2, h3⟩ := ih m1 ys h
        refine ⟨m', h1, f1.trans h2, fun e k st => ?_⟩
        show run ((swapWords s i j).bind _) m = _
        rw [run_bind, r1]
        exact h3 e k st
      · rw [List.getElem?_eq_none (i := j) (by rw [wordsOf_length]; omega)] at h
        split at h <;> simp_all
    · rw [List.getElem?_eq_none (i := i) (by rw [wordsOf_length]; omega)] at h
      simp at h

/-- `SortUint32`: `sort.Slice` with the comparison of the text. -/
theorem sortUint32_text (W : World) (sorter : Nat → Sorter) (s : U32s) :
    sortUint32 W Script.Files.util sorter s = sortSlice (fun a b => do
      let x ← call (getW s a)
      let y ← call (getW s b)
      return .bool (decide (x.toNat < y.toNat))) s (sorter s.len) := rfl

theorem sortUint32_run (W : World) {sorter : Nat → Sorter} {s : U32s} {m : Mem} {ys : List U32}
    (h : (sorter s.len).apply ltW (wordsOf m s) = some ys) :
    ∃ m', wordsOf m' s = ys ∧ Within s m m' ∧
      ∀ e k st, run (sortUint32 W Script.Files.util sorter s e k st) m = run (k () st) m' := by
  rw [sortUint32_text]
  refine sortSlice_run (fun i j hi hj e k st m => ?_) _ m ys h
  show run ((getW s i).bind fun x => (getW s j).bind fun y => k (.bool (decide (x.toNat < y.toNat))) st) m = _
  rw [run_bind, getW_run s m i rfl hi]
  simp only
  rw [run_bind, getW_run s m j rfl hj]
  rfl

/-! ## Lists -/

theorem exchange_perm {α : Type} : ∀ (xs : List α) (i j : Nat) (a b : α), xs[i]? = some a → xs[j]? = some b →
    ((xs.set i b).set j a).Perm xs := by
  intro xs i j a b ha hb
  obtain ⟨hi, rfl⟩ := List.getElem?_eq_some_iff.mp ha
  obtain ⟨hj, rfl⟩ := List.getElem?_eq_some_iff.mp hb
  exact List.set_set_perm hi hj

theorem Sorter.apply_perm {α : Type} {lt : α → α → Bool} : ∀ (σ : Sorter) (xs ys : List α), σ.apply lt xs = some ys → ys.Perm xs := by
  intro σ
  induction σ with
  | done => intro xs ys h; rw [← Option.some.inj h]
  | less i j next ih =>
    intro xs ys h
    rw [Sorter.apply] at h
    split at h
    · exact ih _ _ _ h
    · exact absurd h (by simp)
  | swap i j next ih =>
    intro xs ys h
    rw [Sorter.apply] at h
    split at h
    · next a b ha hb => exact (ih _ _ h).trans (exchange_perm _ _ _ _ _ ha hb)
    · exact absurd h (by simp)

/-- Sorted lists with the same elements are equal. -/
theorem sorted_unique : ∀ {xs ys : List U32}, xs.Perm ys → xs.Pairwise (fun a b => a.toNat ≤ b.toNat) →
    ys.Pairwise (fun a b => a.toNat ≤ b.toNat) → xs = ys := by
  intro xs
  induction xs with
  | nil => intro ys h _ _; exact (List.Perm.nil_eq h)
  | cons x xs ih =>
    intro ys h h1 h2
    cases ys with
    | nil => exact absurd h.length_eq (by simp)
    | cons y ys =>
      have e : x = y := by
        have hx : x ∈ y :: ys := h.mem_iff.mp (by simp)
        have hy : y ∈ x :: xs := h.mem_iff.mpr (by simp)
        rw [List.pairwise_cons] at h1 h2
        rcases List.mem_cons.mp hx with e | hx
        · exact e
        rcases List.mem_cons.mp hy with e | hy
        · exact e.symm
        have := h1.1 y hy
        have := h2.1 x hx
        exact BitVec.eq_of_toNat_eq (by omega)
      subst e
      rw [ih (h.cons_inv) (List.pairwise_cons.mp h1).2 (List.pairwise_cons.mp h2).2]

/-! ## Insertion sort -/

theorem insert_apply {α : Type} {lt : α → α → Bool} (hlt : Order lt) {next : Sorter} : ∀ (j : Nat) (A B C : List α) (x : α),
    A.length = j → (A ++ B).Pairwise (fun a b => lt b a = false) → (∀ b ∈ B, lt x b = true) →
    ∃ D, (Sorter.insert next j).apply lt (A ++ x :: B ++ C) = next.apply lt (D ++ C) ∧ D.Pairwise (fun a b => lt b a = false) ∧
      D.length = (A ++ x :: B).length := by
  have asymm : ∀ a b, lt a b = true → lt b a = false := fun a b h => by
    cases e : lt b a
    · rfl
    · exact absurd (hlt.trans _ _ _ h e) (by rw [hlt.irrefl]; simp)
  intro j
  induction j with
  | zero =>
    intro A B C x hA hs hx
    obtain rfl := List.length_eq_zero_iff.mp hA
    exact ⟨x :: B, rfl, List.pairwise_cons.mpr ⟨fun b hb => asymm _ _ (hx b hb), hs⟩, rfl⟩
  | succ j ih =>
    intro A B C x hA hs hx
    have hne : A ≠ [] := by intro h; rw [h] at hA; exact Nat.noConfusion hA
    obtain ⟨A, a, rfl⟩ : ∃ A' a, A = A' ++ [a] := ⟨A.dropLast, A.getLast hne, (List.dropLast_concat_getLast hne).symm⟩
    have hA : A.length = j := by simpa using hA
    have e1 : (A ++ [a] ++ x :: B ++ C)[j + 1]? = some x := by simp [← hA]
    have e2 : (A ++ [a] ++ x :: B ++ C)[j]? = some a := by simp [← hA]
    rw [Sorter.insert, Sorter.apply, e1, e2]
    simp only
    cases hb : lt x a
    · refine ⟨A ++ [a] ++ x :: B, rfl, ?_, rfl⟩
      rw [List.pairwise_append] at hs ⊢
      obtain ⟨h1, h2, h3⟩ := hs
      have hxa : ∀ c ∈ A ++ [a], lt x c = false := by
        intro c hc
        rcases List.mem_append.mp hc with hc | hc
        · exact hlt.trans' _ _ _ hb ((List.pairwise_append.mp h1).2.2 c hc a (by simp))
        · rw [List.mem_singleton.mp hc]; exact hb
      refine ⟨h1, List.pairwise_cons.mpr ⟨fun b hb => asymm _ _ (hx b hb), h2⟩, fun c hc d hd => ?_⟩
      rcases List.mem_cons.mp hd with rfl | hd
      · exact hxa c hc
      · exact h3 c hc d hd
    · rw [if_pos rfl, Sorter.apply, e1, e2]
      simp only
      have e3 : ((A ++ [a] ++ x :: B ++ C).set (j + 1) a).set j x = A ++ x :: (a :: B) ++ C := by
        simp [← hA]
      rw [e3]
      obtain ⟨D, h1, h2, h3⟩ := ih A (a :: B) C x hA (by simpa using hs) (fun b hb' => by
        rcases List.mem_cons.mp hb' with rfl | hb'
        · exact hb
        · exact hx b hb')
      exact ⟨D, h1, h2, by rw [h3]; simp⟩

theorem insertion_apply {α : Type} {lt : α → α → Bool} (hlt : Order lt) : ∀ (k : Nat) (A C : List α),
    C.length = k → A.Pairwise (fun a b => lt b a = false) →
    ∃ ys, (Sorter.insertion k A.length).apply lt (A ++ C) = some ys ∧ ys.Pairwise (fun a b => lt b a = false) := by
  intro k
  induction k with
  | zero =>
    intro A C hC hA
    obtain rfl := List.length_eq_zero_iff.mp hC
    exact ⟨A ++ [], rfl, by simpa using hA⟩
  | succ k ih =>
    intro A C hC hA
    cases C with
    | nil => simp at hC
    | cons x C =>
      obtain ⟨D, h1, h2, h3⟩ := insert_apply hlt (next := Sorter.insertion k (A.length + 1)) A.length A [] C x rfl
        (by simpa using hA) (by simp)
      obtain ⟨ys, h4, h5⟩ := ih D C (by simpa using hC) h2
      refine ⟨ys, ?_, h5⟩
      rw [Sorter.insertion, show A ++ x :: C = A ++ [x] ++ C by simp, h1, ← h4, h3]
      simp

end SVB.Tests
