import Verif.Spec

/-! # Numbers of a stream depend on their own bytes only -/

set_option autoImplicit false

namespace SVB.Spec

/-- Place of the first byte of number `j` of a stream of `n` numbers. -/
def numPos (n : Nat) (s : List Byte) (j : Nat) : Nat := ctrlLen n + ((lengths n s).take j).sum

theorem readNums_local {ls : List Nat} : ∀ {bs bs0 : List Byte} {xs : List U32}, bs.length = bs0.length →
    readNums ls bs0 = some xs → ∃ ys, readNums ls bs = some ys ∧ ys.length = xs.length ∧
      ∀ j, (∀ k < ls.getD j 0, bs[(ls.take j).sum + k]? = bs0[(ls.take j).sum + k]?) → ys[j]? = xs[j]? := by
  induction ls with
  | nil => intro bs bs0 xs _ h; exact ⟨xs, h, rfl, fun _ _ => rfl⟩
  | cons l ls ih =>
    intro bs bs0 xs hl h
    unfold readNums at h
    split at h
    · cases h
    · rename_i hlt
      cases e : readNums ls (bs0.drop l) with
      | none => rw [e] at h; cases h
      | some zs =>
        rw [e] at h
        simp only [Option.map_some, Option.some.injEq] at h
        obtain ⟨ys, h1, h2, h3⟩ := ih (bs := bs.drop l) (by simp [hl]) e
        refine ⟨_, by rw [readNums, if_neg (by omega), h1]; rfl, by simp [← h, h2], fun j hj => ?_⟩
        subst h
        cases j with
        | zero =>
          simp only [List.getD_cons_zero, List.take_zero, List.sum_nil, Nat.zero_add] at hj
          simp only [List.getElem?_cons_zero]
          congr 3
          refine List.ext_getElem? fun k => ?_
          by_cases hk : k < l
          · rw [List.getElem?_take_of_lt hk, List.getElem?_take_of_lt hk, hj k hk]
          · rw [List.getElem?_eq_none (by simp; omega), List.getElem?_eq_none (by simp; omega)]
        | succ j =>
          simp only [List.getD_cons_succ, List.take_succ_cons, List.sum_cons] at hj
          simp only [List.getElem?_cons_succ]
          refine h3 j fun k hk => ?_
          rw [List.getElem?_drop, List.getElem?_drop, ← Nat.add_assoc]
          exact hj k hk

theorem decode_local {n : Nat} {s s0 : List Byte} {xs : List U32} (hl : s.length = s0.length)
    (hc : ∀ i < ctrlLen n, s[i]? = s0[i]?) (h : decode n s0 = some xs) :
    ∃ ys, decode n s = some ys ∧ ys.length = xs.length ∧
      ∀ j, (∀ k < (lengths n s0).getD j 0, s[numPos n s0 j + k]? = s0[numPos n s0 j + k]?) → ys[j]? = xs[j]? := by
  unfold decode at h
  split at h
  · cases h
  rename_i hlt
  have hln : lengths n s = lengths n s0 := by
    unfold lengths
    refine List.map_congr_left fun i hi => ?_
    rw [List.mem_range] at hi
    have := hc (i / 4) (by unfold ctrlLen; omega)
    rw [List.getD_eq_getElem?_getD, List.getD_eq_getElem?_getD, this]
  obtain ⟨ys, h1, h2, h3⟩ := readNums_local (bs := s.drop (ctrlLen n)) (by simp [hl]) h
  refine ⟨ys, by rw [decode, if_neg (by omega), hln]; exact h1, h2, fun j hj => h3 j fun k hk => ?_⟩
  rw [List.getElem?_drop, List.getElem?_drop, ← Nat.add_assoc]
  exact hj k hk

theorem undelta_local {ys xs : List U32} : ∀ {prev : U32} {j : Nat}, (∀ i ≤ j, ys[i]? = xs[i]?) →
    (undelta prev ys)[j]? = (undelta prev xs)[j]? := by
  induction ys generalizing xs with
  | nil =>
    intro prev j h
    cases xs with
    | nil => rfl
    | cons x xs => exact absurd (h 0 (Nat.zero_le _)) (by simp)
  | cons y ys ih =>
    intro prev j h
    cases xs with
    | nil => exact absurd (h 0 (Nat.zero_le _)) (by simp)
    | cons x xs =>
      have h0 := h 0 (Nat.zero_le _)
      simp only [List.getElem?_cons_zero, Option.some.injEq] at h0
      subst h0
      cases j with
      | zero => simp [undelta]
      | succ j =>
        simp only [undelta, List.getElem?_cons_succ]
        exact ih fun i hi => by simpa using h (i + 1) (by omega)

end SVB.Spec
