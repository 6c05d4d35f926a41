import Verif.Proofs.SpecFacts
import Verif.Proofs.SnapSpec
import Verif.Proofs.Canon

/-! # Groups and single numbers of a stream -/

set_option autoImplicit false

namespace SVB.Spec

theorem readNums_get {ls : List Nat} : ∀ {bs : List Byte} {xs : List U32}, readNums ls bs = some xs → ∀ j,
    xs[j]? = ls[j]?.map fun l => BitVec.ofNat 32 (leValue ((bs.drop (ls.take j).sum).take l)) := by
  induction ls with
  | nil => intro bs xs h j; cases h; simp
  | cons l ls ih =>
    intro bs xs h j
    unfold readNums at h
    split at h
    · cases h
    cases e : readNums ls (bs.drop l) with
    | none => rw [e] at h; cases h
    | some zs =>
      rw [e] at h
      simp only [Option.map_some, Option.some.injEq] at h
      subst h
      cases j with
      | zero => simp
      | succ j =>
        simp only [List.getElem?_cons_succ, List.take_succ_cons, List.sum_cons]
        rw [ih e j, List.drop_drop]

theorem readNums_drop {ls : List Nat} : ∀ {bs : List Byte} {xs : List U32}, readNums ls bs = some xs → ∀ i,
    readNums (ls.drop i) (bs.drop (ls.take i).sum) = some (xs.drop i) := by
  induction ls with
  | nil => intro bs xs h i; cases h; simp [readNums]
  | cons l ls ih =>
    intro bs xs h i
    cases i with
    | zero => simpa using h
    | succ i =>
      unfold readNums at h
      split at h
      · cases h
      cases e : readNums ls (bs.drop l) with
      | none => rw [e] at h; cases h
      | some zs =>
        rw [e] at h
        simp only [Option.map_some, Option.some.injEq] at h
        subst h
        have := ih e i
        simpa [List.drop_drop] using this

theorem lengths_group {n k c : Nat} {s : List Byte} (hc : c ≤ 4) (hk : 4 * k + c ≤ n) :
    ((lengths n s).drop (4 * k)).take c = codeLens c (s.getD k 0).toNat := by
  refine List.ext_getElem (by simp [lengths, codeLens]; omega) fun i h1 h2 => ?_
  have hi : i < c := by simpa [codeLens] using h2
  simp only [lengths, codeLens, List.getElem_take, List.getElem_drop, List.getElem_map, List.getElem_range, code]
  rw [show (4 * k + i) / 4 = k by omega, show (4 * k + i) % 4 = i by omega]

theorem codeLens_two (a b : Byte) : codeLens 8 (b ++ a).toNat = codeLens 4 a.toNat ++ codeLens 4 b.toNat := by
  have ha := a.isLt
  have e : (b ++ a).toNat = a.toNat + 256 * b.toNat := by
    rw [BitVec.toNat_append, ← Nat.shiftLeft_add_eq_or_of_lt ha, Nat.shiftLeft_eq]; omega
  refine List.ext_getElem (by simp [codeLens]) fun i h1 h2 => ?_
  have hi : i < 8 := by simpa [codeLens] using h1
  simp only [codeLens, List.getElem_map, List.getElem_range, List.getElem_append, e, List.length_map, List.length_range]
  split
  · rename_i h
    match i, h with
    | 0, _ => simp; omega
    | 1, _ => simp; omega
    | 2, _ => simp; omega
    | 3, _ => simp; omega
  · rename_i h
    match i, h, hi with
    | 4, _, _ => simp; omega
    | 5, _, _ => simp; omega
    | 6, _, _ => simp; omega
    | 7, _, _ => simp; omega

theorem lengths_group8 {n k : Nat} {s : List Byte} (hk : 4 * k + 8 ≤ n) :
    ((lengths n s).drop (4 * k)).take 8 = codeLens 8 (s.getD (k + 1) 0 ++ s.getD k 0).toNat := by
  rw [codeLens_two, ← lengths_group (n := n) (k := k) (c := 4) (by omega) (by omega),
    ← lengths_group (n := n) (k := k + 1) (c := 4) (by omega) (by omega), show 4 * (k + 1) = 4 * k + 4 by omega,
    ← List.drop_drop, ← List.take_add]

/-- Group `k` of a stream. -/
theorem decode_group {n : Nat} {s : List Byte} {xs : List U32} (h : decode n s = some xs) (i c : Nat) :
    readNums (((lengths n s).drop i).take c) (s.drop (numPos n s i)) = some ((xs.drop i).take c) := by
  unfold decode at h
  split at h
  · cases h
  have := readNums_take (readNums_drop h i) c
  rwa [List.drop_drop] at this

theorem numPos_le {n : Nat} {s : List Byte} {xs : List U32} (h : decode n s = some xs) (i c : Nat) :
    numPos n s i + (((lengths n s).drop i).take c).sum ≤ s.length := by
  have h1 := decode_isSome.1 ⟨xs, h⟩
  have h2 : (lengths n s).sum = ((lengths n s).take i).sum + (((lengths n s).drop i).take c).sum +
      (((lengths n s).drop i).drop c).sum := by
    rw [Nat.add_assoc, ← List.sum_append, List.take_append_drop, ← List.sum_append, List.take_append_drop]
  unfold numPos; omega

theorem numPos_succ {n k : Nat} {s : List Byte} (hk : 4 * k + 4 ≤ n) :
    numPos n s (4 * (k + 1)) = numPos n s (4 * k) + (codeLens 4 (s.getD k 0).toNat).sum := by
  unfold numPos
  rw [← lengths_group (n := n) (k := k) (c := 4) (by omega) hk, show 4 * (k + 1) = 4 * k + 4 by omega, List.take_add,
    List.sum_append, Nat.add_assoc]

/-- Number `j` is determined by the control bytes up to its own and by its own data bytes. -/
theorem decode_number {n : Nat} {s s' : List Byte} {xs xs' : List U32} (h : decode n s = some xs)
    (h' : decode n s' = some xs') {j : Nat} (hj : j < n) (hc : ∀ i ≤ j / 4, s.getD i 0 = s'.getD i 0)
    (hd : ∀ k < (lengths n s).getD j 0, s.getD (numPos n s j + k) 0 = s'.getD (numPos n s j + k) 0) : xs[j]? = xs'[j]? := by
  have hl := decode_isSome.1 ⟨xs, h⟩
  have hl' := decode_isSome.1 ⟨xs', h'⟩
  have hn : (lengths n s).take (j + 1) = (lengths n s').take (j + 1) := by
    unfold lengths
    rw [← List.map_take, ← List.map_take]
    refine List.map_congr_left fun i hi => ?_
    rw [List.take_range, List.mem_range] at hi
    rw [hc (i / 4) (by omega)]
  have hg : (lengths n s)[j]? = (lengths n s')[j]? := by
    rw [← List.getElem?_take_of_lt (Nat.lt_succ_self j), hn, List.getElem?_take_of_lt (Nat.lt_succ_self j)]
  have ht : (lengths n s).take j = (lengths n s').take j := by
    have := congrArg (List.take j) hn
    rwa [List.take_take, List.take_take, Nat.min_eq_left (Nat.le_succ j)] at this
  have b1 := numPos_le h j 1
  have b2 := numPos_le h' j 1
  unfold decode at h h'
  rw [if_neg (by omega)] at h h'
  rw [readNums_get h j, readNums_get h' j, ← hg, ← ht]
  have hjl : j < (lengths n s).length := by rw [lengths_length]; exact hj
  have hjl' : j < (lengths n s').length := by rw [lengths_length]; exact hj
  rw [List.getElem?_eq_getElem hjl]
  simp only [Option.map_some, Option.some.injEq]
  congr 2
  have hgd : (lengths n s).getD j 0 = (lengths n s)[j] := by
    rw [List.getD_eq_getElem?_getD, List.getElem?_eq_getElem hjl]; rfl
  have hge : (lengths n s)[j] = (lengths n s')[j] := by
    rw [List.getElem?_eq_getElem hjl, List.getElem?_eq_getElem hjl'] at hg; exact Option.some.inj hg
  have t1 : (((lengths n s).drop j).take 1).sum = (lengths n s)[j] := by
    rw [List.drop_eq_getElem_cons hjl, List.take_succ_cons, List.take_zero, List.sum_cons, List.sum_nil, Nat.add_zero]
  have t2 : (((lengths n s').drop j).take 1).sum = (lengths n s')[j] := by
    rw [List.drop_eq_getElem_cons hjl', List.take_succ_cons, List.take_zero, List.sum_cons, List.sum_nil, Nat.add_zero]
  have hp : numPos n s j = numPos n s' j := by unfold numPos; rw [ht]
  refine List.ext_getElem? fun k => ?_
  by_cases hk : k < (lengths n s)[j]
  · have hd' := hd k (by omega)
    rw [List.getElem?_take_of_lt hk, List.getElem?_take_of_lt hk, List.drop_drop, List.drop_drop, List.getElem?_drop,
      List.getElem?_drop]
    have e : ctrlLen n + ((lengths n s).take j).sum + k = numPos n s j + k := rfl
    rw [e, List.getElem?_eq_getElem (by omega), List.getElem?_eq_getElem (by omega)]
    rw [List.getD_eq_getElem?_getD, List.getD_eq_getElem?_getD, List.getElem?_eq_getElem (by omega),
      List.getElem?_eq_getElem (by omega)] at hd'
    exact congrArg some hd'
  · rw [List.getElem?_eq_none (by simp; omega), List.getElem?_eq_none (by simp; omega)]

theorem undelta_get (prev : U32) (ds : List U32) :
    (∀ d, ds[0]? = some d → (undelta prev ds)[0]? = some (d + prev)) ∧
    ∀ j d y, ds[j + 1]? = some d → (undelta prev ds)[j]? = some y → (undelta prev ds)[j + 1]? = some (d + y) := by
  induction ds generalizing prev with
  | nil => simp
  | cons a ds ih =>
    refine ⟨by intro d h; simp at h; simp [undelta, h], fun j d y h1 h2 => ?_⟩
    cases j with
    | zero =>
      simp only [undelta, List.getElem?_cons_zero, Option.some.injEq] at h2
      subst h2
      simpa [undelta] using (ih (a + prev)).1 d (by simpa using h1)
    | succ j => simpa [undelta] using (ih (a + prev)).2 j d y (by simpa using h1) (by simpa [undelta] using h2)

end SVB.Spec
