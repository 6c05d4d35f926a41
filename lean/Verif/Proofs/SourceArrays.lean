import Verif.Model.Shared

/-! # Arrays of arrays in memory -/

set_option autoImplicit false
set_option maxRecDepth 100000

namespace SVB

theorem flatten_getElem? {w : Nat} (L : List (List Nat)) (h : ∀ r ∈ L, r.length = w) (c j : Nat) (hj : j < w) :
    L.flatten[w * c + j]? = L[c]?.bind (·[j]?) := by
  induction L generalizing c with
  | nil => simp
  | cons r L ih =>
    have hr : r.length = w := h r (by simp)
    have hL : ∀ r ∈ L, r.length = w := fun r hr => h r (by simp [hr])
    cases c with
    | zero => simp [List.getElem?_append, hr, hj]
    | succ c =>
      have e : w * (c + 1) + j = w + (w * c + j) := by rw [Nat.mul_add, Nat.mul_one]; omega
      rw [List.flatten_cons, e, ← hr, List.getElem?_append_right (by omega), Nat.add_sub_cancel_left, hr, ih hL]
      simp

/-- An array of 256 rows of `w` bytes, laid out row by row. -/
theorem rows_iff {w : Nat} (L : List (List Nat)) (hw : 0 < w) (hl : L.length = 256) (h : ∀ r ∈ L, r.length = w)
    (f : Nat → Byte) :
    (∀ i x, L.flatten[i]? = some x → f i = BitVec.ofNat 8 x) ↔
      ∀ c < 256, ∀ j < w, f (w * c + j) = BitVec.ofNat 8 ((L.getD c []).getD j 0) := by
  constructor
  · intro H c hc j hj
    apply H
    have hc' : c < L.length := by omega
    have hr : L[c].length = w := h _ (List.getElem_mem hc')
    rw [flatten_getElem? L h c j hj]
    simp [List.getD, hc', hr, hj]
  · intro H i x e
    have hj : i % w < w := Nat.mod_lt _ hw
    have ei : w * (i / w) + i % w = i := Nat.div_add_mod i w
    rw [← ei, flatten_getElem? L h _ _ hj] at e
    have hc : i / w < L.length := by
      apply Classical.byContradiction
      intro hn
      rw [List.getElem?_eq_none (by omega)] at e
      simp at e
    have := H (i / w) (by omega) (i % w) hj
    rw [ei] at this
    rw [this]
    simp only [List.getElem?_eq_getElem hc, Option.bind_some] at e
    simp only [List.getD, List.getElem?_eq_getElem hc, Option.getD_some, e]

theorem nums_iff (L : List Nat) (hl : L.length = 256) (f : Nat → Byte) :
    (∀ i x, L[i]? = some x → f i = BitVec.ofNat 8 x) ↔ ∀ c < 256, f c = BitVec.ofNat 8 (L.getD c 0) := by
  constructor
  · intro H c hc
    apply H
    simp [List.getD, show c < L.length by omega]
  · intro H i x e
    have hi : i < L.length := by
      apply Classical.byContradiction
      intro hn
      rw [List.getElem?_eq_none (by omega)] at e
      simp at e
    rw [H i (by omega), List.getD, e]
    rfl

theorem table_sizes :
    (perNumLenTable.length = 256 ∧ ∀ r ∈ perNumLenTable, r.length = 4) ∧ perControlLenTable.length = 256 ∧
    (encodeShuffleTable.length = 256 ∧ ∀ r ∈ encodeShuffleTable, r.length = 16) ∧
    (decodeShuffleTable.length = 256 ∧ ∀ r ∈ decodeShuffleTable, r.length = 16) := by decide +kernel

end SVB
