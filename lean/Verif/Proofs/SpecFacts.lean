import Verif.Proofs.Bridge

/-! # Facts about the format itself -/

set_option autoImplicit false

namespace SVB
open Spec

theorem getD_append_left {α : Type} {a b : List α} {i : Nat} (d : α) (h : i < a.length) :
    (a ++ b).getD i d = a.getD i d := by
  simp [List.getD, List.getElem?_append_left h]

/-! ## Bytes and values -/

theorem leValue_lt (bs : List Byte) : leValue bs < 256 ^ bs.length := by
  induction bs with
  | nil => simp [leValue]
  | cons b bs ih =>
    have := b.isLt
    simp only [leValue, List.length_cons, Nat.pow_succ]
    omega

theorem leValue_inj (a b : List Byte) (hl : a.length = b.length) (h : leValue a = leValue b) : a = b := by
  induction a generalizing b with
  | nil => cases b with
    | nil => rfl
    | cons => simp at hl
  | cons x a ih => cases b with
    | nil => simp at hl
    | cons y b =>
      have hx := x.isLt
      have hy := y.isLt
      simp only [leValue] at h
      have h1 : x = y := BitVec.eq_of_toNat_eq (by omega)
      subst h1
      rw [ih b (by simpa using hl) (by omega)]

theorem leValue_range (v l : Nat) :
    leValue ((List.range l).map fun k => BitVec.ofNat 8 (v / 256 ^ k)) = v % 256 ^ l := by
  induction l generalizing v with
  | zero => simp [leValue, Nat.mod_one]
  | succ l ih =>
    rw [List.range_succ_eq_map, List.map_cons, List.map_map]
    simp only [leValue, Nat.pow_zero, Nat.div_one, BitVec.toNat_ofNat]
    have : ((fun k => BitVec.ofNat 8 (v / 256 ^ k)) ∘ Nat.succ) =
        fun k => BitVec.ofNat 8 (v / 256 / 256 ^ k) := by
      funext k
      simp only [Function.comp, Nat.succ_eq_add_one, Nat.div_div_eq_div_mul, Nat.pow_succ, Nat.mul_comm]
    rw [this, ih, Nat.pow_succ _ l, Nat.mul_comm _ 256, Nat.mod_mul]

theorem leValue_leBytes (v : U32) : leValue (leBytes v) = v.toNat := by
  rw [leBytes, leValue_range, Nat.mod_eq_of_lt (lt_pow_byteLen v)]

/-- `byteLen` is the least length that fits. -/
theorem byteLen_le {v : U32} {l : Nat} (h : v.toNat < 256 ^ l) (hl : 1 ≤ l) : byteLen v ≤ l := by
  have := v.isLt
  unfold byteLen
  rcases Nat.lt_or_ge l 4 with h4 | h4
  · have : l = 1 ∨ l = 2 ∨ l = 3 := by omega
    rcases this with rfl | rfl | rfl <;> simp only [Nat.reducePow] at h <;> (repeat' split) <;> omega
  · repeat' split
    all_goals omega

theorem byteLen_mono {a b : U32} (h : a.toNat ≤ b.toNat) : byteLen a ≤ byteLen b :=
  byteLen_le (Nat.lt_of_le_of_lt h (lt_pow_byteLen b)) (byteLen_bounds b).1

/-! ## Reading what was written -/

theorem readNums_data (xs : List U32) (t : List Byte) :
    readNums (xs.map byteLen) (dataBytes xs ++ t) = some xs := by
  induction xs with
  | nil => rfl
  | cons x xs ih =>
    have hl := leBytes_length x
    have : dataBytes (x :: xs) = leBytes x ++ dataBytes xs := rfl
    rw [List.map_cons, readNums, this, List.append_assoc, if_neg (by simp only [List.length_append]; omega),
      List.drop_append_of_le_length (by omega), List.drop_eq_nil_of_le (by omega), List.nil_append, ih,
      List.take_append_of_le_length (by omega), List.take_of_length_le (by omega), leValue_leBytes]
    simp

theorem lengths_encode (xs : List U32) (t : List Byte) :
    lengths xs.length (ctrls xs ++ t) = xs.map byteLen := by
  apply List.ext_getElem
  · simp [lengths]
  · intro i h1 h2
    have hi : i < xs.length := by simpa using h2
    simp only [lengths, List.getElem_map, List.getElem_range]
    have hC : ctrlLen xs.length = (xs.length + 3) / 4 := rfl
    have hlt : i / 4 < (ctrls xs).length := by rw [ctrls_length]; omega
    rw [getD_append_left _ hlt, ctrls_code xs (i / 4) (i % 4) (by omega) (by omega),
      show 4 * (i / 4) + i % 4 = i by omega, getD_eq_getElem' _ hi]

/-- Round trip of the format, with anything after the stream. -/
theorem decode_encode (xs : List U32) (t : List Byte) : decode xs.length (encode xs ++ t) = some xs := by
  have hc := ctrls_length xs
  unfold decode encode
  rw [if_neg (by simp only [List.length_append]; omega), List.append_assoc, lengths_encode,
    List.drop_append_of_le_length (by omega), List.drop_eq_nil_of_le (by omega), List.nil_append,
    readNums_data]

theorem undelta_delta (prev : U32) (xs : List U32) : undelta prev (delta prev xs) = xs := by
  induction xs generalizing prev with
  | nil => rfl
  | cons x xs ih => simp only [delta, undelta, BitVec.sub_add_cancel, ih]

theorem delta_undelta (prev : U32) (ds : List U32) : delta prev (undelta prev ds) = ds := by
  induction ds generalizing prev with
  | nil => rfl
  | cons x xs ih => simp only [delta, undelta, BitVec.add_sub_cancel, ih]

theorem undelta_length (prev : U32) (xs : List U32) : (undelta prev xs).length = xs.length := by
  induction xs generalizing prev with
  | nil => rfl
  | cons x xs ih => simp [undelta, ih]

theorem decodeDelta_encode (prev : U32) (xs : List U32) (t : List Byte) :
    decodeDelta prev xs.length (encode (delta prev xs) ++ t) = some xs := by
  unfold decodeDelta
  have := decode_encode (delta prev xs) t
  rw [delta_length] at this
  rw [this, Option.map_some, undelta_delta]

/-! ## Sizes -/

theorem dataBytes_cons (x : U32) (xs : List U32) : dataBytes (x :: xs) = leBytes x ++ dataBytes xs := rfl

theorem dataBytes_length (xs : List U32) : (dataBytes xs).length = (xs.map byteLen).sum := by
  induction xs with
  | nil => rfl
  | cons x xs ih => simp [dataBytes_cons, leBytes_length, ih]

theorem encode_length_sum (xs : List U32) :
    (encode xs).length = ctrlLen xs.length + (xs.map byteLen).sum := by
  rw [encode, List.length_append, ctrls_length, dataBytes_length]

theorem sum_bounds (xs : List U32) : xs.length ≤ (xs.map byteLen).sum ∧ (xs.map byteLen).sum ≤ 4 * xs.length := by
  induction xs with
  | nil => simp
  | cons x xs ih =>
    have := byteLen_bounds x
    simp only [List.length_cons, List.map_cons, List.sum_cons]
    omega

/-! ## Arbitrary streams -/

theorem readNums_append {ls : List Nat} {bs : List Byte} {xs : List U32} (h : readNums ls bs = some xs)
    (t : List Byte) : readNums ls (bs ++ t) = some xs := by
  induction ls generalizing bs xs with
  | nil => exact h
  | cons l ls ih =>
    rw [readNums] at h ⊢
    split at h
    · cases h
    · obtain ⟨ys, hy, rfl⟩ := Option.map_eq_some_iff.1 h
      rw [if_neg (by simp only [List.length_append]; omega), List.drop_append_of_le_length (by omega), ih hy,
        List.take_append_of_le_length (by omega)]
      rfl

theorem decode_some_len {n : Nat} {s : List Byte} {xs : List U32} (h : decode n s = some xs) :
    ctrlLen n ≤ s.length := by
  unfold decode at h
  split at h
  · cases h
  · omega

theorem lengths_congr {n : Nat} {s s' : List Byte} (h : ∀ g < ctrlLen n, s.getD g 0 = s'.getD g 0) :
    lengths n s = lengths n s' := by
  unfold lengths
  apply List.map_congr_left
  intro i hi
  rw [List.mem_range] at hi
  have hC : ctrlLen n = (n + 3) / 4 := rfl
  rw [h (i / 4) (by omega)]

/-- Bytes after the last number do not matter. -/
theorem decode_append {n : Nat} {s : List Byte} {xs : List U32} (h : decode n s = some xs) (t : List Byte) :
    decode n (s ++ t) = some xs := by
  have hl := decode_some_len h
  unfold decode at h ⊢
  rw [if_neg (by omega)] at h
  rw [if_neg (by simp only [List.length_append]; omega), List.drop_append_of_le_length hl]
  rw [lengths_congr (s' := s) fun g hg => getD_append_left _ (by omega)]
  exact readNums_append h t

theorem readNums_take {ls : List Nat} {bs : List Byte} {xs : List U32} (h : readNums ls bs = some xs)
    (k : Nat) : readNums (ls.take k) bs = some (xs.take k) := by
  induction ls generalizing bs xs k with
  | nil =>
    simp only [readNums, Option.some.injEq] at h
    subst h; simp [readNums]
  | cons l ls ih =>
    rw [readNums] at h
    split at h
    · cases h
    · next hl =>
      obtain ⟨ys, hy, rfl⟩ := Option.map_eq_some_iff.1 h
      cases k with
      | zero => rfl
      | succ k => rw [List.take_succ_cons, readNums, if_neg hl, ih hy]; rfl

/-- Fewer numbers from the same number of groups. -/
theorem decode_take {n k : Nat} {s : List Byte} {xs : List U32} (h : decode n s = some xs) (hk : k ≤ n)
    (hg : ctrlLen k = ctrlLen n) : decode k s = some (xs.take k) := by
  have hl := decode_some_len h
  unfold decode at h ⊢
  rw [if_neg (by omega)] at h
  rw [hg, if_neg (by omega), ← readNums_take h k]
  congr 1
  unfold lengths
  rw [← List.map_take, List.take_range, Nat.min_eq_left hk]

theorem undelta_take (prev : U32) (ds : List U32) (k : Nat) :
    undelta prev (ds.take k) = (undelta prev ds).take k := by
  induction ds generalizing prev k with
  | nil => simp [undelta]
  | cons d ds ih => cases k with
    | zero => rfl
    | succ k => simp only [List.take_succ_cons, undelta, ih]

theorem decode_length {n : Nat} {s : List Byte} {xs : List U32} (h : decode n s = some xs) : xs.length = n := by
  have key : ∀ (ls : List Nat) (bs : List Byte) (xs : List U32), readNums ls bs = some xs → xs.length = ls.length := by
    intro ls
    induction ls with
    | nil => intro bs xs h; simp only [readNums, Option.some.injEq] at h; subst h; rfl
    | cons l ls ih =>
      intro bs xs h
      rw [readNums] at h
      split at h
      · cases h
      · obtain ⟨ys, hy, rfl⟩ := Option.map_eq_some_iff.1 h
        simp [ih _ _ hy]
  unfold decode at h
  split at h
  · cases h
  · simpa [lengths] using key _ _ _ h

/-- `decode` fails exactly when bytes are missing. -/
theorem readNums_none {ls : List Nat} {bs : List Byte} : readNums ls bs = none ↔ bs.length < ls.sum := by
  induction ls generalizing bs with
  | nil => simp [readNums]
  | cons l ls ih =>
    rw [readNums, List.sum_cons]
    split
    · simp only [true_iff]; omega
    · rw [Option.map_eq_none_iff, ih, List.length_drop]; omega

theorem decode_none {n : Nat} {s : List Byte} :
    decode n s = none ↔ s.length < ctrlLen n + (lengths n s).sum := by
  unfold decode
  split
  · simp only [true_iff]; omega
  · rw [readNums_none, List.length_drop]; omega

theorem decode_isSome {n : Nat} {s : List Byte} :
    (∃ xs, decode n s = some xs) ↔ ctrlLen n + (lengths n s).sum ≤ s.length := by
  have := decode_none (n := n) (s := s)
  cases h : decode n s with
  | none => rw [h] at this; simp only [reduceCtorEq, exists_false, false_iff]; simp at this; omega
  | some xs => rw [h] at this; simp at this ⊢; omega

theorem readNums_trunc {ls : List Nat} {bs : List Byte} {xs : List U32} (h : readNums ls bs = some xs)
    {j : Nat} (hj : ls.sum ≤ j) : readNums ls (bs.take j) = some xs := by
  induction ls generalizing bs xs j with
  | nil => exact h
  | cons l ls ih =>
    rw [List.sum_cons] at hj
    rw [readNums] at h ⊢
    split at h
    · cases h
    · obtain ⟨ys, hy, rfl⟩ := Option.map_eq_some_iff.1 h
      rw [if_neg (by rw [List.length_take]; omega), List.drop_take, ih hy (by omega), List.take_take,
        Nat.min_eq_left (by omega)]
      rfl

/-- The first `ctrlLen n + Σ lengths` bytes determine the result. -/
theorem decode_trunc {n : Nat} {s : List Byte} {xs : List U32} (h : decode n s = some xs) {j : Nat}
    (hj : ctrlLen n + (lengths n s).sum ≤ j) : decode n (s.take j) = some xs := by
  have hl := decode_some_len h
  have e : lengths n (s.take j) = lengths n s := lengths_congr fun g hg => by
    simp [List.getD, show g < j by omega]
  unfold decode at h ⊢
  rw [if_neg (by omega)] at h
  rw [if_neg (by rw [List.length_take]; omega), e, List.drop_take]
  exact readNums_trunc h (by omega)

/-! ## Minimality -/

/-- What a successful `readNums` says about sizes. -/
theorem readNums_min {ls : List Nat} {bs : List Byte} {xs : List U32} (h : readNums ls bs = some xs)
    (h1 : ∀ l ∈ ls, 1 ≤ l) :
    (xs.map byteLen).sum ≤ ls.sum ∧ ls.sum ≤ bs.length ∧
      ((xs.map byteLen).sum = bs.length → (∀ l ∈ ls, l ≤ 4) → ls = xs.map byteLen ∧ bs = dataBytes xs) := by
  induction ls generalizing bs xs with
  | nil =>
    simp only [readNums, Option.some.injEq] at h
    subst h
    refine ⟨Nat.le_refl _, Nat.zero_le _, fun h _ => ⟨rfl, ?_⟩⟩
    exact List.length_eq_zero_iff.1 h.symm
  | cons l ls ih =>
    rw [readNums] at h
    split at h
    · cases h
    · next hl =>
      obtain ⟨ys, hy, rfl⟩ := Option.map_eq_some_iff.1 h
      obtain ⟨i1, i2, i3⟩ := ih hy fun l hl => h1 l (List.mem_cons_of_mem _ hl)
      have hl1 := h1 l List.mem_cons_self
      have hlen : (bs.take l).length = l := by rw [List.length_take]; omega
      have hv := leValue_lt (bs.take l)
      rw [hlen] at hv
      rw [List.length_drop] at i2 i3
      have hb : byteLen (BitVec.ofNat 32 (leValue (bs.take l))) ≤ l :=
        byteLen_le (Nat.lt_of_le_of_lt (by rw [BitVec.toNat_ofNat]; exact Nat.mod_le _ _) hv) hl1
      simp only [List.map_cons, List.sum_cons]
      refine ⟨by omega, by omega, fun he hle => ?_⟩
      obtain ⟨j1, j2⟩ := i3 (by omega) fun l hl => hle l (List.mem_cons_of_mem _ hl)
      have hl4 := hle l List.mem_cons_self
      have hbl : byteLen (BitVec.ofNat 32 (leValue (bs.take l))) = l := by
        rw [← j1] at he; omega
      refine ⟨by rw [hbl, ← j1], ?_⟩
      rw [dataBytes_cons, ← j2]
      conv => lhs; rw [← List.take_append_drop l bs]
      congr 1
      refine leValue_inj _ _ (by rw [hlen, leBytes_length, hbl]) ?_
      rw [leValue_leBytes, BitVec.toNat_ofNat, Nat.mod_eq_of_lt]
      have : 256 ^ l ≤ 256 ^ 4 := Nat.pow_le_pow_right (by omega) hl4
      simp only [Nat.reducePow] at this ⊢
      omega

theorem lengths_range (n : Nat) (s : List Byte) : ∀ l ∈ lengths n s, 1 ≤ l ∧ l ≤ 4 := by
  intro l hl
  simp only [lengths, List.mem_map] at hl
  obtain ⟨i, _, rfl⟩ := hl
  have := code_lt (s.getD (i / 4) 0) (i % 4)
  omega

theorem encode_min {s : List Byte} {xs : List U32} (h : decode xs.length s = some xs) :
    (encode xs).length ≤ s.length := by
  have hl := decode_some_len h
  unfold decode at h
  rw [if_neg (by omega)] at h
  obtain ⟨h1, h2, -⟩ := readNums_min h fun l hl => (lengths_range _ _ l hl).1
  rw [List.length_drop] at h2
  rw [encode_length_sum]; omega

theorem encode_unique {s : List Byte} {xs : List U32} (h : decode xs.length s = some xs)
    (hlen : s.length = (encode xs).length) (hz : SpareZero xs.length s) : s = encode xs := by
  have hl := decode_some_len h
  unfold decode at h
  rw [if_neg (by omega)] at h
  obtain ⟨h1, h2, h3⟩ := readNums_min h fun l hl => (lengths_range _ _ l hl).1
  rw [encode_length_sum] at hlen
  rw [List.length_drop] at h3
  obtain ⟨h4, h5⟩ := h3 (by omega) fun l hl => (lengths_range _ _ l hl).2
  have hc := ctrls_length xs
  have hsp : s.take (ctrlLen xs.length) = ctrls xs := by
    apply List.ext_getElem
    · rw [List.length_take, hc]; omega
    · intro g g1 g2
      rw [List.getElem_take]
      apply byte_eq_of_codes
      intro k hk
      have hC : ctrlLen xs.length = (xs.length + 3) / 4 := rfl
      have hg : g < ctrlLen xs.length := by rw [← hc]; exact g2
      have e1 := ctrls_code xs g k hg hk
      rw [getD_eq_getElem' _ g2] at e1
      have e2 : code (s[g]'(by omega)) k + 1 = byteLen (xs.getD (4 * g + k) 0) := by
        by_cases hi : 4 * g + k < xs.length
        · have : (lengths xs.length s).getD (4 * g + k) 0 = (xs.map byteLen).getD (4 * g + k) 0 := by rw [h4]
          rw [getD_eq_getElem' _ (by simpa [lengths] using hi), getD_eq_getElem' _ (by simpa using hi)] at this
          simp only [lengths, List.getElem_map, List.getElem_range] at this
          rw [show (4 * g + k) / 4 = g by omega, show (4 * g + k) % 4 = k by omega,
            getD_eq_getElem' _ (by omega)] at this
          rw [this, getD_eq_getElem' _ hi]
        · have := hz (4 * g + k) (by omega) (by omega)
          rw [show (4 * g + k) / 4 = g by omega, show (4 * g + k) % 4 = k by omega,
            getD_eq_getElem' _ (by omega)] at this
          rw [this, getD_of_le _ (by omega), byteLen_zero]
      omega
  rw [← List.take_append_drop (ctrlLen xs.length) s, hsp, h5]
  rfl

theorem encode_spareZero (xs : List U32) (t : List Byte) : SpareZero xs.length (encode xs ++ t) := by
  intro i h1 h2
  have hc := ctrls_length xs
  have hg : i / 4 < ctrlLen xs.length := by omega
  rw [encode, List.append_assoc, getD_append_left _ (by omega)]
  have := ctrls_code xs (i / 4) (i % 4) hg (by omega)
  rw [show 4 * (i / 4) + i % 4 = i by omega, getD_of_le _ h1, byteLen_zero] at this
  omega

/-! ## Concatenation -/

theorem ctrls_append (a b : List U32) (h : a.length % 4 = 0) : ctrls (a ++ b) = ctrls a ++ ctrls b := by
  induction a using ctrls.induct with
  | case1 => simp [ctrls_nil]
  | case2 x xs ih =>
    have h3 : 3 ≤ xs.length := by simp only [List.length_cons] at h; omega
    rw [List.cons_append, ctrls_cons, ctrls_cons, List.take_append_of_le_length h3,
      List.drop_append_of_le_length h3, ih (by simp only [List.length_cons, List.length_drop] at h ⊢; omega)]
    rfl

theorem dataBytes_append (a b : List U32) : dataBytes (a ++ b) = dataBytes a ++ dataBytes b := by
  simp [dataBytes]

/-- The base for the batch after `a`. -/
theorem delta_append (prev : U32) (a b : List U32) :
    delta prev (a ++ b) = delta prev a ++ delta (a.getLast?.getD prev) b := by
  induction a generalizing prev with
  | nil => rfl
  | cons x a ih =>
    simp only [List.cons_append, delta, ih]
    cases a with
    | nil => rfl
    | cons y a => simp [List.getLast?_cons]

theorem undelta_append (prev : U32) (a b : List U32) :
    undelta prev (a ++ b) = undelta prev a ++ undelta ((undelta prev a).getLast?.getD prev) b := by
  induction a generalizing prev with
  | nil => rfl
  | cons x a ih =>
    simp only [List.cons_append, undelta, ih]
    cases a with
    | nil => rfl
    | cons y a => simp [undelta, List.getLast?_cons]

/-! ## Sorted input -/

theorem delta_sum_le (prev : U32) (xs : List U32) (h : (prev :: xs).Pairwise (fun a b => a.toNat ≤ b.toNat)) :
    ((delta prev xs).map byteLen).sum ≤ (xs.map byteLen).sum := by
  induction xs generalizing prev with
  | nil => exact Nat.le_refl _
  | cons x xs ih =>
    rw [List.pairwise_cons] at h
    have hx := h.1 x List.mem_cons_self
    simp only [delta, List.map_cons, List.sum_cons]
    have : byteLen (x - prev) ≤ byteLen x := byteLen_mono (by
      rw [BitVec.toNat_sub_of_le (BitVec.le_def.2 hx)]; omega)
    have := ih x h.2
    omega

end SVB
