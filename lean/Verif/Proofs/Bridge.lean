import Verif.Proofs.WriterCommon

/-! # From addresses to lists: the layout invariants say the memory holds `encode xs` -/

namespace SVB
open Spec

/-! ## Lists -/

theorem range_map_append {α : Type} (f : Nat → α) (a b : Nat) :
    (List.range (a + b)).map f = (List.range a).map f ++ (List.range b).map (fun k => f (a + k)) := by
  rw [List.range_add, List.map_append, List.map_map]; rfl

theorem getD_eq_getElem' {α : Type} {l : List α} {i : Nat} (d : α) (h : i < l.length) : l.getD i d = l[i] := by
  simp [List.getD, h]

theorem getD_of_le {α : Type} {l : List α} {i : Nat} (d : α) (h : l.length ≤ i) : l.getD i d = d := by
  simp [List.getD, h]

/-! ## Bytes of a number -/

theorem leNat_byte (m : Mem) (b : Block) (o l k : Nat) (hk : k < l) :
    (m ⟨b, o + k⟩).toNat = leNat m b o l / 256 ^ k % 256 := by
  induction k generalizing o l with
  | zero =>
    obtain ⟨l, rfl⟩ : ∃ l', l = l' + 1 := ⟨l - 1, by omega⟩
    have := (m ⟨b, o⟩).isLt
    simp only [leNat, Nat.add_zero, Nat.pow_zero, Nat.div_one]
    omega
  | succ k ih =>
    obtain ⟨l, rfl⟩ : ∃ l', l = l' + 1 := ⟨l - 1, by omega⟩
    have h1 := (m ⟨b, o⟩).isLt
    have := ih (o + 1) l (by omega)
    rw [show o + (k + 1) = o + 1 + k by omega, this]
    simp only [leNat]
    rw [Nat.pow_succ, Nat.mul_comm (256 ^ k) 256, ← Nat.div_div_eq_div_mul]
    congr 2
    omega

theorem leBytes_of_leNat {m : Mem} {b : Block} {o : Nat} {v : U32} (h : leNat m b o (byteLen v) = v.toNat) :
    (List.range (byteLen v)).map (fun k => m ⟨b, o + k⟩) = leBytes v := by
  unfold leBytes
  apply List.map_congr_left
  intro k hk
  rw [List.mem_range] at hk
  apply BitVec.eq_of_toNat_eq
  rw [leNat_byte m b o _ k hk, h, BitVec.toNat_ofNat]

theorem leBytes_length (v : U32) : (leBytes v).length = byteLen v := by simp [leBytes]

/-! ## Control bytes -/

theorem ctrlNat_lt : ∀ (k : Nat) (g : List U32), g.length ≤ k → ctrlNat g < 4 ^ k
  | _, [], _ => by simp [ctrlNat, Nat.pow_pos]
  | 0, _ :: _, h => by simp at h
  | k + 1, v :: g, h => by
    have := ctrlNat_lt k g (by simpa using h)
    have := byteLen_bounds v
    simp only [ctrlNat, Nat.pow_succ]; omega

theorem ctrlNat_code : ∀ (k : Nat) (g : List U32), ctrlNat g / 4 ^ k % 4 + 1 = byteLen (g.getD k 0)
  | k, [] => by simp only [ctrlNat, Nat.zero_div, List.getD_nil, byteLen_zero]
  | 0, v :: g => by
    have := byteLen_bounds v
    simp only [ctrlNat, Nat.pow_zero, Nat.div_one, List.getD_cons_zero]; omega
  | k + 1, v :: g => by
    have := byteLen_bounds v
    have ih := ctrlNat_code k g
    simp only [ctrlNat, List.getD_cons_succ]
    rw [← ih, Nat.pow_succ, Nat.mul_comm (4 ^ k) 4, ← Nat.div_div_eq_div_mul]
    congr 3
    omega

theorem ctrlByte_code {g : List U32} (h : g.length ≤ 4) (k : Nat) :
    code (ctrlByte g) k + 1 = byteLen (g.getD k 0) := by
  have := ctrlNat_lt 4 g h
  unfold code ctrlByte
  rw [BitVec.toNat_ofNat, Nat.mod_eq_of_lt (show ctrlNat g < 2 ^ 8 by simpa using this)]
  exact ctrlNat_code k g

theorem ctrls_cons (x : U32) (xs : List U32) :
    ctrls (x :: xs) = ctrlByte (x :: xs.take 3) :: ctrls (xs.drop 3) := by rw [ctrls]

theorem ctrls_nil : ctrls [] = [] := by rw [ctrls]

theorem ctrls_length (xs : List U32) : (ctrls xs).length = ctrlLen xs.length := by
  induction xs using ctrls.induct with
  | case1 => simp [ctrls_nil, ctrlLen]
  | case2 x xs ih =>
    rw [ctrls_cons]
    simp only [List.length_cons, ih, List.length_drop, ctrlLen]
    omega

theorem ctrls_code (xs : List U32) (g k : Nat) (hg : g < ctrlLen xs.length) (hk : k < 4) :
    code ((ctrls xs).getD g 0) k + 1 = byteLen (xs.getD (4 * g + k) 0) := by
  induction xs using ctrls.induct generalizing g with
  | case1 => simp [ctrlLen] at hg
  | case2 x xs ih =>
    rw [ctrls_cons]
    cases g with
    | zero =>
      rw [List.getD_cons_zero, ctrlByte_code (by simp; omega), Nat.mul_zero, Nat.zero_add]
      obtain rfl | rfl | rfl | rfl : k = 0 ∨ k = 1 ∨ k = 2 ∨ k = 3 := by omega
      all_goals simp [List.getD]
    | succ g =>
      rw [List.getD_cons_succ, ih g (by
        simp only [List.length_cons, List.length_drop, ctrlLen] at *; omega)]
      rw [show 4 * (g + 1) + k = (4 * g + k + 3) + 1 by omega, List.getD_cons_succ]
      simp only [List.getD, List.getElem?_drop]
      rw [Nat.add_comm 3]

/-! ## Data bytes -/

/-- The numbers of a list as a function, zero beyond the end. -/
def fn (xs : List U32) (t : Nat) : U32 := xs.getD t 0

theorem take_succ_getD {xs : List U32} {i : Nat} (h : i < xs.length) :
    xs.take (i + 1) = xs.take i ++ [fn xs i] := by
  rw [List.take_add_one, fn, getD_eq_getElem' _ h, List.getElem?_eq_getElem h]; rfl

theorem data_eq {m : Mem} {b : Block} {B : Nat} {xs : List U32} (i : Nat) (hi : i ≤ xs.length)
    (h : Stored m b B (fn xs) 0 i) :
    (List.range (offs (fn xs) i)).map (fun o => m ⟨b, B + o⟩) = dataBytes (xs.take i) := by
  induction i with
  | zero => rfl
  | succ i ih =>
    rw [offs_one, range_map_append, ih (by omega) (fun t h1 h2 => h t h1 (by omega)),
      take_succ_getD (by omega)]
    simp only [dataBytes, List.flatMap_append, List.flatMap_cons, List.flatMap_nil, List.append_nil]
    congr 1
    have := leBytes_of_leNat (h i (by omega) (by omega))
    rw [← this]
    apply List.map_congr_left
    intro k _
    rw [Nat.add_assoc]

theorem offs_eq (xs : List U32) (i : Nat) (hi : i ≤ xs.length) :
    offs (fn xs) i = (dataBytes (xs.take i)).length := by
  induction i with
  | zero => rfl
  | succ i ih =>
    rw [offs_one, ih (by omega), take_succ_getD (by omega)]
    simp [dataBytes, leBytes_length]

theorem offs_length (xs : List U32) : offs (fn xs) xs.length = (dataBytes xs).length := by
  rw [offs_eq xs _ (Nat.le_refl _), List.take_length]

theorem encode_length (xs : List U32) : (encode xs).length = ctrlLen xs.length + offs (fn xs) xs.length := by
  rw [encode, List.length_append, ctrls_length, offs_length]

/-- The layout invariant of a finished writer, as a list of bytes. -/
theorem bytes_encode {m : Mem} {b : Block} {o : Nat} {xs : List U32} {r : Bytes} (hb : r.blk = b) (ho : r.off = o)
    (hl : r.len = ctrlLen xs.length + offs (fn xs) xs.length)
    (hc : ∀ g < ctrlLen xs.length, ∀ k < 4, code (m ⟨b, o + g⟩) k + 1 = byteLen (fn xs (4 * g + k)))
    (hs : Stored m b (o + ctrlLen xs.length) (fn xs) 0 xs.length) : bytesOf m r = encode xs := by
  unfold bytesOf encode
  rw [hl, hb, ho, range_map_append]
  congr 1
  · apply List.ext_getElem
    · simp [ctrls_length]
    · intro g h1 h2
      simp only [List.length_map, List.length_range] at h1
      simp only [List.getElem_map, List.getElem_range]
      apply byte_eq_of_codes
      intro k hk
      have e1 := hc g h1 k hk
      have e2 := ctrls_code xs g k h1 hk
      rw [getD_eq_getElem' _ h2] at e2
      simp only [fn] at e1
      omega
  · rw [← List.take_length (l := xs), ← data_eq xs.length (Nat.le_refl _) hs, List.take_length]
    apply List.map_congr_left
    intro k _
    rw [Nat.add_assoc]

/-! ## Differences -/

theorem delta_length (prev : U32) (xs : List U32) : (delta prev xs).length = xs.length := by
  induction xs generalizing prev with
  | nil => rfl
  | cons x xs ih => simp [delta, ih]

theorem delta_fn (prev : U32) (xs : List U32) (t : Nat) (h : t < xs.length) :
    fn (delta prev xs) t = fn xs t - pv (fn xs) prev t := by
  induction xs generalizing prev t with
  | nil => simp at h
  | cons x xs ih =>
    cases t with
    | zero => rfl
    | succ t =>
      have := ih x t (by simpa using h)
      simp only [fn, delta, List.getD_cons_succ] at *
      rw [this, pv_succ]
      congr 1
      unfold pv
      cases t <;> rfl

theorem fn_zero {xs : List U32} {n : Nat} (h : xs.length = n) (t : Nat) (ht : n ≤ t) : fn xs t = 0 :=
  getD_of_le _ (by omega)

/-! ## Words -/

theorem wordsN_length (m : Mem) (s : U32s) (n : Nat) : (wordsN m s n).length = n := by simp [wordsN]

theorem wordsN_fn (m : Mem) (s : U32s) (n t : Nat) (h : t < n) :
    fn (wordsN m s n) t = wordAt m s.blk (s.off + 4 * t) := by
  rw [fn, getD_eq_getElem' _ (by simpa [wordsN] using h)]
  simp [wordsN, wordAt]

theorem wordsN_eq {m : Mem} {s : U32s} {n : Nat} {f : Nat → U32}
    (h : ∀ t < n, wordAt m s.blk (s.off + 4 * t) = f t) : wordsN m s n = (List.range n).map f := by
  unfold wordsN
  apply List.map_congr_left
  intro t ht
  exact h t (List.mem_range.1 ht)

end SVB
