import Verif.Proofs.Bridge
import Verif.Proofs.ReaderCommon

/-! # From addresses to lists: what the readers find is `decode` of the stream contents -/

namespace SVB
open Spec

theorem bytesOf_length (m : Mem) (s : Bytes) : (bytesOf m s).length = s.len := by simp [bytesOf]

theorem bytesOf_getD (m : Mem) (s : Bytes) (i : Nat) (h : i < s.len) :
    (bytesOf m s).getD i 0 = m ⟨s.blk, s.off + i⟩ := by
  rw [getD_eq_getElem' _ (by simpa [bytesOf] using h)]
  simp [bytesOf]

theorem leValue_take (m : Mem) (s : Bytes) (l o : Nat) (h : o + l ≤ s.len) :
    leValue (((bytesOf m s).drop o).take l) = leNat m s.blk (s.off + o) l := by
  induction l generalizing o with
  | zero => simp [leValue, leNat]
  | succ l ih =>
    have hlt : o < (bytesOf m s).length := by rw [bytesOf_length]; omega
    rw [List.drop_eq_getElem_cons hlt, List.take_succ_cons]
    simp only [leValue, leNat]
    rw [ih (o + 1) (by omega)]
    have : (bytesOf m s)[o] = m ⟨s.blk, s.off + o⟩ := by simp [bytesOf]
    rw [this, Nat.add_assoc]

theorem readNums_eq (m : Mem) (st : Bytes) (n k i : Nat) (hi : ctrlLen n + psum (rsz st m) i ≤ st.len) :
    readNums ((List.range' i k).map (rsz st m)) ((bytesOf m st).drop (ctrlLen n + psum (rsz st m) i)) =
      if rB st n + psum (rsz st m) (i + k) ≤ st.off + st.len then
        some ((List.range' i k).map (rd st n m)) else none := by
  have hB : rB st n = st.off + ctrlLen n := rfl
  induction k generalizing i with
  | zero =>
    simp only [List.range'_zero, List.map_nil, readNums, Nat.add_zero]
    rw [if_pos (by omega)]
  | succ k ih =>
    rw [List.range'_succ]
    simp only [List.map_cons, readNums, List.length_drop, bytesOf_length]
    have hs : psum (rsz st m) (i + 1) = psum (rsz st m) i + rsz st m i := rfl
    have hmono : psum (rsz st m) (i + 1) ≤ psum (rsz st m) (i + 1 + k) := psum_mono (by omega)
    split
    · rw [if_neg]
      rw [show i + (k + 1) = i + 1 + k by omega]
      omega
    · rw [List.drop_drop]
      have := ih (i + 1) (by omega)
      rw [hs, ← Nat.add_assoc] at this
      rw [this, show i + (k + 1) = i + 1 + k by omega]
      split
      · simp only [Option.map_some]
        rw [leValue_take _ _ _ _ (by omega)]
        congr 2
        rw [rd, hB, Nat.add_assoc]
      · rfl

theorem lengths_eq (m : Mem) (st : Bytes) (n : Nat) (h : ctrlLen n ≤ st.len) :
    lengths n (bytesOf m st) = (List.range n).map (rsz st m) := by
  unfold lengths
  apply List.map_congr_left
  intro t ht
  rw [List.mem_range] at ht
  have hC : ctrlLen n = (n + 3) / 4 := rfl
  rw [bytesOf_getD _ _ _ (by omega)]; rfl

theorem sum_range_map (f : Nat → Nat) (n : Nat) : ((List.range n).map f).sum = psum f n := by
  induction n with
  | zero => rfl
  | succ n ih => rw [List.range_succ, List.map_append, List.sum_append, ih]; simp [psum_succ]

theorem lengths_sum (m : Mem) (st : Bytes) (n : Nat) (h : ctrlLen n ≤ st.len) :
    (lengths n (bytesOf m st)).sum = psum (rsz st m) n := by
  rw [lengths_eq m st n h, sum_range_map]

/-- What a reader computes from the addresses is what `decode` computes from the bytes. -/
theorem decode_eq (m : Mem) (st : Bytes) (n : Nat) :
    decode n (bytesOf m st) =
      if rB st n + psum (rsz st m) n ≤ st.off + st.len then some ((List.range n).map (rd st n m)) else none := by
  have hB : rB st n = st.off + ctrlLen n := rfl
  unfold decode
  rw [bytesOf_length]
  split
  · rw [if_neg (by omega)]
  · have hl := lengths_eq m st n (by omega)
    have := readNums_eq m st n n 0 (by simp only [psum_zero]; omega)
    simp only [psum_zero, Nat.add_zero, Nat.zero_add] at this
    rw [hl, List.range_eq_range', this]

theorem undelta_range' (d : Nat → U32) (prev : U32) (i k : Nat) :
    undelta (pv (ysum d prev) prev i) ((List.range' i k).map d) = (List.range' i k).map (ysum d prev) := by
  induction k generalizing i with
  | zero => rfl
  | succ k ih =>
    rw [List.range'_succ]
    simp only [List.map_cons, undelta]
    rw [← ysum_pv]
    have := ih (i + 1)
    rw [pv_succ] at this
    rw [this]

theorem undelta_range (d : Nat → U32) (prev : U32) (n : Nat) :
    undelta prev ((List.range n).map d) = (List.range n).map (ysum d prev) := by
  rw [List.range_eq_range']; exact undelta_range' d prev 0 n

theorem decodeDelta_eq (m : Mem) (st : Bytes) (n : Nat) (prev : U32) :
    decodeDelta prev n (bytesOf m st) =
      if rB st n + psum (rsz st m) n ≤ st.off + st.len then
        some ((List.range n).map (ysum (rd st n m) prev)) else none := by
  unfold decodeDelta
  rw [decode_eq]
  split
  · simp only [Option.map_some, undelta_range]
  · rfl

end SVB
