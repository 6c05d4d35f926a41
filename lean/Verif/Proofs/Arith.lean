import Verif.Model.Writer
import Verif.Spec

/-! # The 64-bit header arithmetic of the stream functions -/

namespace SVB
open Spec

theorem int64_eq {x : Int} (h1 : -2 ^ 63 ≤ x) (h2 : x < 2 ^ 63) : int64 x = x := by
  unfold int64
  rw [BitVec.toInt_ofInt]
  exact Int.bmod_eq_of_le (by simpa using h1) (by simp only [Nat.reducePow]; omega)

theorem andNot_bits (a : U64) (k : Nat) :
    a &&& ~~~ BitVec.ofNat 64 (2 ^ k - 1) = (a >>> k) <<< k := by
  apply BitVec.eq_of_getLsbD_eq
  intro i hi
  have : (BitVec.ofNat 64 (2 ^ k - 1)).getLsbD i = decide (i < k) := by
    rw [BitVec.getLsbD_ofNat, Nat.testBit_two_pow_sub_one]
    simp [hi]
  simp only [BitVec.getLsbD_and, BitVec.getLsbD_not, this, BitVec.getLsbD_shiftLeft,
    BitVec.getLsbD_ushiftRight, hi]
  by_cases h : i < k
  · simp [h]
  · simp [h, show k + (i - k) = i by omega]

theorem andNot_toInt (x : Int) (k : Nat) :
    (BitVec.ofInt 64 x &&& ~~~ BitVec.ofNat 64 (2 ^ k - 1)).toNat =
      (BitVec.ofInt 64 x).toNat / 2 ^ k * 2 ^ k := by
  rw [andNot_bits _ k, BitVec.toNat_shiftLeft, BitVec.toNat_ushiftRight, Nat.shiftRight_eq_div_pow,
    Nat.shiftLeft_eq, Nat.mod_eq_of_lt]
  have := (BitVec.ofInt 64 x).isLt
  exact Nat.lt_of_le_of_lt (Nat.div_mul_le_self _ _) this

theorem ofInt_toNat {x : Int} (h1 : -2 ^ 63 ≤ x) (h2 : x < 2 ^ 63) :
    ((BitVec.ofInt 64 x).toNat : Int) = if 0 ≤ x then x else x + 2 ^ 64 := by
  rw [BitVec.toNat_ofInt]
  simp only [Nat.reducePow] at *
  split <;> omega

theorem andNot3 {x : Int} (h1 : -2 ^ 63 ≤ x) (h2 : x < 2 ^ 63) : andNot x 3 = x - x % 4 := by
  have h := andNot_toInt x 2
  have ho := ofInt_toNat h1 h2
  unfold andNot
  rw [show BitVec.ofInt 64 3 = BitVec.ofNat 64 (2 ^ 2 - 1) from rfl, BitVec.toInt_eq_toNat_cond, h]
  simp only [Nat.reducePow] at *
  split at ho <;> split <;> omega

theorem andNot15 {x : Int} (h1 : -2 ^ 63 ≤ x) (h2 : x < 2 ^ 63) : andNot x 15 = x - x % 16 := by
  have h := andNot_toInt x 4
  have ho := ofInt_toNat h1 h2
  unfold andNot
  rw [show BitVec.ofInt 64 15 = BitVec.ofNat 64 (2 ^ 4 - 1) from rfl, BitVec.toInt_eq_toNat_cond, h]
  simp only [Nat.reducePow] at *
  split at ho <;> split <;> omega

theorem andNot31 {x : Int} (h1 : -2 ^ 63 ≤ x) (h2 : x < 2 ^ 63) : andNot x 31 = x - x % 32 := by
  have h := andNot_toInt x 5
  have ho := ofInt_toNat h1 h2
  unfold andNot
  rw [show BitVec.ofInt 64 31 = BitVec.ofNat 64 (2 ^ 5 - 1) from rfl, BitVec.toInt_eq_toNat_cond, h]
  simp only [Nat.reducePow] at *
  split at ho <;> split <;> omega

theorem header_ctrlLen {n : Nat} (h : n < 2 ^ 61) :
    goDiv (int64 ((n : Int) + 3)) 4 = (ctrlLen n : Int) := by
  rw [int64_eq (by omega) (by omega)]
  unfold goDiv ctrlLen
  rw [show ((n : Int) + 3) = ((n + 3 : Nat) : Int) by omega]
  exact (Int.ofNat_tdiv _ _).symm

theorem header_total {n : Nat} (h : n < 2 ^ 60) :
    int64 ((ctrlLen n : Int) + int64 (maxBytesPerNum * (n : Int))) = ((ctrlLen n + 4 * n : Nat) : Int) := by
  unfold maxBytesPerNum ctrlLen
  rw [int64_eq (x := 4 * (n : Int)) (by omega) (by omega), int64_eq (by omega) (by omega)]
  omega

theorem jump_val : jump = 16 := rfl
theorem jumpCtrl_val : jumpCtrl = 4 := by decide

theorem header_jump {n : Nat} (h : n < 2 ^ 61) : andNot (n : Int) (jump - 1) = ((n / 16 * 16 : Nat) : Int) := by
  rw [jump_val, show (16 - 1 : Int) = 15 by decide, andNot15 (by omega) (by omega)]
  omega

theorem header_lowest4 {n : Nat} (h : n < 2 ^ 61) : andNot (n : Int) 3 = ((n / 4 * 4 : Nat) : Int) := by
  rw [andNot3 (by omega) (by omega)]
  omega

theorem header_lowest32 {n : Nat} (h : n < 2 ^ 61) :
    lowest32Of (n : Int) = ((n : Int) - 3) * 4 - ((n : Int) - 3) * 4 % 32 := by
  unfold lowest32Of
  rw [int64_eq (x := (n : Int) - 3) (by omega) (by omega), int64_eq (by omega) (by omega),
    andNot31 (by omega) (by omega)]

end SVB
