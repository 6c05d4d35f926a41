import Verif.Spec
import Verif.Model.Encode
import Verif.Proofs.Wp

/-! # Arithmetic facts: lengths, control codes, little-endian values, prefix sums, tables -/

namespace SVB
open Spec

/-! ## Prefix sums -/

/-- `f 0 + … + f (i-1)` -/
def psum (f : Nat → Nat) : Nat → Nat
  | 0 => 0
  | i + 1 => psum f i + f i

@[simp] theorem psum_zero (f : Nat → Nat) : psum f 0 = 0 := rfl
theorem psum_succ (f : Nat → Nat) (i : Nat) : psum f (i + 1) = psum f i + f i := rfl

theorem psum_mono {f : Nat → Nat} {i j : Nat} (h : i ≤ j) : psum f i ≤ psum f j := by
  induction h with
  | refl => exact Nat.le_refl _
  | step _ ih => exact Nat.le_trans ih (by rw [psum_succ]; omega)

theorem psum_congr {f g : Nat → Nat} {n : Nat} (h : ∀ i < n, f i = g i) : psum f n = psum g n := by
  induction n with
  | zero => rfl
  | succ n ih => rw [psum_succ, psum_succ, ih (fun i hi => h i (by omega)), h n (by omega)]

/-- With all terms between 1 and 4. -/
theorem psum_bounds {f : Nat → Nat} (hf : ∀ i, 1 ≤ f i ∧ f i ≤ 4) {i j : Nat} (h : i ≤ j) :
    psum f i + (j - i) ≤ psum f j ∧ psum f j ≤ psum f i + 4 * (j - i) := by
  induction h with
  | refl => omega
  | @step j hj ih => rw [psum_succ]; have := hf j; have : i ≤ j := hj; omega

theorem psum_one (f : Nat → Nat) (i : Nat) : psum f (i + 1) = psum f i + f i := rfl
theorem psum_two (f : Nat → Nat) (i : Nat) : psum f (i + 2) = psum f i + f i + f (i + 1) := rfl
theorem psum_three (f : Nat → Nat) (i : Nat) :
    psum f (i + 3) = psum f i + f i + f (i + 1) + f (i + 2) := rfl
theorem psum_four (f : Nat → Nat) (i : Nat) :
    psum f (i + 4) = psum f i + f i + f (i + 1) + f (i + 2) + f (i + 3) := rfl

/-! ## Little-endian numbers in memory -/

/-- Value of the `l` bytes at `⟨b, o⟩`. -/
def leNat (m : Mem) (b : Block) (o : Nat) : Nat → Nat
  | 0 => 0
  | l + 1 => (m ⟨b, o⟩).toNat + 256 * leNat m b (o + 1) l

theorem leNat_congr {m m' : Mem} {b : Block} {o l : Nat}
    (h : ∀ k < l, m' ⟨b, o + k⟩ = m ⟨b, o + k⟩) : leNat m' b o l = leNat m b o l := by
  induction l generalizing o with
  | zero => rfl
  | succ l ih =>
    simp only [leNat]
    have h0 := h 0 (by omega)
    simp only [Nat.add_zero] at h0
    rw [h0, ih]
    intro k hk
    have := h (k + 1) (by omega)
    rwa [show o + (k + 1) = o + 1 + k by omega] at this

theorem leNat_lt (m : Mem) (b : Block) (o l : Nat) : leNat m b o l < 256 ^ l := by
  induction l generalizing o with
  | zero => simp [leNat]
  | succ l ih =>
    have := ih (o + 1)
    have h1 := (m ⟨b, o⟩).isLt
    simp only [leNat, Nat.pow_succ]
    omega

theorem leNat_lt32 (m : Mem) (b : Block) (o l : Nat) (h : l ≤ 4) : leNat m b o l < 2 ^ 32 :=
  Nat.lt_of_lt_of_le (leNat_lt m b o l) (by
    calc 256 ^ l ≤ 256 ^ 4 := Nat.pow_le_pow_right (by omega) h
      _ = 2 ^ 32 := by decide)

/-! ## Lengths and codes -/

theorem byteLen_bounds (v : U32) : 1 ≤ byteLen v ∧ byteLen v ≤ 4 := by
  unfold byteLen; split <;> (try split) <;> (try split) <;> omega

theorem lt_pow_byteLen (v : U32) : v.toNat < 256 ^ byteLen v := by
  have := v.isLt
  unfold byteLen; split <;> (try split) <;> (try split) <;> omega

theorem byteLen_zero : byteLen 0 = 1 := by decide

theorem code_lt (c : Byte) (k : Nat) : code c k < 4 := Nat.mod_lt _ (by omega)

/-- The expression in `encodeOne` computes the byte length. -/
theorem encodeSize_eq (num : U32) :
    goMax 1 (4 - goDiv (leadingZeros32 num) 8) = (byteLen num : Int) := by
  have h : leadingZeros32 num = 32 - len32 num := rfl
  have hl : len32 num ≤ 32 := by
    unfold len32; split
    · omega
    · have := (Nat.log2_lt (n := num.toNat) (k := 32) (by assumption)).2 num.isLt
      omega
  have hdiv : goDiv (leadingZeros32 num) 8 = ((32 - len32 num) / 8 : Nat) := by
    rw [h]; unfold goDiv
    exact (Int.ofNat_tdiv _ _).symm
  rw [hdiv]
  have key : ∀ k, 0 < k → (len32 num ≤ k ↔ num.toNat < 2 ^ k) := by
    intro k hk
    unfold len32; split
    · rename_i h0; rw [h0]; simp [Nat.two_pow_pos]
    · rename_i h0
      have := Nat.log2_lt (n := num.toNat) (k := k) h0
      omega
  have k8 := key 8 (by omega)
  have k16 := key 16 (by omega)
  have k24 := key 24 (by omega)
  unfold goMax byteLen
  simp only [Nat.reducePow] at k8 k16 k24
  split <;> split <;> (try split) <;> (try split) <;> omega

theorem byteOf_toNat (num : U32) (n : Nat) : (byteOf num n).toNat = num.toNat / 2 ^ n % 256 := by
  simp [byteOf, BitVec.toNat_ushiftRight, Nat.shiftRight_eq_div_pow]

theorem packCtrl_all : ∀ a < 4, ∀ b < 4, ∀ c < 4, ∀ d < 4,
    code (packCtrl ((a + 1 : Nat) : Int) ((b + 1 : Nat) : Int) ((c + 1 : Nat) : Int)
      ((d + 1 : Nat) : Int)) 0 = a ∧
    code (packCtrl ((a + 1 : Nat) : Int) ((b + 1 : Nat) : Int) ((c + 1 : Nat) : Int)
      ((d + 1 : Nat) : Int)) 1 = b ∧
    code (packCtrl ((a + 1 : Nat) : Int) ((b + 1 : Nat) : Int) ((c + 1 : Nat) : Int)
      ((d + 1 : Nat) : Int)) 2 = c ∧
    code (packCtrl ((a + 1 : Nat) : Int) ((b + 1 : Nat) : Int) ((c + 1 : Nat) : Int)
      ((d + 1 : Nat) : Int)) 3 = d := by decide +kernel

theorem packCtrl_code {a b c d : Nat} (ha : 1 ≤ a ∧ a ≤ 4) (hb : 1 ≤ b ∧ b ≤ 4) (hc : 1 ≤ c ∧ c ≤ 4)
    (hd : 1 ≤ d ∧ d ≤ 4) :
    code (packCtrl a b c d) 0 + 1 = a ∧ code (packCtrl a b c d) 1 + 1 = b ∧
    code (packCtrl a b c d) 2 + 1 = c ∧ code (packCtrl a b c d) 3 + 1 = d := by
  have := packCtrl_all (a - 1) (by omega) (b - 1) (by omega) (c - 1) (by omega) (d - 1) (by omega)
  rw [show a - 1 + 1 = a by omega, show b - 1 + 1 = b by omega, show c - 1 + 1 = c by omega,
    show d - 1 + 1 = d by omega] at this
  omega

/-- A byte is determined by its four codes. -/
theorem byte_eq_of_codes {c d : Byte} (h : ∀ k < 4, code c k = code d k) : c = d := by
  apply BitVec.eq_of_toNat_eq
  have h0 := h 0 (by omega); have h1 := h 1 (by omega)
  have h2 := h 2 (by omega); have h3 := h 3 (by omega)
  have := c.isLt; have := d.isLt
  simp only [code] at *
  omega

/-! ## Tables -/

theorem ctrlLen_table : ∀ c < 256, perControlLenTable.getD c 0 =
    (c / 1 % 4 + 1) + (c / 4 % 4 + 1) + (c / 16 % 4 + 1) + (c / 64 % 4 + 1) := by decide +kernel

theorem numLen_table : ∀ c < 256, ∀ k < 4,
    (perNumLenTable.getD c []).getD k 0 = c / 4 ^ k % 4 + 1 := by decide +kernel

/-- Start of number `n` inside a group with control value `c`. -/
def gOff (c n : Nat) : Nat := psum (fun k => c / 4 ^ k % 4 + 1) n

theorem encShuf_table : ∀ c < 256, ∀ n < 4, ∀ r < c / 4 ^ n % 4 + 1,
    (encodeShuffleTable.getD c []).getD (gOff c n + r) 0 = 4 * n + r := by decide +kernel

theorem encShuf_table_tail : ∀ c < 256, ∀ k < 16, c % 4 + c / 4 % 4 + c / 16 % 4 + c / 64 % 4 + 4 ≤ k →
    (encodeShuffleTable.getD c []).getD k 0 = 255 := by decide +kernel

theorem decShuf_table : ∀ c < 256, ∀ n < 4, ∀ k < 4,
    (decodeShuffleTable.getD c []).getD (4 * n + k) 0 =
      if k < c / 4 ^ n % 4 + 1 then gOff c n + k else 255 := by decide +kernel

/-- Total data size of a full group. -/
def gSize (c : Byte) : Nat := (code c 0 + 1) + (code c 1 + 1) + (code c 2 + 1) + (code c 3 + 1)

theorem gSize_bounds (c : Byte) : 4 ≤ gSize c ∧ gSize c ≤ 16 := by
  have h0 := code_lt c 0; have h1 := code_lt c 1; have h2 := code_lt c 2; have h3 := code_lt c 3
  unfold gSize; omega

theorem TablesLoaded.ctrlLen' {m : Mem} (h : TablesLoaded m) (c : Byte) :
    (m ⟨.ctrlLen, c.toNat⟩).toNat = gSize c := by
  have hc := c.isLt
  rw [h.ctrlLen _ hc, ctrlLen_table _ hc, BitVec.toNat_ofNat, Nat.mod_eq_of_lt (by omega)]
  simp [gSize, code]

theorem TablesLoaded.numLen' {m : Mem} (h : TablesLoaded m) (c : Byte) (k : Nat) (hk : k < 4) :
    (m ⟨.numLen, 4 * c.toNat + k⟩).toNat = code c k + 1 := by
  have hc := c.isLt
  have := code_lt c k
  rw [h.numLen _ hc _ hk, numLen_table _ hc _ hk, BitVec.toNat_ofNat, Nat.mod_eq_of_lt]
  · rfl
  · unfold code at this; omega

/-- Constants survive any change outside the constant blocks. -/
theorem TablesLoaded.frame {m m' : Mem} (h : TablesLoaded m)
    (hf : ∀ q, q.blk.isConst = true → m' q = m q) : TablesLoaded m' := by
  constructor
  · intro c hc j hj; rw [hf _ rfl]; exact h.encShuf c hc j hj
  · intro c hc j hj; rw [hf _ rfl]; exact h.decShuf c hc j hj
  · intro c hc j hj; rw [hf _ rfl]; exact h.numLen c hc j hj
  · intro c hc; rw [hf _ rfl]; exact h.ctrlLen c hc
  · rw [hf _ rfl, hf _ rfl]; exact h.mask0101
  · rw [hf _ rfl, hf _ rfl]; exact h.mask7F00

end SVB
