import Verif.Model.Flat

/-! # The vector instructions on byte lanes and on 128-bit numbers -/

set_option autoImplicit false

namespace SVB.Flat
open Asm

/-- The lanes of a vector are the bytes of a number. -/
def Lanes (v : Vec) (x : BitVec 128) : Prop := ∀ i < 16, v i = x.extractLsb' (8 * i) 8

theorem Lanes.bit {v : Vec} {x : BitVec 128} (h : Lanes v x) {i k : Nat} (hi : i < 16) (hk : k < 8) :
    (v i).getLsbD k = x.getLsbD (8 * i + k) := by
  rw [h i hi, BitVec.getLsbD_extractLsb', decide_eq_true hk, Bool.true_and]

theorem lanes_of_bits {v : Vec} {x : BitVec 128} (h : ∀ i < 16, ∀ k < 8, (v i).getLsbD k = x.getLsbD (8 * i + k)) :
    Lanes v x := fun i hi => BitVec.eq_of_getLsbD_eq fun k hk => by
  rw [h i hi k hk, BitVec.getLsbD_extractLsb', decide_eq_true hk, Bool.true_and]

theorem fld_bit {w : Nat} (x : BitVec 128) (i : Nat) {k : Nat} (hk : k < w) : (fld w x i).getLsbD k = x.getLsbD (w * i + k) := by
  rw [fld, BitVec.getLsbD_extractLsb', decide_eq_true hk, Bool.true_and]

theorem pack_bit {w : Nat} (hw : 0 < w) (f : Nat → BitVec w) : ∀ (n j : Nat), j < 128 →
    (pack w n f).getLsbD j = (decide (j < w * n) && (f (j / w)).getLsbD (j % w))
  | 0, j, _ => by simp [pack]
  | n + 1, j, hj => by
    rw [pack, BitVec.getLsbD_or, pack_bit hw f n j hj, BitVec.getLsbD_shiftLeft, BitVec.getLsbD_setWidth]
    have hm : w * (n + 1) = w * n + w := Nat.mul_succ w n
    by_cases h1 : j < w * n
    · simp [h1, hm, show j < w * n + w by omega]
    · by_cases h2 : j < w * n + w
      · have hd : j / w = n := Nat.div_eq_of_lt_le (by rw [Nat.mul_comm]; omega) (by rw [Nat.mul_comm, hm]; exact h2)
        have hr : j % w = j - w * n := by
          have := Nat.div_add_mod j w
          rw [hd] at this; omega
        simp [h1, h2, hj, hd, hr, hm, show j - w * n < 128 by omega]
      · simp [h1, h2, hj, hm]
        intro _
        exact BitVec.getLsbD_of_ge _ _ (by omega)

theorem lane16_eq {v : Vec} {x : BitVec 128} (h : Lanes v x) {i : Nat} (hi : i < 8) : lane16 v i = fld 16 x i :=
  BitVec.eq_of_getLsbD_eq fun k hk => by
    rw [fld_bit x i hk, lane16, BitVec.getLsbD_append]
    by_cases h8 : k < 8
    · rw [if_pos h8, h.bit (by omega) h8]; congr 1; omega
    · rw [if_neg h8, h.bit (by omega) (by omega)]; congr 1; omega

theorem lane32_eq {v : Vec} {x : BitVec 128} (h : Lanes v x) {i : Nat} (hi : i < 4) : lane32 v i = fld 32 x i :=
  BitVec.eq_of_getLsbD_eq fun k hk => by
    rw [fld_bit x i hk, lane32, BitVec.getLsbD_append, BitVec.getLsbD_append, BitVec.getLsbD_append]
    by_cases h8 : k < 8
    · rw [if_pos h8, h.bit (by omega) h8]; congr 1; omega
    · rw [if_neg h8]
      by_cases h16 : k - 8 < 8
      · rw [if_pos h16, h.bit (by omega) h16]; congr 1; omega
      · rw [if_neg h16]
        by_cases h24 : k - 8 - 8 < 8
        · rw [if_pos h24, h.bit (by omega) h24]; congr 1; omega
        · rw [if_neg h24, h.bit (by omega) (by omega)]; congr 1; omega

theorem lanes_pack8 {f g : Nat → Byte} (h : ∀ i < 16, f i = g i) : Lanes f (pack 8 16 g) := lanes_of_bits fun i hi k hk => by
  rw [pack_bit (by omega) g 16 (8 * i + k) (by omega), h i hi, show (8 * i + k) / 8 = i by omega,
    show (8 * i + k) % 8 = k by omega, decide_eq_true (by omega), Bool.true_and]

theorem lanes_pack16 {f g : Nat → U16} (h : ∀ i < 8, f i = g i) : Lanes (of16 f) (pack 16 8 g) :=
  lanes_of_bits fun i hi k hk => by
    rw [pack_bit (by omega) g 8 (8 * i + k) (by omega), show (8 * i + k) / 16 = i / 2 by omega, decide_eq_true (by omega),
      Bool.true_and, of16]
    by_cases h2 : i % 2 = 0
    · rw [if_pos h2, BitVec.getLsbD_extractLsb', decide_eq_true hk, Bool.true_and, h (i / 2) (by omega)]
      congr 1; omega
    · rw [if_neg h2, BitVec.getLsbD_extractLsb', decide_eq_true hk, Bool.true_and, h (i / 2) (by omega)]
      congr 1; omega

theorem lanes_pack32 {f g : Nat → U32} (h : ∀ i < 4, f i = g i) : Lanes (of32 f) (pack 32 4 g) :=
  lanes_of_bits fun i hi k hk => by
    rw [pack_bit (by omega) g 4 (8 * i + k) (by omega), show (8 * i + k) / 32 = i / 4 by omega, decide_eq_true (by omega),
      Bool.true_and, of32, BitVec.getLsbD_extractLsb', decide_eq_true hk, Bool.true_and, h (i / 4) (by omega)]
    congr 1; omega

/-! ## The instructions -/

section
variable {a b : Vec} {x y : BitVec 128} (ha : Lanes a x) (hb : Lanes b y)
include ha hb

theorem vpminub_lanes : Lanes (fun i => minU8 (a i) (b i)) (vpminub x y) := lanes_pack8 fun i hi => by
  rw [ha i hi, hb i hi]; rfl

theorem vpminsw_lanes : Lanes (of16 fun i => minS16 (lane16 a i) (lane16 b i)) (vpminsw x y) := lanes_pack16 fun i hi => by
  rw [lane16_eq ha hi, lane16_eq hb hi, minS16]
  by_cases h : (fld 16 x i).toInt < (fld 16 y i).toInt
  · rw [if_pos h, if_pos (BitVec.slt_iff_toInt_lt.2 h)]
  · rw [if_neg h, if_neg fun h' => h (BitVec.slt_iff_toInt_lt.1 h')]

omit ha hb in
theorem satSB_eq (w : U16) : satU8 w = satSB w := by
  rw [satU8, satSB]
  have h0 : (w.slt 0 = true) ↔ w.toInt < 0 := by rw [BitVec.slt_iff_toInt_lt]; try rfl
  have h1 : ((255 : U16).slt w = true) ↔ w.toInt > 255 := by rw [BitVec.slt_iff_toInt_lt]; try rfl
  by_cases c0 : w.toInt < 0
  · rw [if_pos c0, if_pos (h0.2 c0)]
  · rw [if_neg c0, if_neg (fun h => c0 (h0.1 h))]
    by_cases c1 : w.toInt > 255
    · rw [if_pos c1, if_pos (h1.2 c1)]; try rfl
    · rw [if_neg c1, if_neg (fun h => c1 (h1.1 h))]

theorem vpackuswb_lanes : Lanes (fun i => if i < 8 then satU8 (lane16 a i) else satU8 (lane16 b (i - 8))) (vpackuswb x y) :=
  lanes_pack8 fun i hi => by
    by_cases h : i < 8
    · rw [if_pos h, if_pos h, lane16_eq ha h, satSB_eq]
    · rw [if_neg h, if_neg h, lane16_eq hb (by omega), satSB_eq]

omit ha hb in
theorem satUW_eq (v w : U16) : addUS16 v w = satUW (v.setWidth 17 + w.setWidth 17) := by
  have hv := v.isLt
  have hw := w.isLt
  have e : (v.setWidth 17 + w.setWidth 17).toNat = v.toNat + w.toNat := by
    rw [BitVec.toNat_add, BitVec.toNat_setWidth, BitVec.toNat_setWidth]; omega
  have hlt : ((0xffff : BitVec 17) < v.setWidth 17 + w.setWidth 17) ↔ v.toNat + w.toNat > 65535 := by
    rw [BitVec.lt_def, e]; try rfl
  rw [addUS16, satUW]
  by_cases c : v.toNat + w.toNat > 65535
  · rw [if_pos c, if_pos (hlt.2 c)]; try rfl
  · rw [if_neg c, if_neg (fun h => c (hlt.1 h))]
    apply BitVec.eq_of_toNat_eq
    rw [BitVec.toNat_setWidth, e, BitVec.toNat_add]

theorem vpaddusw_lanes : Lanes (of16 fun i => addUS16 (lane16 a i) (lane16 b i)) (vpaddusw x y) := lanes_pack16 fun i hi => by
  rw [lane16_eq ha hi, lane16_eq hb hi, satUW_eq]

theorem vpaddd_lanes : Lanes (of32 fun i => lane32 a i + lane32 b i) (vpaddd x y) := lanes_pack32 fun i hi => by
  rw [lane32_eq ha hi, lane32_eq hb hi]

theorem vpsubd_lanes : Lanes (of32 fun i => lane32 a i - lane32 b i) (vpsubd x y) := lanes_pack32 fun i hi => by
  rw [lane32_eq ha hi, lane32_eq hb hi]

theorem vpshufb_lanes : Lanes (pshufb b a) (vpshufb x y) := lanes_pack8 fun i hi => by
  have hm : (b i).msb = y.getLsbD (8 * i + 7) := by
    rw [BitVec.msb_eq_getLsbD_last, hb.bit hi (by omega)]
  have hx : (y.extractLsb' (8 * i) 4).toNat = (b i).toNat % 16 := by
    have : y.extractLsb' (8 * i) 4 = (b i).setWidth 4 := BitVec.eq_of_getLsbD_eq fun k hk => by
      rw [BitVec.getLsbD_extractLsb', BitVec.getLsbD_setWidth, decide_eq_true hk, Bool.true_and, Bool.true_and,
        hb.bit hi (by omega)]
    rw [this, BitVec.toNat_setWidth]
  rw [pshufb, hm, hx]
  by_cases h : y.getLsbD (8 * i + 7) = true
  · rw [if_pos h, if_pos h]
  · rw [if_neg h, if_neg h, ha _ (Nat.mod_lt _ (by decide)), Nat.mul_comm]

theorem vpalignr_lanes {n : Nat} (hn : n < 256) : Lanes (palignr n a b) (vpalignr (BitVec.ofNat 8 n) x y) :=
  lanes_of_bits fun i hi k hk => by
    have e : (BitVec.ofNat 8 n).toNat = n := by rw [BitVec.toNat_ofNat]; omega
    rw [vpalignr, e, BitVec.getLsbD_setWidth, BitVec.getLsbD_ushiftRight, BitVec.getLsbD_or, BitVec.getLsbD_shiftLeft,
      BitVec.getLsbD_setWidth, BitVec.getLsbD_setWidth, palignr, decide_eq_true (show 8 * i + k < 128 by omega), Bool.true_and]
    by_cases h1 : i + n < 16
    · rw [if_pos h1, hb.bit h1 hk, decide_eq_true (show n * 8 + (8 * i + k) < 256 by omega),
        decide_eq_true (show n * 8 + (8 * i + k) < 128 by omega), show n * 8 + (8 * i + k) = 8 * (i + n) + k by omega]
      simp only [Bool.not_true, Bool.and_false, Bool.false_and, Bool.false_or, Bool.true_and]
    · rw [if_neg h1]
      have h0 : y.getLsbD (n * 8 + (8 * i + k)) = false := BitVec.getLsbD_of_ge _ _ (by omega)
      by_cases h2 : i + n < 32
      · rw [if_pos h2, ha.bit (by omega) hk, h0, decide_eq_true (show n * 8 + (8 * i + k) < 256 by omega),
          decide_eq_false (show ¬ n * 8 + (8 * i + k) < 128 by omega),
          decide_eq_true (show n * 8 + (8 * i + k) - 128 < 256 by omega),
          show n * 8 + (8 * i + k) - 128 = 8 * (i + n - 16) + k by omega]
        simp only [Bool.not_false, Bool.and_false, Bool.or_false, Bool.true_and]
      · rw [if_neg h2, h0, decide_eq_false (show ¬ n * 8 + (8 * i + k) < 256 by omega)]
        simp only [Bool.false_and, Bool.or_false, BitVec.ofNat_eq_ofNat, BitVec.getLsbD_zero]
end

section
variable {a : Vec} {x : BitVec 128} (ha : Lanes a x)
include ha

theorem vpslldq_lanes {n : Nat} (hn : n < 256) : Lanes (pslldq n a) (vpslldq (BitVec.ofNat 8 n) x) :=
  lanes_of_bits fun i hi k hk => by
    have e : (BitVec.ofNat 8 n).toNat = n := by rw [BitVec.toNat_ofNat]; omega
    rw [vpslldq, e, BitVec.getLsbD_shiftLeft, decide_eq_true (show 8 * i + k < 128 by omega), Bool.true_and, pslldq]
    by_cases h1 : i < n
    · rw [if_pos h1, decide_eq_true (show 8 * i + k < _ by split <;> omega)]
      simp
    · rw [if_neg h1, if_neg (by omega), decide_eq_false (by omega), ha.bit (by omega) hk]
      simp only [Bool.not_false, Bool.true_and]
      congr 1; omega

omit ha in
theorem order_eq (n i : Nat) (hi : i < 4) : ((BitVec.ofNat 8 n).extractLsb' (2 * i) 2).toNat = n / 4 ^ i % 4 := by
  rw [BitVec.extractLsb'_toNat, BitVec.toNat_ofNat, Nat.shiftRight_eq_div_pow]
  have : i = 0 ∨ i = 1 ∨ i = 2 ∨ i = 3 := by omega
  rcases this with rfl | rfl | rfl | rfl <;> simp only [Nat.reduceMul, Nat.reducePow] <;> omega

theorem vpshufd_lanes (n : Nat) : Lanes (pshufd n a) (vpshufd (BitVec.ofNat 8 n) x) := lanes_pack32 fun i hi => by
  rw [lane32_eq ha (Nat.mod_lt _ (by decide)), order_eq n i hi]
  apply BitVec.eq_of_getLsbD_eq
  intro k hk
  rw [fld_bit x _ hk, BitVec.getLsbD_setWidth, BitVec.getLsbD_ushiftRight, decide_eq_true hk, Bool.true_and, Nat.mul_comm]

omit ha in
theorem movmsk_bits (v : Vec) : ∀ n, ((List.range n).foldl (fun acc i => acc + (if (v i).msb then 2 ^ i else 0)) 0 < 2 ^ n) ∧
    ∀ j, ((List.range n).foldl (fun acc i => acc + (if (v i).msb then 2 ^ i else 0)) 0).testBit j = (decide (j < n) && (v j).msb)
  | 0 => ⟨by simp, fun j => by simp⟩
  | n + 1 => by
    obtain ⟨h1, h2⟩ := movmsk_bits v n
    rw [List.range_succ, List.foldl_append]
    generalize (List.range n).foldl (fun acc i => acc + (if (v i).msb then 2 ^ i else 0)) 0 = S at h1 h2 ⊢
    have e : [n].foldl (fun acc i => acc + (if (v i).msb then 2 ^ i else 0)) S = 2 ^ n * (v n).msb.toNat + S := by
      simp only [List.foldl_cons, List.foldl_nil]
      cases (v n).msb <;> simp <;> omega
    rw [e]
    have hb : (v n).msb.toNat ≤ 1 := by cases (v n).msb <;> decide
    have hp : 2 ^ n * (v n).msb.toNat ≤ 2 ^ n * 1 := Nat.mul_le_mul_left _ hb
    refine ⟨by rw [Nat.pow_succ]; omega, fun j => ?_⟩
    rw [Nat.testBit_two_pow_mul_add _ h1]
    by_cases hj : j < n
    · rw [if_pos hj, h2, decide_eq_true hj, decide_eq_true (by omega)]
    · rw [if_neg hj]
      by_cases hjn : j = n
      · subst hjn
        rw [Nat.sub_self, decide_eq_true (by omega), Bool.true_and]
        cases (v j).msb <;> rfl
      · rw [decide_eq_false (by omega), Bool.false_and]
        obtain ⟨d, hd⟩ : ∃ d, j - n = d + 1 := ⟨j - n - 1, by omega⟩
        rw [hd, Nat.testBit_succ]
        cases (v n).msb <;> simp

theorem vpmovmskb_lanes : BitVec.ofNat 64 (movmsk a) = vpmovmskb x := BitVec.eq_of_getLsbD_eq fun j hj => by
  rw [BitVec.getLsbD_ofNat, movmsk, (movmsk_bits a 16).2, vpmovmskb, BitVec.getLsbD_setWidth, decide_eq_true hj, Bool.true_and,
    Bool.true_and, pack_bit (by omega) _ 16 j (by omega), Nat.one_mul, Nat.div_one, Nat.mod_one]
  by_cases h : j < 16
  · rw [decide_eq_true h, Bool.true_and, Bool.true_and, BitVec.msb_eq_getLsbD_last, ha.bit h (by omega)]
    cases x.getLsbD (8 * j + 7) <;> rfl
  · rw [decide_eq_false h, Bool.false_and, Bool.false_and]
end

theorem vpbroadcastw_lanes (w : U16) : Lanes (of16 fun _ => w) (vpbroadcastw w) := lanes_pack16 fun _ _ => rfl
theorem vbroadcastss_lanes (d : U32) : Lanes (of32 fun _ => d) (vbroadcastss d) := lanes_pack32 fun _ _ => rfl

end SVB.Flat
