import Verif.Proofs.AsmDec

/-! # Specifications of the assembly encoders: symbolic execution of the instruction lists -/

set_option linter.unusedSimpArgs false
set_option maxRecDepth 4000

namespace SVB
open Spec Asm

/-! ## Control bits -/

/-- The 16-bit lane computed by lines 17-23 of `encode_amd64.s` from the four bytes of a number. -/
def ctrlLane (b0 b1 b2 b3 : Byte) : U16 :=
  addUS16 (minS16 (satU8 (minU8 b3 1 ++ minU8 b2 1) ++ satU8 (minU8 b1 1 ++ minU8 b0 1)) 0x0101#16) 0x7f00#16

theorem minU8_one (b : Byte) : minU8 b 1 = if b = 0 then 0 else 1 := by
  unfold minU8
  have : (1 : Byte).toNat = 1 := rfl
  by_cases h : b = 0
  · subst h; rfl
  · have : b.toNat ≠ 0 := fun h' => h (BitVec.eq_of_toNat_eq h')
    rw [if_neg (by omega), if_neg h]

/-- The two bits that `VPMOVMSKB` extracts from a lane. -/
theorem ctrlLane_code (b0 b1 b2 b3 : Byte) :
    ((ctrlLane b0 b1 b2 b3).extractLsb' 0 8).msb = decide (b3 ≠ 0 ∨ b2 = 0 ∧ b1 ≠ 0) ∧
    ((ctrlLane b0 b1 b2 b3).extractLsb' 8 8).msb = decide (b3 ≠ 0 ∨ b2 ≠ 0) := by
  unfold ctrlLane
  simp only [minU8_one]
  by_cases h0 : b0 = 0 <;> by_cases h1 : b1 = 0 <;> by_cases h2 : b2 = 0 <;> by_cases h3 : b3 = 0 <;>
    simp only [h0, h1, h2, h3, if_true, if_false, ne_eq, not_true_eq_false, not_false_eq_true, decide_true,
      decide_false, or_true, or_false, and_true, and_false, true_and, true_or, false_and] <;> decide

theorem byteLen_bytes (b0 b1 b2 b3 : Byte) :
    byteLen (b3 ++ b2 ++ b1 ++ b0) =
      (if b3 ≠ 0 ∨ b2 = 0 ∧ b1 ≠ 0 then 1 else 0) + 2 * (if b3 ≠ 0 ∨ b2 ≠ 0 then 1 else 0) + 1 := by
  have z : ∀ b : Byte, b = 0 ↔ b.toNat = 0 :=
    fun b => ⟨fun h => by rw [h]; rfl, fun h => BitVec.eq_of_toNat_eq h⟩
  unfold byteLen
  rw [append4_toNat]
  simp only [z, ne_eq]
  have := b0.isLt; have := b1.isLt; have := b2.isLt; have := b3.isLt
  split
  · rw [if_neg (by omega), if_neg (by omega)]
  split
  · rw [if_pos (by omega), if_neg (by omega)]
  split
  · rw [if_neg (by omega), if_pos (by omega)]
  · rw [if_pos (by omega), if_pos (by omega)]

theorem movmsk_code (v : Vec) (n : Nat) (hn : n < 8) :
    code16 (BitVec.setWidth 16 (BitVec.ofNat 64 (movmsk v))) n =
      (if (v (2 * n)).msb then 1 else 0) + 2 * (if (v (2 * n + 1)).msb then 1 else 0) := by
  have h : movmsk v = (if (v 0).msb then 1 else 0) + 2 * (if (v 1).msb then 1 else 0) +
      4 * (if (v 2).msb then 1 else 0) + 8 * (if (v 3).msb then 1 else 0) +
      16 * (if (v 4).msb then 1 else 0) + 32 * (if (v 5).msb then 1 else 0) +
      64 * (if (v 6).msb then 1 else 0) + 128 * (if (v 7).msb then 1 else 0) +
      256 * (if (v 8).msb then 1 else 0) + 512 * (if (v 9).msb then 1 else 0) +
      1024 * (if (v 10).msb then 1 else 0) + 2048 * (if (v 11).msb then 1 else 0) +
      4096 * (if (v 12).msb then 1 else 0) + 8192 * (if (v 13).msb then 1 else 0) +
      16384 * (if (v 14).msb then 1 else 0) + 32768 * (if (v 15).msb then 1 else 0) := by
    have e : ∀ (p : Bool) (k : Nat), (if p = true then 2 ^ k else 0) = 2 ^ k * (if p = true then 1 else 0) := by
      intro p k; cases p <;> simp
    unfold movmsk
    rw [show List.range 16 = [0, 1, 2, 3, 4, 5, 6, 7, 8, 9, 10, 11, 12, 13, 14, 15] from rfl]
    simp only [List.foldl, e]
    simp only [Nat.reducePow, Nat.one_mul, Nat.zero_add]
  have b : ∀ j, (if (v j).msb then 1 else 0 : Nat) < 2 := by intro j; split <;> omega
  have b0 := b 0; have b1 := b 1; have b2 := b 2; have b3 := b 3; have b4 := b 4; have b5 := b 5
  have b6 := b 6; have b7 := b 7; have b8 := b 8; have b9 := b 9; have b10 := b 10; have b11 := b 11
  have b12 := b 12; have b13 := b 13; have b14 := b 14; have b15 := b 15
  have hN : (BitVec.setWidth 16 (BitVec.ofNat 64 (movmsk v))).toNat = movmsk v := by
    rw [BitVec.toNat_setWidth, BitVec.toNat_ofNat]
    omega
  unfold code16
  rw [hN, h]
  clear hN h b
  obtain rfl | rfl | rfl | rfl | rfl | rfl | rfl | rfl : n = 0 ∨ n = 1 ∨ n = 2 ∨ n = 3 ∨ n = 4 ∨
    n = 5 ∨ n = 6 ∨ n = 7 := by omega
  all_goals simp only [Nat.reducePow, Nat.reduceMul, Nat.reduceAdd, Nat.mul_zero, Nat.mul_one, Nat.zero_add]
  all_goals generalize (if (v 0).msb then 1 else 0 : Nat) = t0 at *
  all_goals generalize (if (v 1).msb then 1 else 0 : Nat) = t1 at *
  all_goals generalize (if (v 2).msb then 1 else 0 : Nat) = t2 at *
  all_goals generalize (if (v 3).msb then 1 else 0 : Nat) = t3 at *
  all_goals generalize (if (v 4).msb then 1 else 0 : Nat) = t4 at *
  all_goals generalize (if (v 5).msb then 1 else 0 : Nat) = t5 at *
  all_goals generalize (if (v 6).msb then 1 else 0 : Nat) = t6 at *
  all_goals generalize (if (v 7).msb then 1 else 0 : Nat) = t7 at *
  all_goals generalize (if (v 8).msb then 1 else 0 : Nat) = t8 at *
  all_goals generalize (if (v 9).msb then 1 else 0 : Nat) = t9 at *
  all_goals generalize (if (v 10).msb then 1 else 0 : Nat) = t10 at *
  all_goals generalize (if (v 11).msb then 1 else 0 : Nat) = t11 at *
  all_goals generalize (if (v 12).msb then 1 else 0 : Nat) = t12 at *
  all_goals generalize (if (v 13).msb then 1 else 0 : Nat) = t13 at *
  all_goals generalize (if (v 14).msb then 1 else 0 : Nat) = t14 at *
  all_goals generalize (if (v 15).msb then 1 else 0 : Nat) = t15 at *
  all_goals omega

/-- Lines 17-24 of `encode_amd64.s` as one expression. -/
def ctrlExpr (x0 x1 : Vec) (a_2 a_3 a_4 a_5 : Byte) : Nat :=
  movmsk (of16 fun i =>
    addUS16
      (lane16 (of16 fun i =>
        minS16
          (lane16 (fun i =>
            if i < 8 then satU8 (lane16 (fun i => minU8 (x0 i) (of16 (fun _ => a_3 ++ a_2) i)) i)
            else satU8 (lane16 (fun i => minU8 (x1 i) (of16 (fun _ => a_3 ++ a_2) i)) (i - 8))) i)
          (lane16 (of16 fun _ => a_3 ++ a_2) i)) i)
      (lane16 (of16 fun _ => a_5 ++ a_4) i))

theorem lane16_of16 (f : Nat → U16) (i : Nat) : lane16 (of16 f) i = f i := by
  unfold lane16 of16
  rw [if_neg (by omega), if_pos (by omega), show (2 * i + 1) / 2 = i by omega, show 2 * i / 2 = i by omega]
  apply BitVec.eq_of_toNat_eq
  rw [append_toNat]
  have := (f i).isLt
  simp only [BitVec.extractLsb'_toNat, Nat.shiftRight_eq_div_pow, Nat.reducePow]
  omega

theorem ctrlExpr_code (x0 x1 : Vec) (n : Nat) (hn : n < 8) :
    code16 (BitVec.setWidth 16 (BitVec.ofNat 64 (ctrlExpr x0 x1 1 1 0 0x7f))) n + 1 =
      byteLen (if n < 4 then lane32 x0 n else lane32 x1 (n - 4)) := by
  unfold ctrlExpr
  rw [movmsk_code _ n hn]
  simp only [lane16_of16]
  have one : ∀ i, of16 (fun _ => (1 : Byte) ++ (1 : Byte)) i = 1 := by
    intro i; unfold of16; simp only; split <;> decide
  simp only [one]
  have ev : ∀ f : Nat → U16, of16 f (2 * n) = (f n).extractLsb' 0 8 := by
    intro f; unfold of16; rw [if_pos (by omega), show 2 * n / 2 = n by omega]
  have od : ∀ f : Nat → U16, of16 f (2 * n + 1) = (f n).extractLsb' 8 8 := by
    intro f; unfold of16; rw [if_neg (by omega), show (2 * n + 1) / 2 = n by omega]
  rw [ev, od]
  have key : ∀ (x : Vec) (k : Nat),
      satU8 (lane16 (fun i => minU8 (x i) 1) (2 * k + 1)) ++ satU8 (lane16 (fun i => minU8 (x i) 1) (2 * k)) =
      satU8 (minU8 (x (4 * k + 3)) 1 ++ minU8 (x (4 * k + 2)) 1) ++
        satU8 (minU8 (x (4 * k + 1)) 1 ++ minU8 (x (4 * k)) 1) := by
    intro x k
    unfold lane16
    rw [show 2 * (2 * k + 1) + 1 = 4 * k + 3 by omega, show 2 * (2 * k + 1) = 4 * k + 2 by omega,
      show 2 * (2 * k) + 1 = 4 * k + 1 by omega, show 2 * (2 * k) = 4 * k by omega]
  have h1 : (1 : Byte) ++ (1 : Byte) = 0x0101#16 := by decide
  have h2 : (0x7f : Byte) ++ (0 : Byte) = 0x7f00#16 := by decide
  rw [h1, h2]
  by_cases h4 : n < 4
  · rw [show lane16 (fun i => if i < 8 then satU8 (lane16 (fun i => minU8 (x0 i) 1) i)
        else satU8 (lane16 (fun i => minU8 (x1 i) 1) (i - 8))) n =
        satU8 (lane16 (fun i => minU8 (x0 i) 1) (2 * n + 1)) ++ satU8 (lane16 (fun i => minU8 (x0 i) 1) (2 * n)) by
      rw [lane16]; simp only [show 2 * n + 1 < 8 by omega, show 2 * n < 8 by omega, if_true]]
    rw [key, if_pos h4]
    obtain ⟨c0, c1⟩ := ctrlLane_code (x0 (4 * n)) (x0 (4 * n + 1)) (x0 (4 * n + 2)) (x0 (4 * n + 3))
    unfold ctrlLane at c0 c1
    rw [c0, c1, lane32, byteLen_bytes]
    simp only [decide_eq_true_eq]
  · rw [show lane16 (fun i => if i < 8 then satU8 (lane16 (fun i => minU8 (x0 i) 1) i)
        else satU8 (lane16 (fun i => minU8 (x1 i) 1) (i - 8))) n =
        satU8 (lane16 (fun i => minU8 (x1 i) 1) (2 * (n - 4) + 1)) ++
          satU8 (lane16 (fun i => minU8 (x1 i) 1) (2 * (n - 4))) by
      rw [lane16]
      simp only [show ¬ 2 * n + 1 < 8 by omega, show ¬ 2 * n < 8 by omega, if_false,
        show 2 * n + 1 - 8 = 2 * (n - 4) + 1 by omega, show 2 * n - 8 = 2 * (n - 4) by omega]]
    rw [key, if_neg h4]
    obtain ⟨c0, c1⟩ := ctrlLane_code (x1 (4 * (n - 4))) (x1 (4 * (n - 4) + 1)) (x1 (4 * (n - 4) + 2))
      (x1 (4 * (n - 4) + 3))
    unfold ctrlLane at c0 c1
    rw [c0, c1, lane32, byteLen_bytes]
    simp only [decide_eq_true_eq]

/-! ## Encoding shuffle -/

theorem encShuf_lane {m m' : Mem} (hT : TablesLoaded m) {mask x : Vec} {b : Block} {o : Nat} (c : Byte)
    (hm : ∀ k < 16, mask k = m ⟨.encShuf, 16 * c.toNat + k⟩) (n : Nat) (hn : n < 4)
    (hs : ∀ k < gOff c.toNat n + code c n + 1, gOff c.toNat n ≤ k → m' ⟨b, o + k⟩ = pshufb mask x k)
    (hc : code c n + 1 = byteLen (lane32 x n)) :
    leNat m' b (o + gOff c.toNat n) (code c n + 1) = (lane32 x n).toNat := by
  have hcl := c.isLt
  have hb := gOff_bound _ hcl n hn
  have key : ∀ r < code c n + 1, m' ⟨b, o + gOff c.toNat n + r⟩ = x (4 * n + r) := by
    intro r hr
    have ht := encShuf_table _ hcl n hn r hr
    have : gOff c.toNat n + r < 16 := by unfold code at hr; omega
    have hmk : mask (gOff c.toNat n + r) = _ :=
      (hm _ this).trans (hT.encShuf _ hcl _ this)
    rw [ht] at hmk
    rw [Nat.add_assoc, hs _ (by omega) (by omega)]
    unfold pshufb
    have hcl' := code_lt c n
    have : (BitVec.ofNat 8 (4 * n + r)).toNat = 4 * n + r := by
      rw [BitVec.toNat_ofNat]; omega
    have hmsb : (BitVec.ofNat 8 (4 * n + r)).msb = false := by
      rw [BitVec.msb_eq_false_iff_two_mul_lt, this]; omega
    rw [hmk, hmsb, this, Nat.mod_eq_of_lt (by omega)]
    rfl
  have hlt := lt_pow_byteLen (lane32 x n)
  rw [← hc] at hlt
  have hcl' := code_lt c n
  rw [lane32_toNat] at hlt ⊢
  have k0 := key 0 (by omega)
  simp only [Nat.add_zero] at k0
  generalize code c n = l at *
  obtain rfl | rfl | rfl | rfl : l = 0 ∨ l = 1 ∨ l = 2 ∨ l = 3 := by omega
  · simp only [leNat, k0, Nat.reducePow, Nat.reduceAdd] at hlt ⊢
    omega
  · have k1 := key 1 (by omega)
    simp only [leNat, k0, k1, Nat.reducePow, Nat.reduceAdd] at hlt ⊢
    omega
  · have k1 := key 1 (by omega); have k2 := key 2 (by omega)
    simp only [leNat, k0, k1, k2, Nat.reducePow, Nat.reduceAdd, Nat.add_assoc] at hlt ⊢
    simp only [← Nat.add_assoc, k0, k1, k2] at hlt ⊢
    omega
  · have k1 := key 1 (by omega); have k2 := key 2 (by omega); have k3 := key 3 (by omega)
    simp only [leNat, Nat.add_assoc, Nat.reduceAdd]
    simp only [← Nat.add_assoc, k0, k1, k2, k3] at hlt ⊢
    omega

/-- The shuffle stores zeros after the last number. -/
theorem encShuf_tail {m : Mem} (hT : TablesLoaded m) {mask x : Vec} (c : Byte)
    (hm : ∀ k < 16, mask k = m ⟨.encShuf, 16 * c.toNat + k⟩) (k : Nat) (hk : k < 16) (hs : gSize c ≤ k) :
    pshufb mask x k = 0 := by
  have h1 := encShuf_table_tail _ c.isLt k hk (by simp only [gSize, code, Nat.reducePow, Nat.reduceMul, Nat.pow_zero, Nat.div_one] at hs; omega)
  unfold pshufb
  rw [hm k hk, hT.encShuf _ c.isLt k hk, h1]
  rfl

theorem gOff_offs {c : Byte} {v : Nat → U32} {i : Nat} (h : ∀ k < 4, code c k + 1 = byteLen (v (i + k)))
    (n : Nat) (hn : n ≤ 4) : offs v i + gOff c.toNat n = offs v (i + n) :=
  gOff_psum (sz := fun j => byteLen (v j)) ⟨h⟩ n hn

/-! ## The encoders -/

/-- What remains of both encoders after executing the register-only instructions. -/
def encShape (inn : U32s) (out : Bytes) (F0 F1 : Vec → Vec → Vec) : Prog U16 :=
  (load16 ((Slice.ptr inn).add 0)).bind fun a =>
  (load16 ((Slice.ptr inn).add 16)).bind fun a_1 =>
  (load8 { blk := Block.mask0101, off := 0 }).bind fun a_2 =>
  (load8 { blk := Block.mask0101, off := 1 }).bind fun a_3 =>
  (load8 { blk := Block.mask7F00, off := 0 }).bind fun a_4 =>
  (load8 { blk := Block.mask7F00, off := 1 }).bind fun a_5 =>
  (load16 (encShufPtr.add (BitVec.setWidth 64 (BitVec.setWidth 8
    (BitVec.ofNat 64 (ctrlExpr (F0 a a_1) (F1 a a_1) a_2 a_3 a_4 a_5))) <<< 4).toNat)).bind fun a_6 =>
  (load16 (encShufPtr.add (BitVec.setWidth 64 (BitVec.setWidth 16
    (BitVec.ofNat 64 (ctrlExpr (F0 a a_1) (F1 a a_1) a_2 a_3 a_4 a_5))) >>> 8 <<< 4).toNat)).bind fun a_7 =>
  (load8 (ctrlLenPtr.add (BitVec.setWidth 64 (BitVec.setWidth 8
    (BitVec.ofNat 64 (ctrlExpr (F0 a a_1) (F1 a a_1) a_2 a_3 a_4 a_5)))).toNat)).bind fun a_8 =>
  (store16 ((Slice.ptr out).add 0) (pshufb a_6 (F0 a a_1))).bind fun _ =>
  (store16 (((Slice.ptr out).add (BitVec.setWidth 64 a_8).toNat).add 0) (pshufb a_7 (F1 a a_1))).bind fun _ =>
  Prog.ret (BitVec.setWidth 16 (BitVec.ofNat 64 (ctrlExpr (F0 a a_1) (F1 a a_1) a_2 a_3 a_4 a_5)))

theorem put8Fast_shape (inn : U32s) (out : Bytes) :
    put8uint32FastAsm inn out encShufPtr ctrlLenPtr = encShape inn out (fun x _ => x) (fun _ x => x) := by
  simp only [put8uint32FastAsm, put8uint32FastText, ctrlInstrs, List.cons_append, List.nil_append, exec, step,
    Frame.get, sliceArg, List.lookup, St.setGP, St.setX, Prog.bind_eq, Prog.pure_eq, Prog.ret_bind,
    Prog.bind_assoc, reduceCtorEq, if_true, if_false, Nat.reduceBEq, Nat.reduceAdd, Nat.zero_add, encShape,
    ctrlExpr]

/-- Differences inside one vector; the first against lane 3 of `lo`. -/
def diff4 (lo x : Vec) : Vec := of32 fun i => lane32 x i - lane32 (palignr 12 x lo) i

theorem put8DeltaFast_shape (inn : U32s) (out : Bytes) (prev : U32) :
    put8uint32DeltaFastAsm inn out prev encShufPtr ctrlLenPtr =
      encShape inn out (fun x _ => diff4 (of32 fun _ => prev) x) (fun x y => diff4 x y) := by
  simp only [put8uint32DeltaFastAsm, put8uint32DeltaFastText, ctrlInstrs, List.cons_append, List.nil_append,
    exec, step, Frame.get, sliceArg, List.lookup, St.setGP, St.setX, Prog.bind_eq, Prog.pure_eq,
    Prog.ret_bind, Prog.bind_assoc, reduceCtorEq, if_true, if_false, Nat.reduceBEq, Nat.reduceAdd,
    Nat.zero_add, encShape, ctrlExpr, diff4]

/-- The bytes from `a` up to `b` are zero. -/
def ZeroTail (m : Mem) (blk : Block) (a b : Nat) : Prop := ∀ o, a ≤ o → o < b → m ⟨blk, o⟩ = 0

/-- Footprint of the two 16-byte stores. -/
def encW (b : Block) (B : Nat) (v : Nat → U32) (i : Nat) (q : Ptr) : Prop :=
  Seg b (B + offs v i) (B + offs v i + 16) q ∨ Seg b (B + offs v (i + 4)) (B + offs v (i + 4) + 16) q

theorem encShape_spec (v x : Nat → U32) (i B : Nat) (inn : U32s) (out : Bytes) (m : Mem)
    (F0 F1 : Vec → Vec → Vec) (hT : TablesLoaded m) (hB : out.off = B + offs v i)
    (hv : ∀ k < 8, wordAt m inn.blk (inn.off + 4 * k) = x k)
    (hF : ∀ x0 x1 : Vec, (∀ k < 4, lane32 x0 k = x k) → (∀ k < 4, lane32 x1 k = x (4 + k)) →
      (∀ k < 4, lane32 (F0 x0 x1) k = v (i + k)) ∧ (∀ k < 4, lane32 (F1 x0 x1) k = v (i + 4 + k))) :
    wp ⟨fun q => Seg inn.blk inn.off (inn.off + 32) q ∨ inTables q, encW out.blk B v i, fun _ _ => False⟩
      (encShape inn out F0 F1) m
      (fun c m' => (∀ k < 8, code16 c k + 1 = byteLen (v (i + k))) ∧ Stored m' out.blk B v i (i + 8) ∧
        ZeroTail m' out.blk (B + offs v (i + 8)) (B + offs v (i + 4) + 16)) := by
  unfold encShape
  simp only [Slice.ptr, Ptr.add, Nat.add_zero]
  rw [wp_bind]
  refine wp_load16 (fun k hk => .inl ⟨rfl, by simp only; omega, by simp only; omega⟩) fun v0 hv0 => ?_
  rw [wp_bind]
  refine wp_load16 (fun k hk => .inl ⟨rfl, by simp only; omega, by simp only; omega⟩) fun v1 hv1 => ?_
  rw [wp_bind]
  refine wp_load8 (.inr (by simp only [inTables]; omega)) ?_
  rw [wp_bind]
  refine wp_load8 (.inr (by simp only [inTables]; omega)) ?_
  rw [wp_bind]
  refine wp_load8 (.inr (by simp only [inTables]; omega)) ?_
  rw [wp_bind]
  refine wp_load8 (.inr (by simp only [inTables]; omega)) ?_
  rw [hT.mask0101.1, hT.mask0101.2, hT.mask7F00.1, hT.mask7F00.2]
  obtain ⟨f0, f1⟩ := hF v0 v1
    (fun k hk => by
      rw [← hv k (by omega)]
      exact (wordAt_lane fun j hj => by rw [hv0 _ (by omega)]; congr 2; omega).symm)
    (fun k hk => by
      rw [← hv (4 + k) (by omega)]
      exact (wordAt_lane fun j hj => by rw [hv1 _ (by omega)]; congr 2; omega).symm)
  generalize F0 v0 v1 = w0 at f0
  generalize F1 v0 v1 = w1 at f1
  have hcode := ctrlExpr_code w0 w1
  have hE : (ctrlExpr w0 w1 1#8 1#8 0#8 127#8) < 2 ^ 16 := by
    unfold ctrlExpr
    generalize (of16 _) = u
    unfold movmsk
    rw [show List.range 16 = [0, 1, 2, 3, 4, 5, 6, 7, 8, 9, 10, 11, 12, 13, 14, 15] from rfl]
    simp only [List.foldl]
    have e : ∀ (p : Bool) (k : Nat), (if p = true then 2 ^ k else 0) ≤ 2 ^ k := by
      intro p k; cases p <;> simp
    have e0 := e (u 0).msb 0; have e1 := e (u 1).msb 1; have e2 := e (u 2).msb 2; have e3 := e (u 3).msb 3
    have e4 := e (u 4).msb 4; have e5 := e (u 5).msb 5; have e6 := e (u 6).msb 6; have e7 := e (u 7).msb 7
    have e8 := e (u 8).msb 8; have e9 := e (u 9).msb 9; have e10 := e (u 10).msb 10; have e11 := e (u 11).msb 11
    have e12 := e (u 12).msb 12; have e13 := e (u 13).msb 13; have e14 := e (u 14).msb 14
    have e15 := e (u 15).msb 15
    simp only [Nat.reducePow] at *
    omega
  change ∀ n < 8, code16 (BitVec.setWidth 16 (BitVec.ofNat 64 (ctrlExpr w0 w1 1#8 1#8 0#8 127#8))) n + 1 = _ at hcode
  have h64 : BitVec.ofNat 64 (ctrlExpr w0 w1 1#8 1#8 0#8 127#8) =
      BitVec.setWidth 64 (BitVec.setWidth 16 (BitVec.ofNat 64 (ctrlExpr w0 w1 1#8 1#8 0#8 127#8))) := by
    apply BitVec.eq_of_toNat_eq
    simp only [BitVec.toNat_setWidth, BitVec.toNat_ofNat]
    omega
  generalize BitVec.setWidth 16 (BitVec.ofNat 64 (ctrlExpr w0 w1 1#8 1#8 0#8 127#8)) = ctrl at hcode h64 ⊢
  rw [h64, addr_lo, addr_len]
  have hhi' : (BitVec.setWidth 64 ctrl >>> 8 <<< 4).toNat = 16 * ((ctrl >>> 8).setWidth 8 : Byte).toNat := by
    have := addr_hi ctrl
    rwa [show BitVec.setWidth 16 (BitVec.setWidth 64 ctrl) = ctrl by
      apply BitVec.eq_of_toNat_eq
      have := ctrl.isLt
      simp only [BitVec.toNat_setWidth]; omega] at this
  rw [hhi']
  have hfin : ∀ k < 8, code16 ctrl k + 1 = byteLen (v (i + k)) := by
    intro k hk
    rw [hcode k hk]
    split
    · rw [f0 k (by omega)]
    · rw [f1 (k - 4) (by omega), show i + 4 + (k - 4) = i + k by omega]
  have hlo : ∀ k < 4, code ((ctrl &&& 0xff#16).setWidth 8) k + 1 = byteLen (v (i + k)) :=
    fun k hk => by rw [code16_lo ctrl k hk, hfin k (by omega)]
  have hhi : ∀ k < 4, code ((ctrl >>> 8).setWidth 8) k + 1 = byteLen (v (i + 4 + k)) :=
    fun k hk => by rw [code16_hi ctrl k hk, hfin (k + 4) (by omega)]; congr 2; omega
  have t1 := gSize_of_codes hlo
  have t2 := gSize_of_codes hhi
  generalize ((ctrl &&& 0xff#16).setWidth 8 : Byte) = clo at hlo t1 ⊢
  generalize ((ctrl >>> 8).setWidth 8 : Byte) = chi at hhi t2 ⊢
  have l1 := clo.isLt
  have l2 := chi.isLt
  have g1 := gSize_bounds clo
  have g2 := gSize_bounds chi
  simp only [ctrlLenPtr, encShufPtr, Nat.zero_add]
  rw [wp_bind]
  refine wp_load16 (fun k hk => .inr (by simp only [inTables]; omega)) fun k0 hk0 => ?_
  rw [wp_bind]
  refine wp_load16 (fun k hk => .inr (by simp only [inTables]; omega)) fun k1 hk1 => ?_
  rw [wp_bind]
  refine wp_load8 (.inr (by simp only [inTables]; omega)) ?_
  have hsz := hT.ctrlLen' clo
  generalize m ⟨.ctrlLen, clo.toNat⟩ = a at hsz
  rw [byte64_toNat, hsz, wp_bind]
  refine wp_store16 (fun k hk => .inl ⟨rfl, by simp only; omega, by simp only; omega⟩) fun m1 h1 h1' => ?_
  rw [wp_bind]
  refine wp_store16 (fun k hk => .inr ⟨rfl, by simp only; omega, by simp only; omega⟩) fun m2 h2 h2' => ?_
  refine ⟨hfin, ?_, ?_⟩
  rotate_left
  · intro o h1 h2
    rw [show i + 8 = i + 4 + 4 by omega] at h1
    obtain ⟨k, rfl⟩ : ∃ k, o = out.off + gSize clo + k := ⟨o - (out.off + gSize clo), by omega⟩
    have := ‹∀ k < 16, m2 _ = _› k (by omega)
    rw [this]
    exact encShuf_tail hT chi hk1 k (by omega) (by omega)
  intro t ht ht8
  by_cases h4 : t < i + 4
  · obtain ⟨n, rfl⟩ : ∃ n, t = i + n := ⟨t - i, by omega⟩
    have hn : n < 4 := by omega
    have go := gOff_offs hlo n (by omega)
    have mono := offs_mono v (show i + n + 1 ≤ i + 4 by omega)
    rw [offs_one] at mono
    rw [← go, ← hlo n hn, ← f0 n hn, ← Nat.add_assoc, ← hB]
    refine encShuf_lane hT clo hk0 n hn ?_ (by rw [f0 n hn, hlo n hn])
    intro k hk hk'
    have := hlo n hn
    rw [h2' _ (fun h => by have := h.2.1; simp only at this; omega), h1 k (by omega)]
  · obtain ⟨n, rfl⟩ : ∃ n, t = i + 4 + n := ⟨t - (i + 4), by omega⟩
    have hn : n < 4 := by omega
    have go := gOff_offs hhi n (by omega)
    have mono := offs_mono v (show i + 4 + n + 1 ≤ i + 4 + 4 by omega)
    rw [offs_one] at mono
    rw [← go, ← hhi n hn, ← f1 n hn, t1, show B + (offs v i + gSize clo + gOff chi.toNat n) =
      out.off + gSize clo + gOff chi.toNat n by omega]
    refine encShuf_lane hT chi hk1 n hn ?_ (by rw [f1 n hn, hhi n hn])
    intro k hk hk'
    have := hhi n hn
    rw [h2 k (by omega)]

theorem put8Fast_spec (v : Nat → U32) (i B : Nat) (inn : U32s) (out : Bytes) (m : Mem)
    (hT : TablesLoaded m) (hB : out.off = B + offs v i)
    (hv : ∀ k < 8, wordAt m inn.blk (inn.off + 4 * k) = v (i + k)) :
    wp ⟨fun q => Seg inn.blk inn.off (inn.off + 32) q ∨ inTables q, encW out.blk B v i, fun _ _ => False⟩
      (put8uint32FastAsm inn out encShufPtr ctrlLenPtr) m
      (fun c m' => (∀ k < 8, code16 c k + 1 = byteLen (v (i + k))) ∧ Stored m' out.blk B v i (i + 8) ∧
        ZeroTail m' out.blk (B + offs v (i + 8)) (B + offs v (i + 4) + 16)) := by
  rw [put8Fast_shape]
  exact encShape_spec v (fun k => v (i + k)) i B inn out m _ _ hT hB hv fun _ _ h0 h1 =>
    ⟨h0, fun k hk => by rw [h1 k hk, ← Nat.add_assoc]⟩

theorem put8DeltaFast_spec (v x : Nat → U32) (i B : Nat) (inn : U32s) (out : Bytes) (prev : U32) (m : Mem)
    (hT : TablesLoaded m) (hB : out.off = B + offs v i)
    (hx : ∀ k < 8, wordAt m inn.blk (inn.off + 4 * k) = x (i + k))
    (hv0 : v i = x i - prev) (hv : ∀ k < 7, v (i + (k + 1)) = x (i + (k + 1)) - x (i + k)) :
    wp ⟨fun q => Seg inn.blk inn.off (inn.off + 32) q ∨ inTables q, encW out.blk B v i, fun _ _ => False⟩
      (put8uint32DeltaFastAsm inn out prev encShufPtr ctrlLenPtr) m
      (fun c m' => (∀ k < 8, code16 c k + 1 = byteLen (v (i + k))) ∧ Stored m' out.blk B v i (i + 8) ∧
        ZeroTail m' out.blk (B + offs v (i + 8)) (B + offs v (i + 4) + 16)) := by
  rw [put8DeltaFast_shape]
  refine encShape_spec v (fun k => x (i + k)) i B inn out m _ _ hT hB hx fun x0 x1 h0 h1 => ⟨?_, ?_⟩
  · intro k hk
    rw [diff4, lane32_of32, lane32_palignr12 _ _ _ hk]
    split
    · subst k; rw [lane32_of32, h0 0 (by omega)]; exact hv0.symm
    · rw [h0 k hk, h0 (k - 1) (by omega)]
      have := hv (k - 1) (by omega)
      rwa [show k - 1 + 1 = k by omega, eq_comm] at this
  · intro k hk
    rw [diff4, lane32_of32, lane32_palignr12 _ _ _ hk]
    split
    · subst k; rw [h1 0 (by omega), h0 3 (by omega)]; exact (hv 3 (by omega)).symm
    · rw [h1 k hk, h1 (k - 1) (by omega)]
      have := hv (k + 3) (by omega)
      rw [show k + 3 + 1 = 4 + k by omega, show k + 3 = 4 + (k - 1) by omega, eq_comm] at this
      rw [Nat.add_assoc]; exact this

end SVB
