import Verif.Proofs.Num

/-! # Specifications of the scalar block encoders (`Verif/Model/Encode.lean`) -/

set_option linter.unusedSimpArgs false

namespace SVB
open Spec

/-- Offsets `lo … hi-1` of block `b`. -/
def Seg (b : Block) (lo hi : Nat) (q : Ptr) : Prop := q.blk = b ∧ lo ≤ q.off ∧ q.off < hi

/-- Start of number `i` in the data section, for the numbers `v 0, v 1, …`. -/
def offs (v : Nat → U32) (i : Nat) : Nat := psum (fun j => byteLen (v j)) i

theorem offs_one (v : Nat → U32) (i : Nat) : offs v (i + 1) = offs v i + byteLen (v i) := rfl
theorem offs_two (v : Nat → U32) (i : Nat) :
    offs v (i + 2) = offs v i + byteLen (v i) + byteLen (v (i + 1)) := rfl
theorem offs_three (v : Nat → U32) (i : Nat) :
    offs v (i + 3) = offs v i + byteLen (v i) + byteLen (v (i + 1)) + byteLen (v (i + 2)) := rfl
theorem offs_four (v : Nat → U32) (i : Nat) :
    offs v (i + 4) = offs v i + byteLen (v i) + byteLen (v (i + 1)) + byteLen (v (i + 2)) +
      byteLen (v (i + 3)) := rfl

theorem offs_mono (v : Nat → U32) {i j : Nat} (h : i ≤ j) : offs v i ≤ offs v j := psum_mono h
theorem offs_bounds (v : Nat → U32) {i j : Nat} (h : i ≤ j) :
    offs v i + (j - i) ≤ offs v j ∧ offs v j ≤ offs v i + 4 * (j - i) :=
  psum_bounds (fun i => byteLen_bounds (v i)) h

/-- Numbers `i … j-1` are stored little-endian at their places, `B` being the start of the data. -/
def Stored (m : Mem) (b : Block) (B : Nat) (v : Nat → U32) (i j : Nat) : Prop :=
  ∀ t, i ≤ t → t < j → leNat m b (B + offs v t) (byteLen (v t)) = (v t).toNat

theorem Stored.frame {m m' : Mem} {b : Block} {B : Nat} {v : Nat → U32} {i j : Nat}
    (h : Stored m b B v i j) (hf : ∀ q, Seg b (B + offs v i) (B + offs v j) q → m' q = m q) :
    Stored m' b B v i j := by
  intro t h1 h2
  rw [← h t h1 h2]
  apply leNat_congr
  intro k hk
  apply hf
  have := offs_mono v h1
  have h3 := offs_mono v (show t + 1 ≤ j by omega)
  rw [offs_one] at h3
  exact ⟨rfl, by simp only; omega, by simp only; omega⟩

theorem Stored.append {m : Mem} {b : Block} {B : Nat} {v : Nat → U32} {i j k : Nat}
    (h : Stored m b B v i j) (h' : Stored m b B v j k) : Stored m b B v i k := by
  intro t h1 h2
  by_cases hj : t < j
  · exact h t h1 hj
  · exact h' t (by omega) h2

theorem Stored.nil (m : Mem) (b : Block) (B : Nat) (v : Nat → U32) (i : Nat) : Stored m b B v i i := by
  intro t h1 h2; omega

theorem Stored.one {m : Mem} {b : Block} {B : Nat} {v : Nat → U32} {i : Nat}
    (h : leNat m b (B + offs v i) (byteLen (v i)) = (v i).toNat) : Stored m b B v i (i + 1) := by
  intro t h1 h2
  have : t = i := by omega
  subst this; exact h

/-- Either of the two Go bounds panics. -/
def boundsPanic (k : Panic) : Prop := k = .index ∨ k = .slice

theorem Mem.set_same (m : Mem) (p : Ptr) (v : Byte) : m.set p v p = v := by simp [Mem.set]
theorem Mem.set_ne (m : Mem) {p q : Ptr} (v : Byte) (h : q ≠ p) : m.set p v q = m q := by
  simp [Mem.set, h]

theorem encodeOne_spec (num : U32) (out : Bytes) (m : Mem) :
    wp ⟨fun _ => False, Seg out.blk out.off (out.off + byteLen num),
        fun k _ => k = .index ∧ out.len < byteLen num⟩
      (encodeOne num out) m
      (fun sz m' => sz = (byteLen num : Int) ∧ byteLen num ≤ out.len ∧
        leNat m' out.blk out.off (byteLen num) = num.toNat) := by
  have hlt := lt_pow_byteLen num
  have hb := byteLen_bounds num
  have hsz := encodeSize_eq num
  unfold encodeOne
  simp only [hsz]
  generalize byteLen num = l at *
  have e0 := byteOf_toNat num 0
  have e8 := byteOf_toNat num 8
  have e16 := byteOf_toNat num 16
  have e24 := byteOf_toNat num 24
  have hR : ∀ k < l, Seg out.blk out.off (out.off + l) ⟨out.blk, out.off + k⟩ := by
    intro k hk; exact ⟨rfl, by simp, by simpa using hk⟩
  have hE : ∀ a : Int, (a = l - 1) → out.len < l → ¬ (0 ≤ a ∧ a < out.len) := by
    intro a _ _; omega
  by_cases hl : out.len < l
  · obtain h | h | h | h : l = 4 ∨ l = 3 ∨ l = 2 ∨ l = 1 := by omega
    all_goals
      subst h
      simp only [Prog.bind_eq, Prog.pure_eq, Prog.ret_bind]
      simp (config := { decide := true }) only [if_true, if_false, Prog.ret_bind, true_or, or_true,
        false_or, or_false, or_self]
      rw [wp_bind]
      exact wp_setB (fun a _ _ => by omega) (fun _ => ⟨rfl, hl⟩)
  · obtain h | h | h | h : l = 4 ∨ l = 3 ∨ l = 2 ∨ l = 1 := by omega
    all_goals
      subst h
      simp only [Prog.bind_eq, Prog.pure_eq, Prog.ret_bind]
      simp (config := { decide := true }) only [if_true, if_false, Prog.ret_bind, true_or, or_true,
        false_or, or_false, or_self]
      try (rw [wp_bind]; refine wp_setB_ok 3 rfl (by omega) (hR 3 (by omega)) ?_)
      try (rw [wp_bind]; refine wp_setB_ok 2 rfl (by omega) (hR 2 (by omega)) ?_)
      try (rw [wp_bind]; refine wp_setB_ok 1 rfl (by omega) (hR 1 (by omega)) ?_)
      rw [wp_bind]; refine wp_setB_ok 0 rfl (by omega) (hR 0 (by omega)) ?_
      refine ⟨rfl, by omega, ?_⟩
      simp only [leNat, Mem.set, Ptr.mk.injEq, true_and, Nat.add_assoc, Nat.add_left_cancel_iff,
        Nat.reduceAdd, Nat.add_zero]
      simp
      omega

/-- The common tail of `Put4uint32Scalar` and `Put4uint32DeltaScalar`. -/
def enc4 (num0 num1 num2 num3 : U32) (out : Bytes) : Prog Byte := do
  let len0 ← encodeOne num0 out
  let len1 ← encodeOne num1 (← out.from len0)
  let len2 ← encodeOne num2 (← out.from (len0 + len1))
  let len3 ← encodeOne num3 (← out.from (len0 + len1 + len2))
  return packCtrl len0 len1 len2 len3

theorem enc4_spec (v : Nat → U32) (i B : Nat) (out : Bytes) (m : Mem) (hB : out.off = B + offs v i) :
    wp ⟨fun _ => False, Seg out.blk (B + offs v i) (B + offs v (i + 4)),
        fun k _ => boundsPanic k ∧ out.off + out.len < B + offs v (i + 4)⟩
      (enc4 (v i) (v (i + 1)) (v (i + 2)) (v (i + 3)) out) m
      (fun c m' => B + offs v (i + 4) ≤ out.off + out.len ∧
        (∀ k < 4, code c k + 1 = byteLen (v (i + k))) ∧ Stored m' out.blk B v i (i + 4)) := by
  have b0 := byteLen_bounds (v i)
  have b1 := byteLen_bounds (v (i + 1))
  have b2 := byteLen_bounds (v (i + 2))
  have b3 := byteLen_bounds (v (i + 3))
  have o1 := offs_one v i
  have o2 := offs_two v i
  have o3 := offs_three v i
  have o4 := offs_four v i
  unfold enc4
  simp only [Prog.bind_eq, Prog.pure_eq]
  -- first number
  refine wp_call (encodeOne_spec (v i) out m) (fun _ h => h.elim) ?_ ?_ ?_
  · rintro q ⟨h1, h2, h3⟩; exact ⟨h1, by omega, by omega⟩
  · rintro k m' - ⟨rfl, h⟩; exact ⟨.inl rfl, by omega⟩
  rintro _ m1 hf1 ⟨rfl, hl1, hs1⟩
  have hs1 : Stored m1 out.blk B v i (i + 1) := .one (by rw [← hB]; exact hs1)
  -- second number
  rw [wp_bind]
  refine wp_from_ok (byteLen (v i)) rfl hl1 ?_
  refine wp_call (encodeOne_spec (v (i + 1)) _ m1) (fun _ h => h.elim) ?_ ?_ ?_
  · rintro q ⟨h1, h2, h3⟩; simp only at h2 h3; exact ⟨h1, by omega, by omega⟩
  · rintro k m' - ⟨rfl, h⟩; simp only at h; exact ⟨.inl rfl, by omega⟩
  rintro _ m2 hf2 ⟨rfl, hl2, hs2⟩
  simp only [Nat.one_mul] at hf2 hl2 hs2
  replace hs1 : Stored m2 out.blk B v i (i + 1) :=
    hs1.frame fun q hq => hf2 q (fun h => by have := hq.2.2; have := h.2.1; omega)
  replace hs2 : Stored m2 out.blk B v (i + 1) (i + 2) :=
    .one (by rw [o1, ← Nat.add_assoc, ← hB]; exact hs2)
  replace hs1 := hs1.append hs2
  -- third number
  rw [wp_bind]
  refine wp_from_ok (byteLen (v i) + byteLen (v (i + 1))) (by omega) (by omega) ?_
  refine wp_call (encodeOne_spec (v (i + 2)) _ m2) (fun _ h => h.elim) ?_ ?_ ?_
  · rintro q ⟨h1, h2, h3⟩; simp only at h2 h3; exact ⟨h1, by omega, by omega⟩
  · rintro k m' - ⟨rfl, h⟩; simp only at h; exact ⟨.inl rfl, by omega⟩
  rintro _ m3 hf3 ⟨rfl, hl3, hs3⟩
  simp only [Nat.one_mul] at hf3 hl3 hs3
  replace hs1 : Stored m3 out.blk B v i (i + 2) :=
    hs1.frame fun q hq => hf3 q (fun h => by have := hq.2.2; have := h.2.1; omega)
  replace hs3 : Stored m3 out.blk B v (i + 2) (i + 3) := .one (by
    rw [show B + offs v (i + 2) = out.off + (byteLen (v i) + byteLen (v (i + 1))) by omega]; exact hs3)
  replace hs1 := hs1.append hs3
  -- fourth number
  rw [wp_bind]
  refine wp_from_ok (byteLen (v i) + byteLen (v (i + 1)) + byteLen (v (i + 2))) (by omega) (by omega) ?_
  refine wp_call (encodeOne_spec (v (i + 3)) _ m3) (fun _ h => h.elim) ?_ ?_ ?_
  · rintro q ⟨h1, h2, h3⟩; simp only at h2 h3; exact ⟨h1, by omega, by omega⟩
  · rintro k m' - ⟨rfl, h⟩; simp only at h; exact ⟨.inl rfl, by omega⟩
  rintro _ m4 hf4 ⟨rfl, hl4, hs4⟩
  simp only [Nat.one_mul] at hf4 hl4 hs4
  replace hs1 : Stored m4 out.blk B v i (i + 3) :=
    hs1.frame fun q hq => hf4 q (fun h => by have := hq.2.2; have := h.2.1; omega)
  replace hs4 : Stored m4 out.blk B v (i + 3) (i + 4) := .one (by
    rw [show B + offs v (i + 3) =
      out.off + (byteLen (v i) + byteLen (v (i + 1)) + byteLen (v (i + 2))) by omega]; exact hs4)
  replace hs1 := hs1.append hs4
  refine ⟨by omega, ?_, hs1⟩
  have := packCtrl_code b0 b1 b2 b3
  intro k hk
  obtain rfl | rfl | rfl | rfl : k = 0 ∨ k = 1 ∨ k = 2 ∨ k = 3 := by omega
  · exact this.1
  · exact this.2.1
  · exact this.2.2.1
  · exact this.2.2.2

theorem put4_spec (v : Nat → U32) (i B : Nat) (inn : U32s) (out : Bytes) (m : Mem)
    (hB : out.off = B + offs v i)
    (hv : 4 ≤ inn.len → ∀ k < 4, wordAt m inn.blk (inn.off + 4 * k) = v (i + k)) :
    wp ⟨Seg inn.blk inn.off (inn.off + 16), Seg out.blk (B + offs v i) (B + offs v (i + 4)),
        fun k _ => boundsPanic k ∧ ¬ (4 ≤ inn.len ∧ B + offs v (i + 4) ≤ out.off + out.len)⟩
      (put4uint32Scalar inn out) m
      (fun c m' => 4 ≤ inn.len ∧ B + offs v (i + 4) ≤ out.off + out.len ∧
        (∀ k < 4, code c k + 1 = byteLen (v (i + k))) ∧ Stored m' out.blk B v i (i + 4)) := by
  have hR : ∀ a, a < 4 → ∀ k < 4, Seg inn.blk inn.off (inn.off + 16) ⟨inn.blk, inn.off + 4 * a + k⟩ :=
    fun a ha k hk => ⟨rfl, by simp only; omega, by simp only; omega⟩
  by_cases hl : 4 ≤ inn.len
  · specialize hv hl
    unfold put4uint32Scalar
    simp only [Prog.bind_eq, Prog.pure_eq]
    rw [wp_bind]; refine wp_getW_ok 3 rfl (by omega) (hR 3 (by omega)) ?_
    rw [wp_bind]; refine wp_getW_ok 0 rfl (by omega) (hR 0 (by omega)) ?_
    rw [wp_bind]; refine wp_getW_ok 1 rfl (by omega) (hR 1 (by omega)) ?_
    rw [wp_bind]; refine wp_getW_ok 2 rfl (by omega) (hR 2 (by omega)) ?_
    rw [wp_bind]; refine wp_getW_ok 3 rfl (by omega) (hR 3 (by omega)) ?_
    rw [hv 0 (by omega), hv 1 (by omega), hv 2 (by omega), hv 3 (by omega)]
    refine wp_conseq (enc4_spec v i B out m hB) (fun _ h => h.elim) (fun _ h => h) ?_ ?_
    · rintro k m' - ⟨h1, h2⟩; exact ⟨h1, by omega⟩
    · rintro c m' - ⟨h1, h2, h3⟩; exact ⟨hl, h1, h2, h3⟩
  · unfold put4uint32Scalar
    simp only [Prog.bind_eq, Prog.pure_eq]
    rw [wp_bind]
    exact wp_getW (fun a h h' => by omega) (fun _ => ⟨.inl rfl, by omega⟩)

theorem put4Delta_spec (v : Nat → U32) (i B : Nat) (inn : U32s) (out : Bytes) (prev : U32) (m : Mem)
    (hB : out.off = B + offs v i)
    (hv0 : 4 ≤ inn.len → wordAt m inn.blk inn.off - prev = v i)
    (hv : 4 ≤ inn.len → ∀ k < 3, wordAt m inn.blk (inn.off + 4 * (k + 1)) -
      wordAt m inn.blk (inn.off + 4 * k) = v (i + (k + 1))) :
    wp ⟨Seg inn.blk inn.off (inn.off + 16), Seg out.blk (B + offs v i) (B + offs v (i + 4)),
        fun k _ => boundsPanic k ∧ ¬ (4 ≤ inn.len ∧ B + offs v (i + 4) ≤ out.off + out.len)⟩
      (put4uint32DeltaScalar inn out prev) m
      (fun c m' => 4 ≤ inn.len ∧ B + offs v (i + 4) ≤ out.off + out.len ∧
        (∀ k < 4, code c k + 1 = byteLen (v (i + k))) ∧ Stored m' out.blk B v i (i + 4)) := by
  have hR : ∀ a, a < 4 → ∀ k < 4, Seg inn.blk inn.off (inn.off + 16) ⟨inn.blk, inn.off + 4 * a + k⟩ :=
    fun a ha k hk => ⟨rfl, by simp only; omega, by simp only; omega⟩
  by_cases hl : 4 ≤ inn.len
  · specialize hv hl
    specialize hv0 hl
    unfold put4uint32DeltaScalar
    simp only [Prog.bind_eq, Prog.pure_eq]
    rw [wp_bind]; refine wp_getW_ok 3 rfl (by omega) (hR 3 (by omega)) ?_
    rw [wp_bind]; refine wp_getW_ok 0 rfl (by omega) (hR 0 (by omega)) ?_
    rw [wp_bind]; refine wp_getW_ok 1 rfl (by omega) (hR 1 (by omega)) ?_
    rw [wp_bind]; refine wp_getW_ok 0 rfl (by omega) (hR 0 (by omega)) ?_
    rw [wp_bind]; refine wp_getW_ok 2 rfl (by omega) (hR 2 (by omega)) ?_
    rw [wp_bind]; refine wp_getW_ok 1 rfl (by omega) (hR 1 (by omega)) ?_
    rw [wp_bind]; refine wp_getW_ok 3 rfl (by omega) (hR 3 (by omega)) ?_
    rw [wp_bind]; refine wp_getW_ok 2 rfl (by omega) (hR 2 (by omega)) ?_
    have e0 := hv 0 (by omega); have e1 := hv 1 (by omega); have e2 := hv 2 (by omega)
    simp only [Nat.zero_add, Nat.reduceAdd] at e0 e1 e2
    rw [e0, e1, e2, show inn.off + 4 * 0 = inn.off from rfl, hv0]
    refine wp_conseq (enc4_spec v i B out m hB) (fun _ h => h.elim) (fun _ h => h) ?_ ?_
    · rintro k m' - ⟨h1, h2⟩; exact ⟨h1, by omega⟩
    · rintro c m' - ⟨h1, h2, h3⟩; exact ⟨hl, h1, h2, h3⟩
  · unfold put4uint32DeltaScalar
    simp only [Prog.bind_eq, Prog.pure_eq]
    rw [wp_bind]
    exact wp_getW (fun a h h' => by omega) (fun _ => ⟨.inl rfl, by omega⟩)

/-- The table look-ups of `ControlByteToSize`. -/
theorem controlByteToSize_spec (c : Byte) (m : Mem) (hT : TablesLoaded m) :
    wp ⟨inTables, fun _ => False, fun _ _ => False⟩
      (controlByteToSize c) m (fun s m' => s = (gSize c : Int) ∧ m = m') := by
  unfold controlByteToSize
  simp only [Prog.bind_eq, Prog.pure_eq]
  rw [wp_bind]
  exact wp_load8 c.isLt ⟨by rw [hT.ctrlLen'], rfl⟩

/-- Code `k` (of eight) of a pair of control bytes. -/
def code16 (c : U16) (k : Nat) : Nat := c.toNat / 4 ^ k % 4

theorem code16_lo (c : U16) (k : Nat) (hk : k < 4) :
    code ((c &&& 0xff#16).setWidth 8) k = code16 c k := by
  have := c.isLt
  have h : ((c &&& 0xff#16).setWidth 8 : Byte).toNat = c.toNat % 256 := by
    simp only [BitVec.toNat_setWidth, BitVec.toNat_and, BitVec.toNat_ofNat]
    rw [show (255 % 2 ^ 16 : Nat) = 2 ^ 8 - 1 by decide, Nat.and_two_pow_sub_one_eq_mod]
    omega
  unfold code code16
  rw [h]
  obtain rfl | rfl | rfl | rfl : k = 0 ∨ k = 1 ∨ k = 2 ∨ k = 3 := by omega
  all_goals simp only [Nat.reducePow]; omega

theorem code16_hi (c : U16) (k : Nat) (hk : k < 4) :
    code ((c >>> 8).setWidth 8) k = code16 c (k + 4) := by
  have := c.isLt
  have h : ((c >>> 8).setWidth 8 : Byte).toNat = c.toNat / 256 := by
    simp only [BitVec.toNat_setWidth, BitVec.toNat_ushiftRight, Nat.shiftRight_eq_div_pow]
    omega
  unfold code code16
  rw [h]
  obtain rfl | rfl | rfl | rfl : k = 0 ∨ k = 1 ∨ k = 2 ∨ k = 3 := by omega
  all_goals simp only [Nat.reducePow, Nat.reduceAdd]; omega

theorem code16_mk (a b : Byte) : ∀ k < 8,
    code16 (a.setWidth 16 ||| b.setWidth 16 <<< 8) k = if k < 4 then code a k else code b (k - 4) := by
  have ha := a.isLt
  have hb := b.isLt
  have h : (a.setWidth 16 ||| b.setWidth 16 <<< 8 : U16).toNat = a.toNat + 256 * b.toNat := by
    simp only [BitVec.toNat_or, BitVec.toNat_shiftLeft, BitVec.toNat_setWidth]
    rw [Nat.mod_eq_of_lt (show a.toNat < 2 ^ 16 by omega),
      Nat.mod_eq_of_lt (show b.toNat < 2 ^ 16 by omega), Nat.shiftLeft_eq,
      Nat.mod_eq_of_lt (show b.toNat * 2 ^ 8 < 2 ^ 16 by omega), Nat.or_comm, Nat.mul_comm,
      ← Nat.two_pow_add_eq_or_of_lt (by omega)]
    omega
  intro k hk
  unfold code code16
  rw [h]
  obtain rfl | rfl | rfl | rfl | rfl | rfl | rfl | rfl : k = 0 ∨ k = 1 ∨ k = 2 ∨ k = 3 ∨ k = 4 ∨
    k = 5 ∨ k = 6 ∨ k = 7 := by omega
  all_goals simp only [Nat.reducePow, Nat.reduceLT, Nat.reduceSub, if_true, if_false]; omega

/-- Sum of the four lengths of a group. -/
theorem gSize_of_codes {c : Byte} {v : Nat → U32} {i : Nat}
    (h : ∀ k < 4, code c k + 1 = byteLen (v (i + k))) : offs v (i + 4) = offs v i + gSize c := by
  rw [offs_four, gSize, h 0 (by omega), h 1 (by omega), h 2 (by omega), h 3 (by omega)]
  simp only [Nat.add_zero]; omega

/-- The numbers of the second half must not lie where the first half is written. -/
theorem put8_specO (v : Nat → U32) (i B : Nat) (inn : U32s) (out : Bytes) (m : Mem)
    (hT : TablesLoaded m) (hh : out.blk.isConst = false) (hB : out.off = B + offs v i)
    (hd : ∀ q, Seg inn.blk (inn.off + 16) (inn.off + 4 * inn.len) q → q.off < out.off + 16 →
      ¬ Seg out.blk out.off (out.off + out.len) q)
    (hv : ∀ k < 8, k < inn.len → wordAt m inn.blk (inn.off + 4 * k) = v (i + k)) :
    wp ⟨fun q => Seg inn.blk inn.off (inn.off + 32) q ∨ inTables q,
        Seg out.blk (B + offs v i) (B + offs v (i + 8)),
        fun k _ => boundsPanic k ∧ ¬ (8 ≤ inn.len ∧ B + offs v (i + 8) ≤ out.off + out.len)⟩
      (put8uint32Scalar inn out) m
      (fun c m' => 8 ≤ inn.len ∧ B + offs v (i + 8) ≤ out.off + out.len ∧
        (∀ k < 8, code16 c k + 1 = byteLen (v (i + k))) ∧ Stored m' out.blk B v i (i + 8)) := by
  have m48 := offs_bounds v (show i + 4 ≤ i + 8 by omega)
  have m04 := offs_bounds v (show i ≤ i + 4 by omega)
  unfold put8uint32Scalar
  simp only [Prog.bind_eq, Prog.pure_eq]
  refine wp_call (put4_spec v i B inn out m hB (fun h k hk => hv k (by omega) (by omega))) ?_ ?_ ?_ ?_
  · rintro q ⟨h1, h2, h3⟩; exact .inl ⟨h1, h2, by omega⟩
  · rintro q ⟨h1, h2, h3⟩; exact ⟨h1, h2, by omega⟩
  · rintro k m' - ⟨h1, h2⟩; exact ⟨h1, by omega⟩
  rintro c1 m1 hf1 ⟨hi1, hl1, hc1, hs1⟩
  have hT1 : TablesLoaded m1 := hT.frame fun q hq => hf1 q (fun h => by
    rw [h.1, hh] at hq; exact absurd hq (by decide))
  have hsz := gSize_of_codes hc1
  have hin : ∀ k < 8, 4 ≤ k → k < inn.len → wordAt m1 inn.blk (inn.off + 4 * k) = wordAt m inn.blk (inn.off + 4 * k) := by
    intro k hk hk4 hk'
    apply wordAt_congr
    intro j hj
    apply hf1
    intro h
    exact hd ⟨inn.blk, inn.off + 4 * k + j⟩ ⟨rfl, by simp only; omega, by simp only; omega⟩
      (by have := h.2.2; simp only at this ⊢; omega) ⟨h.1, by rw [hB]; exact h.2.1, Nat.lt_of_lt_of_le h.2.2 (by omega)⟩
  refine wp_call (controlByteToSize_spec c1 m1 hT1) (fun _ h => .inr h) (fun _ h => h.elim)
    (fun _ _ _ h => h.elim) ?_
  rintro _ _ - ⟨rfl, rfl⟩
  rw [wp_bind]; refine wp_from_ok 4 rfl (by omega) ?_
  rw [wp_bind]; refine wp_from_ok (gSize c1) rfl (by omega) ?_
  refine wp_call (put4_spec v (i + 4) B ⟨inn.blk, inn.off + 4 * 4, inn.len - 4, inn.cap - 4⟩
    ⟨out.blk, out.off + 1 * gSize c1, out.len - gSize c1, out.cap - gSize c1⟩ m1 (by simp only; omega)
    ?_) ?_ ?_ ?_ ?_
  · simp only
    intro h k hk
    rw [show inn.off + 4 * 4 + 4 * k = inn.off + 4 * (4 + k) by omega, hin (4 + k) (by omega) (by omega) (by omega),
      hv (4 + k) (by omega) (by omega), Nat.add_assoc]
  · rintro q ⟨h1, h2, h3⟩; simp only at h1 h2 h3; exact .inl ⟨h1, by omega, by omega⟩
  · rintro q ⟨h1, h2, h3⟩; simp only at h1 h2 h3
    rw [show i + 4 + 4 = i + 8 by omega] at h3; exact ⟨h1, by omega, h3⟩
  · rintro k m' - ⟨h1, h2⟩
    simp only at h2
    rw [show i + 4 + 4 = i + 8 by omega] at h2
    exact ⟨h1, by omega⟩
  rintro c2 m2 hf2 ⟨hi2, hl2, hc2, hs2⟩
  simp only [show i + 4 + 4 = i + 8 by omega] at hi2 hl2 hc2 hs2 hf2
  refine ⟨by omega, by omega, ?_, ?_⟩
  · intro k hk
    rw [show (0 ||| BitVec.setWidth 16 c1 : U16) = BitVec.setWidth 16 c1 by simp, code16_mk c1 c2 k hk]
    split
    · exact hc1 k (by omega)
    · rw [hc2 (k - 4) (by omega), show i + 4 + (k - 4) = i + k by omega]
  · exact (hs1.frame fun q hq => hf2 q (fun h => by have := hq.2.2; have := h.2.1; omega)).append hs2

theorem put8_spec (v : Nat → U32) (i B : Nat) (inn : U32s) (out : Bytes) (m : Mem)
    (hT : TablesLoaded m) (hh : out.blk.isConst = false) (hB : out.off = B + offs v i)
    (hd : ∀ q, Seg inn.blk inn.off (inn.off + 4 * inn.len) q →
      ¬ Seg out.blk out.off (out.off + out.len) q)
    (hv : ∀ k < 8, k < inn.len → wordAt m inn.blk (inn.off + 4 * k) = v (i + k)) :
    wp ⟨fun q => Seg inn.blk inn.off (inn.off + 32) q ∨ inTables q,
        Seg out.blk (B + offs v i) (B + offs v (i + 8)),
        fun k _ => boundsPanic k ∧ ¬ (8 ≤ inn.len ∧ B + offs v (i + 8) ≤ out.off + out.len)⟩
      (put8uint32Scalar inn out) m
      (fun c m' => 8 ≤ inn.len ∧ B + offs v (i + 8) ≤ out.off + out.len ∧
        (∀ k < 8, code16 c k + 1 = byteLen (v (i + k))) ∧ Stored m' out.blk B v i (i + 8)) :=
  put8_specO v i B inn out m hT hh hB (fun q h _ => hd q ⟨h.1, by have := h.2.1; omega, h.2.2⟩) hv

theorem put8Delta_spec (v : Nat → U32) (i B : Nat) (inn : U32s) (out : Bytes) (prev : U32) (m : Mem)
    (hT : TablesLoaded m) (hh : out.blk.isConst = false) (hB : out.off = B + offs v i)
    (hd : ∀ q, Seg inn.blk inn.off (inn.off + 4 * inn.len) q →
      ¬ Seg out.blk out.off (out.off + out.len) q)
    (hv0 : 4 ≤ inn.len → wordAt m inn.blk inn.off - prev = v i)
    (hv : ∀ k < 7, k + 1 < inn.len → wordAt m inn.blk (inn.off + 4 * (k + 1)) -
      wordAt m inn.blk (inn.off + 4 * k) = v (i + (k + 1))) :
    wp ⟨fun q => Seg inn.blk inn.off (inn.off + 32) q ∨ inTables q,
        Seg out.blk (B + offs v i) (B + offs v (i + 8)),
        fun k _ => boundsPanic k ∧ ¬ (8 ≤ inn.len ∧ B + offs v (i + 8) ≤ out.off + out.len)⟩
      (put8uint32DeltaScalar inn out prev) m
      (fun c m' => 8 ≤ inn.len ∧ B + offs v (i + 8) ≤ out.off + out.len ∧
        (∀ k < 8, code16 c k + 1 = byteLen (v (i + k))) ∧ Stored m' out.blk B v i (i + 8)) := by
  have m48 := offs_bounds v (show i + 4 ≤ i + 8 by omega)
  have m04 := offs_bounds v (show i ≤ i + 4 by omega)
  unfold put8uint32DeltaScalar
  simp only [Prog.bind_eq, Prog.pure_eq]
  refine wp_call (put4Delta_spec v i B inn out prev m hB hv0 (fun h k hk => hv k (by omega) (by omega))) ?_ ?_ ?_ ?_
  · rintro q ⟨h1, h2, h3⟩; exact .inl ⟨h1, h2, by omega⟩
  · rintro q ⟨h1, h2, h3⟩; exact ⟨h1, h2, by omega⟩
  · rintro k m' - ⟨h1, h2⟩; exact ⟨h1, by omega⟩
  rintro c1 m1 hf1 ⟨hi1, hl1, hc1, hs1⟩
  have hT1 : TablesLoaded m1 := hT.frame fun q hq => hf1 q (fun h => by
    rw [h.1, hh] at hq; exact absurd hq (by decide))
  have hsz := gSize_of_codes hc1
  have hin : ∀ k < 8, k < inn.len → wordAt m1 inn.blk (inn.off + 4 * k) = wordAt m inn.blk (inn.off + 4 * k) := by
    intro k hk hk'
    apply wordAt_congr
    intro j hj
    apply hf1
    intro h
    exact hd ⟨inn.blk, inn.off + 4 * k + j⟩ ⟨rfl, by simp only; omega, by simp only; omega⟩
      ⟨h.1, by rw [hB]; exact h.2.1, Nat.lt_of_lt_of_le h.2.2 (by omega)⟩
  refine wp_call (controlByteToSize_spec c1 m1 hT1) (fun _ h => .inr h) (fun _ h => h.elim)
    (fun _ _ _ h => h.elim) ?_
  rintro _ _ - ⟨rfl, rfl⟩
  rw [wp_bind]; refine wp_from_ok 4 rfl (by omega) ?_
  rw [wp_bind]; refine wp_from_ok (gSize c1) rfl (by omega) ?_
  rw [wp_bind]; refine wp_getW_ok 3 rfl (by omega) (fun k hk => ?_) ?_
  · exact .inl ⟨rfl, by simp only; omega, by simp only; omega⟩
  refine wp_call (put4Delta_spec v (i + 4) B ⟨inn.blk, inn.off + 4 * 4, inn.len - 4, inn.cap - 4⟩
    ⟨out.blk, out.off + 1 * gSize c1, out.len - gSize c1, out.cap - gSize c1⟩ _ m1 (by simp only; omega)
    ?_ ?_) ?_ ?_ ?_ ?_
  · simp only
    intro h
    rw [hin 3 (by omega) (by omega), show inn.off + 4 * 4 = inn.off + 4 * (3 + 1) from rfl, 
      hin (3 + 1) (by omega) (by omega)]
    exact hv 3 (by omega) (by omega)
  · simp only
    intro h k hk
    rw [show inn.off + 4 * 4 + 4 * (k + 1) = inn.off + 4 * (k + 4 + 1) by omega,
      show inn.off + 4 * 4 + 4 * k = inn.off + 4 * (k + 4) by omega,
      hin (k + 4 + 1) (by omega) (by omega), hin (k + 4) (by omega) (by omega),
      show i + 4 + (k + 1) = i + (k + 4 + 1) by omega]
    exact hv (k + 4) (by omega) (by omega)
  · rintro q ⟨h1, h2, h3⟩; simp only at h1 h2 h3; exact .inl ⟨h1, by omega, by omega⟩
  · rintro q ⟨h1, h2, h3⟩; simp only at h1 h2 h3
    rw [show i + 4 + 4 = i + 8 by omega] at h3; exact ⟨h1, by omega, h3⟩
  · rintro k m' - ⟨h1, h2⟩
    simp only at h2
    rw [show i + 4 + 4 = i + 8 by omega] at h2
    exact ⟨h1, by omega⟩
  rintro c2 m2 hf2 ⟨hi2, hl2, hc2, hs2⟩
  simp only [show i + 4 + 4 = i + 8 by omega] at hi2 hl2 hc2 hs2 hf2
  refine ⟨by omega, by omega, ?_, ?_⟩
  · intro k hk
    rw [show (0 ||| BitVec.setWidth 16 c1 : U16) = BitVec.setWidth 16 c1 by simp, code16_mk c1 c2 k hk]
    split
    · exact hc1 k (by omega)
    · rw [hc2 (k - 4) (by omega), show i + 4 + (k - 4) = i + k by omega]
  · exact (hs1.frame fun q hq => hf2 q (fun h => by have := hq.2.2; have := h.2.1; omega)).append hs2

/-- Adding code number `j` to a control byte with codes `0 … j-1`. -/
theorem orCode_all : ∀ j < 4, ∀ s < 4, ∀ c : Byte, c.toNat < 4 ^ j →
    (c ||| (BitVec.ofInt 8 ((s : Nat) : Int)) <<< (2 * j)).toNat < 4 ^ (j + 1) ∧
    ∀ k < 4, code (c ||| (BitVec.ofInt 8 ((s : Nat) : Int)) <<< (2 * j)) k =
      if k = j then s else code c k := by
  have key : ∀ j < 4, ∀ s < 4, ∀ c < 256, c < 4 ^ j →
      (BitVec.ofNat 8 c ||| (BitVec.ofInt 8 ((s : Nat) : Int)) <<< (2 * j)).toNat < 4 ^ (j + 1) ∧
      ∀ k < 4, code (BitVec.ofNat 8 c ||| (BitVec.ofInt 8 ((s : Nat) : Int)) <<< (2 * j)) k =
        if k = j then s else code (BitVec.ofNat 8 c) k := by decide +kernel
  intro j hj s hs c hc
  have := key j hj s hs c.toNat c.isLt hc
  simpa only [BitVec.ofNat_toNat, BitVec.setWidth_eq] using this

theorem putUint32_spec (v : Nat → U32) (i B : Nat) (inn : U32s) (out : Bytes) (count : Int)
    (m : Mem) (n : Nat) (hn : n = min count.toNat 4) (hB : out.off = B + offs v i)
    (hd : ∀ q, Seg inn.blk inn.off (inn.off + 4 * inn.len) q →
      ¬ Seg out.blk out.off (out.off + out.len) q)
    (hv : ∀ k < 4, k < inn.len → wordAt m inn.blk (inn.off + 4 * k) = v (i + k)) :
    wp ⟨Seg inn.blk inn.off (inn.off + 4 * n), Seg out.blk (B + offs v i) (B + offs v (i + n)),
        fun k _ => boundsPanic k ∧ ¬ (n ≤ inn.len ∧ B + offs v (i + n) ≤ out.off + out.len)⟩
      (putUint32Scalar inn out count) m
      (fun c m' => n ≤ inn.len ∧ B + offs v (i + n) ≤ out.off + out.len ∧
        (∀ k < 4, code c k + 1 = if k < n then byteLen (v (i + k)) else 1) ∧
        Stored m' out.blk B v i (i + n)) := by
  unfold putUint32Scalar
  simp only [Prog.bind_eq, Prog.pure_eq]
  by_cases hc : count = 0
  · simp only [hc, if_true]
    have : n = 0 := by omega
    subst this
    refine ⟨by omega, by simp only [Nat.add_zero]; omega, ?_, Stored.nil _ _ _ _ _⟩
    intro k hk
    obtain rfl | rfl | rfl | rfl : k = 0 ∨ k = 1 ∨ k = 2 ∨ k = 3 := by omega
    all_goals simp [code]
  simp only [hc, if_false]
  rw [wp_bind]
  refine wp_loop (fun (s : PutSt) m' => ∃ j : Nat, s.i = (j : Int) ∧ j ≤ n ∧ j ≤ inn.len ∧ s.shift = 2 * j ∧
      s.total + (offs v i : Int) = (offs v (i + j) : Int) ∧ B + offs v (i + j) ≤ out.off + out.len ∧
      s.ctrl.toNat < 4 ^ j ∧
      (∀ k < j, code s.ctrl k + 1 = byteLen (v (i + k))) ∧ Stored m' out.blk B v i (i + j) ∧
      (∀ q, ¬ Seg out.blk out.off (out.off + out.len) q → m' q = m q))
    (fun (s : PutSt) => (4 - s.i).toNat) ?_ ?_ ?_ ?_ ?_
  · rintro s m1 ⟨j, hj, hjn, hjl, hsh, htot, hlen, hlt, hcd, hst, hfr⟩ hcond
    have hjn' : j < n := by
      simp only [decide_eq_true_eq] at hcond
      split at hcond <;> omega
    have hmono := offs_bounds v (show i + j + 1 ≤ i + n by omega)
    have hmono0 := offs_mono v (show i ≤ i + j by omega)
    have ho := offs_one v (i + j)
    by_cases hjl' : j < inn.len
    · have hin : wordAt m1 inn.blk (inn.off + 4 * j) = wordAt m inn.blk (inn.off + 4 * j) := by
        apply wordAt_congr
        intro k hk
        apply hfr
        exact hd _ ⟨rfl, by simp only; omega, by simp only; omega⟩
      rw [wp_bind]
      refine wp_getW_ok j hj hjl' (fun k hk => ⟨rfl, by simp only; omega, by simp only; omega⟩) ?_
      rw [hin, hv j (by omega) (by omega)]
      rw [wp_bind]
      refine wp_from_ok (offs v (i + j) - offs v i) (by omega) (by omega) ?_
      refine wp_call (encodeOne_spec (v (i + j)) _ m1) (fun _ h => h.elim) ?_ ?_ ?_
      · rintro q ⟨h1, h2, h3⟩; simp only at h1 h2 h3; exact ⟨h1, by omega, by omega⟩
      · rintro k m' - ⟨rfl, h⟩; simp only at h; exact ⟨.inl rfl, by omega⟩
      rintro _ m2 hf2 ⟨rfl, hl2, hs2⟩
      simp only [Nat.one_mul] at hf2 hl2 hs2
      have hin2 : wordAt m2 inn.blk (inn.off + 4 * j) = wordAt m inn.blk (inn.off + 4 * j) := by
        rw [← hin]
        apply wordAt_congr
        intro k hk
        apply hf2
        intro h
        exact hd ⟨inn.blk, inn.off + 4 * j + k⟩ ⟨rfl, by simp only; omega, by simp only; omega⟩
          ⟨h.1, by have := h.2.1; simp only at this ⊢; omega, by have := h.2.2; simp only at this ⊢; omega⟩
      have hb := byteLen_bounds (v (i + j))
      have hor := orCode_all j (by omega) (byteLen (v (i + j)) - 1) (by omega) s.ctrl hlt
      rw [show ((byteLen (v (i + j)) - 1 : Nat) : Int) = (byteLen (v (i + j)) : Int) - 1 by omega,
        ← hsh] at hor
      refine ⟨⟨j + 1, by simp only; omega, by omega, by omega, by simp only; omega, by simp only [← Nat.add_assoc]; omega,
        by simp only [← Nat.add_assoc]; omega, hor.1, ?_, ?_, ?_⟩, by simp only; omega⟩
      · intro k hk
        have := hor.2 k (by omega)
        simp only
        rw [this]
        split
        · subst k; omega
        · exact hcd k (by omega)
      · refine (hst.frame fun q hq => hf2 q (fun h => by have := hq.2.2; have := h.2.1; omega)).append ?_
        refine .one ?_
        rwa [show out.off + (offs v (i + j) - offs v i) = B + offs v (i + j) by omega] at hs2
      · intro q hq
        rw [hf2 q, hfr q hq]
        rintro ⟨h1, h2, h3⟩
        exact hq ⟨h1, by omega, by omega⟩
    · rw [wp_bind]
      exact wp_getW (fun a h h' => by omega) (fun _ => ⟨.inl rfl, by omega⟩)
  · rintro s m1 ⟨j, hj, hjn, hjl, hsh, htot, hlen, hlt, hcd, hst, hfr⟩ hcond
    simp only [decide_eq_true_eq] at hcond
    split at hcond <;> omega
  · rintro s m1 ⟨j, hj, hjn, hjl, hsh, htot, hlen, hlt, hcd, hst, hfr⟩ hcond
    simp only [decide_eq_false_iff_not] at hcond
    have : j = n := by split at hcond <;> omega
    subst this
    refine ⟨hjl, hlen, ?_, hst⟩
    intro k hk
    split
    · exact hcd k (by assumption)
    · have : code s.ctrl k = 0 := by
        unfold code
        rw [Nat.div_eq_of_lt]
        exact Nat.lt_of_lt_of_le hlt (Nat.pow_le_pow_right (by omega) (by omega))
      omega
  · exact ⟨0, rfl, by omega, by omega, rfl, by simp, by simp only [Nat.add_zero]; omega, by simp,
      fun k hk => by omega, Stored.nil _ _ _ _ _, fun _ _ => rfl⟩
  · simp

theorem putUint32Delta_spec (v : Nat → U32) (i B : Nat) (inn : U32s) (out : Bytes) (count : Int) (prev : U32)
    (m : Mem) (n : Nat) (hn : n = min count.toNat 4) (hB : out.off = B + offs v i)
    (hd : ∀ q, Seg inn.blk inn.off (inn.off + 4 * inn.len) q →
      ¬ Seg out.blk out.off (out.off + out.len) q)
    (hv0 : 0 < inn.len → wordAt m inn.blk inn.off - prev = v i)
    (hv : ∀ k < 3, k + 1 < inn.len → wordAt m inn.blk (inn.off + 4 * (k + 1)) -
      wordAt m inn.blk (inn.off + 4 * k) = v (i + (k + 1))) :
    wp ⟨Seg inn.blk inn.off (inn.off + 4 * n), Seg out.blk (B + offs v i) (B + offs v (i + n)),
        fun k _ => boundsPanic k ∧ ¬ (n ≤ inn.len ∧ B + offs v (i + n) ≤ out.off + out.len)⟩
      (putUint32DeltaScalar inn out count prev) m
      (fun c m' => n ≤ inn.len ∧ B + offs v (i + n) ≤ out.off + out.len ∧
        (∀ k < 4, code c k + 1 = if k < n then byteLen (v (i + k)) else 1) ∧
        Stored m' out.blk B v i (i + n)) := by
  unfold putUint32DeltaScalar
  simp only [Prog.bind_eq, Prog.pure_eq]
  by_cases hc : count = 0
  · simp only [hc, if_true]
    have : n = 0 := by omega
    subst this
    refine ⟨by omega, by simp only [Nat.add_zero]; omega, ?_, Stored.nil _ _ _ _ _⟩
    intro k hk
    obtain rfl | rfl | rfl | rfl : k = 0 ∨ k = 1 ∨ k = 2 ∨ k = 3 := by omega
    all_goals simp [code]
  simp only [hc, if_false]
  rw [wp_bind]
  refine wp_loop (fun (s : PutSt) m' => ∃ j : Nat, s.i = (j : Int) ∧ j ≤ n ∧ j ≤ inn.len ∧ s.shift = 2 * j ∧
      s.total + (offs v i : Int) = (offs v (i + j) : Int) ∧ B + offs v (i + j) ≤ out.off + out.len ∧
      s.ctrl.toNat < 4 ^ j ∧
      (∀ k < j, code s.ctrl k + 1 = byteLen (v (i + k))) ∧ Stored m' out.blk B v i (i + j) ∧
      (∀ q, ¬ Seg out.blk out.off (out.off + out.len) q → m' q = m q) ∧
      (s.i = 0 → s.prev = prev) ∧
      (∀ j : Nat, s.i = ((j + 1 : Nat) : Int) → s.prev = wordAt m inn.blk (inn.off + 4 * j)))
    (fun (s : PutSt) => (4 - s.i).toNat) ?_ ?_ ?_ ?_ ?_
  · rintro s m1 ⟨j, hj, hjn, hjl, hsh, htot, hlen, hlt, hcd, hst, hfr, hp0, hp1⟩ hcond
    have hjn' : j < n := by
      simp only [decide_eq_true_eq] at hcond
      split at hcond <;> omega
    have hmono := offs_bounds v (show i + j + 1 ≤ i + n by omega)
    have hmono0 := offs_mono v (show i ≤ i + j by omega)
    have ho := offs_one v (i + j)
    by_cases hjl' : j < inn.len
    · have hin : wordAt m1 inn.blk (inn.off + 4 * j) = wordAt m inn.blk (inn.off + 4 * j) := by
        apply wordAt_congr
        intro k hk
        apply hfr
        exact hd _ ⟨rfl, by simp only; omega, by simp only; omega⟩
      rw [wp_bind]
      refine wp_getW_ok j hj hjl' (fun k hk => ⟨rfl, by simp only; omega, by simp only; omega⟩) ?_
      have hval : wordAt m1 inn.blk (inn.off + 4 * j) - s.prev = v (i + j) := by
        rw [hin]
        rcases Nat.eq_zero_or_pos j with h0 | h0
        · subst h0
          rw [hp0 (by omega)]
          exact hv0 (by omega)
        · have := hp1 (j - 1) (by omega)
          rw [this]
          have := hv (j - 1) (by omega) (by omega)
          rwa [show j - 1 + 1 = j by omega] at this
      rw [hval]
      rw [wp_bind]
      refine wp_from_ok (offs v (i + j) - offs v i) (by omega) (by omega) ?_
      refine wp_call (encodeOne_spec (v (i + j)) _ m1) (fun _ h => h.elim) ?_ ?_ ?_
      · rintro q ⟨h1, h2, h3⟩; simp only at h1 h2 h3; exact ⟨h1, by omega, by omega⟩
      · rintro k m' - ⟨rfl, h⟩; simp only at h; exact ⟨.inl rfl, by omega⟩
      rintro _ m2 hf2 ⟨rfl, hl2, hs2⟩
      simp only [Nat.one_mul] at hf2 hl2 hs2
      have hin2 : wordAt m2 inn.blk (inn.off + 4 * j) = wordAt m inn.blk (inn.off + 4 * j) := by
        rw [← hin]
        apply wordAt_congr
        intro k hk
        apply hf2
        intro h
        exact hd ⟨inn.blk, inn.off + 4 * j + k⟩ ⟨rfl, by simp only; omega, by simp only; omega⟩
          ⟨h.1, by have := h.2.1; simp only at this ⊢; omega, by have := h.2.2; simp only at this ⊢; omega⟩
      have hb := byteLen_bounds (v (i + j))
      rw [wp_bind]
      refine wp_getW_ok j (by omega) (by omega)
        (fun k hk => ⟨rfl, by simp only; omega, by simp only; omega⟩) ?_
      have hor := orCode_all j (by omega) (byteLen (v (i + j)) - 1) (by omega) s.ctrl hlt
      rw [show ((byteLen (v (i + j)) - 1 : Nat) : Int) = (byteLen (v (i + j)) : Int) - 1 by omega,
        ← hsh] at hor
      refine ⟨⟨j + 1, by simp only; omega, by omega, by omega, by simp only; omega, by simp only [← Nat.add_assoc]; omega,
        by simp only [← Nat.add_assoc]; omega, hor.1, ?_, ?_, ?_, fun h => by simp only at h; omega, ?_⟩, by simp only; omega⟩
      · intro k hk
        have := hor.2 k (by omega)
        simp only
        rw [this]
        split
        · subst k; omega
        · exact hcd k (by omega)
      · refine (hst.frame fun q hq => hf2 q (fun h => by have := hq.2.2; have := h.2.1; omega)).append ?_
        refine .one ?_
        rwa [show out.off + (offs v (i + j) - offs v i) = B + offs v (i + j) by omega] at hs2
      · intro q hq
        rw [hf2 q, hfr q hq]
        rintro ⟨h1, h2, h3⟩
        exact hq ⟨h1, by omega, by omega⟩
      · intro j' hj'
        simp only at hj'
        have : j' = j := by omega
        subst this
        exact hin2
    · rw [wp_bind]
      exact wp_getW (fun a h h' => by omega) (fun _ => ⟨.inl rfl, by omega⟩)
  · rintro s m1 ⟨j, hj, hjn, hjl, hsh, htot, hlen, hlt, hcd, hst, hfr, hp0, hp1⟩ hcond
    simp only [decide_eq_true_eq] at hcond
    split at hcond <;> omega
  · rintro s m1 ⟨j, hj, hjn, hjl, hsh, htot, hlen, hlt, hcd, hst, hfr, hp0, hp1⟩ hcond
    simp only [decide_eq_false_iff_not] at hcond
    have : j = n := by split at hcond <;> omega
    subst this
    refine ⟨hjl, hlen, ?_, hst⟩
    intro k hk
    split
    · exact hcd k (by assumption)
    · have : code s.ctrl k = 0 := by
        unfold code
        rw [Nat.div_eq_of_lt]
        exact Nat.lt_of_lt_of_le hlt (Nat.pow_le_pow_right (by omega) (by omega))
      omega
  · exact ⟨0, rfl, by omega, by omega, rfl, by simp, by simp only [Nat.add_zero]; omega, by simp,
      fun k hk => by omega, Stored.nil _ _ _ _ _, fun _ _ => rfl, fun _ => rfl, fun j h => by simp only at h; omega⟩
  · simp

end SVB
