import Verif.Proofs.EncScalar
import Verif.Model.Decode

/-! # Specifications of the scalar block decoders (`Verif/Model/Decode.lean`) -/

set_option linter.unusedSimpArgs false

namespace SVB
open Spec

theorem orShift (n : Nat) (a : U32) (x : Byte) (h1 : a.toNat < 2 ^ n) (h3 : 256 * 2 ^ n ≤ 2 ^ 32) :
    ((BitVec.setWidth 32 x) <<< n ||| a).toNat = x.toNat * 2 ^ n + a.toNat := by
  have hx := x.isLt
  have : x.toNat * 2 ^ n < 2 ^ 32 :=
    Nat.lt_of_lt_of_le (Nat.mul_lt_mul_of_pos_right hx (Nat.two_pow_pos n)) h3
  rw [BitVec.toNat_or, BitVec.toNat_shiftLeft, BitVec.toNat_setWidth,
    Nat.mod_eq_of_lt (show x.toNat < 2 ^ 32 by omega),
    Nat.shiftLeft_eq, Nat.mod_eq_of_lt this, Nat.mul_comm x.toNat, ← Nat.two_pow_add_eq_or_of_lt h1]

theorem le1 (x0 : Byte) : (BitVec.setWidth 32 x0).toNat = x0.toNat := by
  have := x0.isLt; simp only [BitVec.toNat_setWidth]; omega

theorem le2 (x0 x1 : Byte) : ((BitVec.setWidth 32 x1) <<< 8 ||| BitVec.setWidth 32 x0).toNat =
    x0.toNat + 256 * x1.toNat := by
  have := x0.isLt; have := x1.isLt
  rw [orShift 8 _ _ (by rw [le1]; omega) (by omega), le1]; omega

theorem le3 (x0 x1 x2 : Byte) : ((BitVec.setWidth 32 x2) <<< 16 ||| (BitVec.setWidth 32 x1) <<< 8 |||
    BitVec.setWidth 32 x0).toNat = x0.toNat + 256 * (x1.toNat + 256 * x2.toNat) := by
  have := x0.isLt; have := x1.isLt; have := x2.isLt
  rw [BitVec.or_assoc, orShift 16 _ _ (by rw [le2]; omega) (by omega), le2]; omega

theorem le4 (x0 x1 x2 x3 : Byte) : ((BitVec.setWidth 32 x3) <<< 24 ||| (BitVec.setWidth 32 x2) <<< 16 |||
    (BitVec.setWidth 32 x1) <<< 8 ||| BitVec.setWidth 32 x0).toNat =
    x0.toNat + 256 * (x1.toNat + 256 * (x2.toNat + 256 * x3.toNat)) := by
  have := x0.isLt; have := x1.isLt; have := x2.isLt; have := x3.isLt
  rw [BitVec.or_assoc, BitVec.or_assoc, ← BitVec.or_assoc (BitVec.setWidth 32 x2 <<< 16),
    orShift 24 _ _ (by rw [le3]; omega) (by omega), le3]; omega

theorem decodeOne_spec (b : Bytes) (size : Byte) (l : Nat) (hs : size.toNat = l) (h1 : 1 ≤ l) (h4 : l ≤ 4)
    (m : Mem) :
    wp ⟨Seg b.blk b.off (b.off + b.len), fun _ => False, fun k _ => k = .index ∧ b.len < l⟩
      (decodeOne b size) m
      (fun r m' => l ≤ b.len ∧ r.toNat = leNat m b.blk b.off l ∧ m = m') := by
  have hR : ∀ k < b.len, Seg b.blk b.off (b.off + b.len) ⟨b.blk, b.off + k⟩ :=
    fun k hk => ⟨rfl, by simp, by simpa using hk⟩
  have hsz : size = BitVec.ofNat 8 l := BitVec.eq_of_toNat_eq (by rw [hs, BitVec.toNat_ofNat]; omega)
  unfold decodeOne
  simp only [Prog.bind_eq, Prog.pure_eq]
  by_cases hl : b.len < l
  · obtain rfl | rfl | rfl | rfl : l = 4 ∨ l = 3 ∨ l = 2 ∨ l = 1 := by omega
    all_goals
      subst hsz
      simp (config := { decide := true }) only [if_true, if_false]
      rw [wp_bind]
      exact wp_getB (fun a _ _ => by omega) (fun _ => ⟨rfl, hl⟩)
  · obtain rfl | rfl | rfl | rfl : l = 4 ∨ l = 3 ∨ l = 2 ∨ l = 1 := by omega
    all_goals
      subst hsz
      simp (config := { decide := true }) only [if_true, if_false]
      try (rw [wp_bind]; refine wp_getB_ok 3 rfl (by omega) (hR 3 (by omega)) ?_)
      try (rw [wp_bind]; refine wp_getB_ok 2 rfl (by omega) (hR 2 (by omega)) ?_)
      try (rw [wp_bind]; refine wp_getB_ok 1 rfl (by omega) (hR 1 (by omega)) ?_)
      rw [wp_bind]; refine wp_getB_ok 0 rfl (by omega) (hR 0 (by omega)) ?_
      refine ⟨by omega, ?_, rfl⟩
      simp only [leNat, Nat.add_assoc, Nat.reduceAdd, Nat.add_zero, Nat.mul_zero]
      first | rw [le4] | rw [le3] | rw [le2] | rw [le1]

/-- Number `t` of the data starting at `B` has value `d t`, for `i ≤ t < j`; lengths given by `sz`. -/
def Dec (m : Mem) (b : Block) (B : Nat) (sz : Nat → Nat) (d : Nat → U32) (i j : Nat) : Prop :=
  ∀ t, i ≤ t → t < j → leNat m b (B + psum sz t) (sz t) = (d t).toNat

theorem Dec.frame {m m' : Mem} {b : Block} {B : Nat} {sz : Nat → Nat} {d : Nat → U32} {i j : Nat}
    (h : Dec m b B sz d i j) (hf : ∀ q, Seg b (B + psum sz i) (B + psum sz j) q → m' q = m q) :
    Dec m' b B sz d i j := by
  intro t h1 h2
  rw [← h t h1 h2]
  apply leNat_congr
  intro k hk
  apply hf
  have := psum_mono (f := sz) h1
  have h3 := psum_mono (f := sz) (show t + 1 ≤ j by omega)
  rw [psum_one] at h3
  exact ⟨rfl, by simp only; omega, by simp only; omega⟩

/-- The `perNumLenRow` look-up. -/
theorem perNumLenRow_spec (c : Byte) (m : Mem) (hT : TablesLoaded m) :
    wp ⟨inTables, fun _ => False, fun _ _ => False⟩ (perNumLenRow c) m
      (fun r m' => r.1.toNat = code c 0 + 1 ∧ r.2.1.toNat = code c 1 + 1 ∧ r.2.2.1.toNat = code c 2 + 1 ∧
        r.2.2.2.toNat = code c 3 + 1 ∧ m = m') := by
  have hlt := c.isLt
  unfold perNumLenRow
  simp only [Prog.bind_eq, Prog.pure_eq]
  rw [wp_bind]; refine wp_load8 (by simp only [inTables]; omega) ?_
  rw [wp_bind]; refine wp_load8 (by simp only [inTables]; omega) ?_
  rw [wp_bind]; refine wp_load8 (by simp only [inTables]; omega) ?_
  rw [wp_bind]; refine wp_load8 (by simp only [inTables]; omega) ?_
  exact ⟨hT.numLen' c 0 (by omega), hT.numLen' c 1 (by omega), hT.numLen' c 2 (by omega),
    hT.numLen' c 3 (by omega), rfl⟩

/-- Sizes `1 … 4` of four consecutive numbers read off a control byte. -/
structure Sizes (c : Byte) (sz : Nat → Nat) (i : Nat) : Prop where
  eq : ∀ k < 4, code c k + 1 = sz (i + k)

theorem Sizes.bounds {c : Byte} {sz : Nat → Nat} {i : Nat} (h : Sizes c sz i) :
    ∀ k < 4, 1 ≤ sz (i + k) ∧ sz (i + k) ≤ 4 := by
  intro k hk
  have := h.eq k hk
  have := code_lt c k
  omega

theorem Sizes.total {c : Byte} {sz : Nat → Nat} {i : Nat} (h : Sizes c sz i) :
    psum sz (i + 4) = psum sz i + gSize c := by
  have h0 := h.eq 0 (by omega); have h1 := h.eq 1 (by omega)
  have h2 := h.eq 2 (by omega); have h3 := h.eq 3 (by omega)
  simp only [Nat.add_zero] at h0
  rw [psum_four, gSize]; omega

/-- Nothing has been stored when the function panics: number 3 is decoded first.  No number may lie
where later ones, which are stored before it is decoded, go. -/
theorem get4_specO (sz : Nat → Nat) (d : Nat → U32) (i B : Nat) (inn : Bytes) (out : U32s) (ctrl : Byte)
    (m : Mem) (hT : TablesLoaded m) (hc : Sizes ctrl sz i) (hB : inn.off = B + psum sz i)
    (hd : B + psum sz (i + 4) ≤ inn.off + inn.len → Dec m inn.blk B sz d i (i + 4))
    (hdj : B + psum sz (i + 4) ≤ inn.off + inn.len → 4 ≤ out.len →
      ∀ t < 4, ∀ q, Seg inn.blk (B + psum sz (i + t)) (B + psum sz (i + t + 1)) q →
      ¬ Seg out.blk (out.off + 4 * (t + 1)) (out.off + 16) q) :
    wp ⟨fun q => Seg inn.blk inn.off (inn.off + inn.len) q ∨ inTables q,
        Seg out.blk out.off (out.off + 16),
        fun k m' => (boundsPanic k ∧ ¬ (4 ≤ out.len ∧ B + psum sz (i + 4) ≤ inn.off + inn.len)) ∧ m' = m⟩
      (get4uint32Scalar inn out ctrl) m
      (fun _ m' => 4 ≤ out.len ∧ B + psum sz (i + 4) ≤ inn.off + inn.len ∧
        ∀ k < 4, wordAt m' out.blk (out.off + 4 * k) = d (i + k)) := by
  have b0 := hc.bounds 0 (by omega); have b1 := hc.bounds 1 (by omega)
  have b2 := hc.bounds 2 (by omega); have b3 := hc.bounds 3 (by omega)
  have c0 := hc.eq 0 (by omega); have c1 := hc.eq 1 (by omega)
  have c2 := hc.eq 2 (by omega); have c3 := hc.eq 3 (by omega)
  simp only [Nat.add_zero] at b0 c0
  have p1 := psum_one sz i; have p2 := psum_two sz i; have p3 := psum_three sz i
  have p4 := psum_four sz i
  unfold get4uint32Scalar
  simp only [Prog.bind_eq, Prog.pure_eq]
  refine wp_call (perNumLenRow_spec ctrl m hT) (fun _ h => .inr h) (fun _ h => h.elim)
    (fun _ _ _ h => h.elim) ?_
  rintro ⟨l0, l1, l2, l3⟩ _ - ⟨e0, e1, e2, e3, rfl⟩
  simp only at e0 e1 e2 e3 ⊢
  rw [c0] at e0; rw [c1] at e1; rw [c2] at e2; rw [c3] at e3
  have e01 : (l0 + l1).toNat = sz i + sz (i + 1) := by rw [BitVec.toNat_add, e0, e1]; omega
  have e012 : (l0 + l1 + l2).toNat = sz i + sz (i + 1) + sz (i + 2) := by
    rw [BitVec.toNat_add, e01, e2]; omega
  have hW : ∀ a, a < 4 → ∀ k < 4, Seg out.blk out.off (out.off + 16) ⟨out.blk, out.off + 4 * a + k⟩ :=
    fun a ha k hk => ⟨rfl, by simp only; omega, by simp only; omega⟩
  -- number 3
  rw [wp_bind]
  refine wp_from ?_ (fun h => ⟨⟨.inr rfl, by omega⟩, rfl⟩)
  intro a3 ha3 hl3
  have : a3 = sz i + sz (i + 1) + sz (i + 2) := by omega
  subst this
  refine wp_call (decodeOne_spec _ l3 _ e3 b3.1 b3.2 m) ?_ (fun _ h => h.elim) ?_ ?_
  · rintro q ⟨h1, h2, h3⟩; simp only at h1 h2 h3; exact .inl ⟨h1, by omega, by omega⟩
  · rintro k m' hf ⟨rfl, h⟩; simp only at h; exact ⟨⟨.inl rfl, by omega⟩, funext fun q => hf q id⟩
  rintro r3 _ - ⟨hl3', hr3, rfl⟩
  simp only [Nat.one_mul] at hl3' hr3
  have hcond : B + psum sz (i + 4) ≤ inn.off + inn.len := by omega
  specialize hd hcond
  specialize hdj hcond
  rw [wp_bind]
  refine wp_setW ?_ (fun h => ⟨⟨.inl rfl, by omega⟩, rfl⟩)
  intro a ha hal
  have : a = 3 := by omega
  subst this
  specialize hdj (by omega)
  refine ⟨hW 3 (by omega), ?_⟩
  have hr3' : r3 = d (i + 3) := by
    apply BitVec.eq_of_toNat_eq
    rw [hr3, ← hd (i + 3) (by omega) (by omega)]
    congr 1; omega
  subst hr3'
  have hfr : ∀ (t : Nat) (m1 : Mem), (∀ q, ¬ Seg out.blk (out.off + 4 * (t + 1)) (out.off + 16) q → m1 q = m q) →
      ∀ (o l : Nat), o = B + psum sz (i + t) → l = sz (i + t) → t < 4 →
      leNat m1 inn.blk o l = (d (i + t)).toNat := by
    rintro t m1 hm1 _ _ rfl rfl h2
    rw [← hd (i + t) (by omega) (by omega)]
    refine leNat_congr fun k hk => hm1 _ (hdj t h2 _ ⟨rfl, by simp only; omega, ?_⟩)
    rw [psum_one]; simp only; omega
  have hset : ∀ (m1 : Mem) (a : Nat) (v : U32), a < 4 →
      (∀ q, ¬ Seg out.blk (out.off + 4 * (a + 1)) (out.off + 16) q → m1 q = m q) →
      (∀ q, ¬ Seg out.blk (out.off + 4 * a) (out.off + 16) q → m1.set32 out.blk (out.off + 4 * a) v q = m q) := by
    intro m1 a v ha hm1 q hq
    rw [set32_other _ _ _ _ _ (fun h => hq ⟨h.1, by omega, by omega⟩)]
    exact hm1 q fun h => hq ⟨h.1, by have := h.2.1; omega, h.2.2⟩
  have hm1 := hset m 3 (d (i + 3)) (by omega) (fun _ _ => rfl)
  generalize hg1 : m.set32 out.blk (out.off + 4 * 3) (d (i + 3)) = m1 at hm1 ⊢
  -- number 2
  rw [wp_bind]
  refine wp_from_ok (sz i + sz (i + 1)) (by omega) (by omega) ?_
  refine wp_call (decodeOne_spec _ l2 _ e2 b2.1 b2.2 m1) ?_ (fun _ h => h.elim) ?_ ?_
  · rintro q ⟨h1, h2, h3⟩; simp only at h1 h2 h3; exact .inl ⟨h1, by omega, by omega⟩
  · rintro k m' - ⟨rfl, h⟩; simp only at h; omega
  rintro r2 _ - ⟨hl2', hr2, rfl⟩
  have hr2' : r2 = d (i + 2) := BitVec.eq_of_toNat_eq (by
    rw [hr2]; exact hfr 2 m1 hm1 _ _ (by simp only; omega) rfl (by omega))
  subst hr2'
  rw [wp_bind]
  refine wp_setW_ok 2 rfl (by omega) (hW 2 (by omega)) ?_
  have hm2 := hset m1 2 (d (i + 2)) (by omega) hm1
  generalize hg2 : m1.set32 out.blk (out.off + 4 * 2) (d (i + 2)) = m2 at hm2 ⊢
  -- number 1
  rw [wp_bind]
  refine wp_from_ok (sz i) (by omega) (by omega) ?_
  refine wp_call (decodeOne_spec _ l1 _ e1 b1.1 b1.2 m2) ?_ (fun _ h => h.elim) ?_ ?_
  · rintro q ⟨h1, h2, h3⟩; simp only at h1 h2 h3; exact .inl ⟨h1, by omega, by omega⟩
  · rintro k m' - ⟨rfl, h⟩; simp only at h; omega
  rintro r1 _ - ⟨hl1', hr1, rfl⟩
  have hr1' : r1 = d (i + 1) := BitVec.eq_of_toNat_eq (by
    rw [hr1]; exact hfr 1 m2 hm2 _ _ (by simp only; omega) rfl (by omega))
  subst hr1'
  rw [wp_bind]
  refine wp_setW_ok 1 rfl (by omega) (hW 1 (by omega)) ?_
  have hm3 := hset m2 1 (d (i + 1)) (by omega) hm2
  generalize hg3 : m2.set32 out.blk (out.off + 4 * 1) (d (i + 1)) = m3 at hm3 ⊢
  -- number 0
  refine wp_call (decodeOne_spec _ l0 _ e0 b0.1 b0.2 m3) ?_ (fun _ h => h.elim) ?_ ?_
  · rintro q h; exact .inl h
  · rintro k m' - ⟨rfl, h⟩; omega
  rintro r0 _ - ⟨hl0', hr0, rfl⟩
  have hr0' : r0 = d i := BitVec.eq_of_toNat_eq (by
    rw [hr0]; exact hfr 0 m3 hm3 _ _ (by rw [Nat.add_zero]; omega) rfl (by omega))
  subst hr0'
  refine wp_setW_ok 0 rfl (by omega) (hW 0 (by omega)) ?_
  refine ⟨by omega, hcond, ?_⟩
  intro k hk
  obtain rfl | rfl | rfl | rfl : k = 0 ∨ k = 1 ∨ k = 2 ∨ k = 3 := by omega
  · exact wordAt_set32_self _ _ _ _
  · rw [wordAt_set32_other _ _ _ _ _ _ (by omega), ← hg3, wordAt_set32_self]
  · rw [wordAt_set32_other _ _ _ _ _ _ (by omega), ← hg3, wordAt_set32_other _ _ _ _ _ _ (by omega), ← hg2,
      wordAt_set32_self]
  · rw [wordAt_set32_other _ _ _ _ _ _ (by omega), ← hg3, wordAt_set32_other _ _ _ _ _ _ (by omega), ← hg2,
      wordAt_set32_other _ _ _ _ _ _ (by omega), ← hg1, wordAt_set32_self]

theorem get4_specP (sz : Nat → Nat) (d : Nat → U32) (i B : Nat) (inn : Bytes) (out : U32s) (ctrl : Byte)
    (m : Mem) (hT : TablesLoaded m) (hc : Sizes ctrl sz i) (hB : inn.off = B + psum sz i)
    (hd : B + psum sz (i + 4) ≤ inn.off + inn.len → Dec m inn.blk B sz d i (i + 4))
    (hdj : B + psum sz (i + 4) ≤ inn.off + inn.len → 4 ≤ out.len →
      ∀ q, Seg inn.blk (B + psum sz i) (B + psum sz (i + 4)) q →
      ¬ Seg out.blk out.off (out.off + 16) q) :
    wp ⟨fun q => Seg inn.blk inn.off (inn.off + inn.len) q ∨ inTables q,
        Seg out.blk out.off (out.off + 16),
        fun k m' => (boundsPanic k ∧ ¬ (4 ≤ out.len ∧ B + psum sz (i + 4) ≤ inn.off + inn.len)) ∧ m' = m⟩
      (get4uint32Scalar inn out ctrl) m
      (fun _ m' => 4 ≤ out.len ∧ B + psum sz (i + 4) ≤ inn.off + inn.len ∧
        ∀ k < 4, wordAt m' out.blk (out.off + 4 * k) = d (i + k)) :=
  get4_specO sz d i B inn out ctrl m hT hc hB hd fun h1 h2 t ht q hq h3 => hdj h1 h2 q
    ⟨hq.1, Nat.le_trans (Nat.add_le_add_left (psum_mono (by omega)) _) hq.2.1,
      Nat.lt_of_lt_of_le hq.2.2 (Nat.add_le_add_left (psum_mono (by omega)) _)⟩
    ⟨h3.1, by have := h3.2.1; omega, h3.2.2⟩

theorem get4_spec (sz : Nat → Nat) (d : Nat → U32) (i B : Nat) (inn : Bytes) (out : U32s) (ctrl : Byte)
    (m : Mem) (hT : TablesLoaded m) (hc : Sizes ctrl sz i) (hB : inn.off = B + psum sz i)
    (hd : B + psum sz (i + 4) ≤ inn.off + inn.len → Dec m inn.blk B sz d i (i + 4))
    (hdj : B + psum sz (i + 4) ≤ inn.off + inn.len → 4 ≤ out.len →
      ∀ q, Seg inn.blk (B + psum sz i) (B + psum sz (i + 4)) q →
      ¬ Seg out.blk out.off (out.off + 16) q) :
    wp ⟨fun q => Seg inn.blk inn.off (inn.off + inn.len) q ∨ inTables q,
        Seg out.blk out.off (out.off + 16),
        fun k _ => boundsPanic k ∧ ¬ (4 ≤ out.len ∧ B + psum sz (i + 4) ≤ inn.off + inn.len)⟩
      (get4uint32Scalar inn out ctrl) m
      (fun _ m' => 4 ≤ out.len ∧ B + psum sz (i + 4) ≤ inn.off + inn.len ∧
        ∀ k < 4, wordAt m' out.blk (out.off + 4 * k) = d (i + k)) :=
  wp_conseq (get4_specP sz d i B inn out ctrl m hT hc hB hd hdj) (fun _ h => h) (fun _ h => h) (fun _ _ _ h => h.1)
    fun _ _ _ h => h

theorem get4Delta_spec (sz : Nat → Nat) (d y : Nat → U32) (i B : Nat) (inn : Bytes) (out : U32s) (ctrl : Byte)
    (prev : U32) (m : Mem) (hT : TablesLoaded m) (hc : Sizes ctrl sz i) (hB : inn.off = B + psum sz i)
    (hd : B + psum sz (i + 4) ≤ inn.off + inn.len → Dec m inn.blk B sz d i (i + 4))
    (hdj : B + psum sz (i + 4) ≤ inn.off + inn.len → 4 ≤ out.len →
      ∀ q, Seg inn.blk (B + psum sz i) (B + psum sz (i + 4)) q → ¬ Seg out.blk out.off (out.off + 16) q)
    (hy0 : y i = d i + prev) (hy : ∀ k < 3, y (i + (k + 1)) = d (i + (k + 1)) + y (i + k)) :
    wp ⟨fun q => Seg inn.blk inn.off (inn.off + inn.len) q ∨ inTables q ∨
          Seg out.blk out.off (out.off + 16) q,
        Seg out.blk out.off (out.off + 16),
        fun k _ => boundsPanic k ∧ ¬ (4 ≤ out.len ∧ B + psum sz (i + 4) ≤ inn.off + inn.len)⟩
      (get4uint32DeltaScalar inn out ctrl prev) m
      (fun _ m' => 4 ≤ out.len ∧ B + psum sz (i + 4) ≤ inn.off + inn.len ∧
        ∀ k < 4, wordAt m' out.blk (out.off + 4 * k) = y (i + k)) := by
  have b0 := hc.bounds 0 (by omega); have b1 := hc.bounds 1 (by omega)
  have b2 := hc.bounds 2 (by omega); have b3 := hc.bounds 3 (by omega)
  have c0 := hc.eq 0 (by omega); have c1 := hc.eq 1 (by omega)
  have c2 := hc.eq 2 (by omega); have c3 := hc.eq 3 (by omega)
  simp only [Nat.add_zero] at b0 c0
  have p1 := psum_one sz i; have p2 := psum_two sz i; have p3 := psum_three sz i
  have p4 := psum_four sz i
  unfold get4uint32DeltaScalar
  simp only [Prog.bind_eq, Prog.pure_eq]
  refine wp_call (perNumLenRow_spec ctrl m hT) (fun _ h => .inr (.inl h)) (fun _ h => h.elim)
    (fun _ _ _ h => h.elim) ?_
  rintro ⟨l0, l1, l2, l3⟩ _ - ⟨e0, e1, e2, e3, rfl⟩
  simp only at e0 e1 e2 e3 ⊢
  rw [c0] at e0; rw [c1] at e1; rw [c2] at e2; rw [c3] at e3
  have e01 : (l0 + l1).toNat = sz i + sz (i + 1) := by rw [BitVec.toNat_add, e0, e1]; omega
  have e012 : (l0 + l1 + l2).toNat = sz i + sz (i + 1) + sz (i + 2) := by
    rw [BitVec.toNat_add, e01, e2]; omega
  have hW : ∀ a, a < 4 → ∀ k < 4, Seg out.blk out.off (out.off + 16) ⟨out.blk, out.off + 4 * a + k⟩ :=
    fun a ha k hk => ⟨rfl, by simp only; omega, by simp only; omega⟩
  rw [wp_bind]
  refine wp_getW ?_ (fun h => ⟨.inl rfl, by omega⟩)
  intro a ha hal
  have : a = 3 := by omega
  subst this
  refine ⟨fun k hk => .inr (.inr (hW 3 (by omega) k hk)), ?_⟩
  have hfr : ∀ (m1 : Mem), (∀ q, ¬ Seg out.blk out.off (out.off + 16) q → m1 q = m q) →
      B + psum sz (i + 4) ≤ inn.off + inn.len →
      ∀ (o l t : Nat), o = B + psum sz t → l = sz t → i ≤ t → t < i + 4 →
      leNat m1 inn.blk o l = (d t).toNat := by
    rintro m1 hm1 hcond _ _ t rfl rfl h1 h2
    exact ((hd hcond).frame (m' := m1) fun q hq => hm1 q (hdj hcond (by omega) q hq)) t h1 h2
  have hset : ∀ (m1 : Mem) (a : Nat) (v : U32), a < 4 →
      (∀ q, ¬ Seg out.blk out.off (out.off + 16) q → m1 q = m q) →
      (∀ q, ¬ Seg out.blk out.off (out.off + 16) q → m1.set32 out.blk (out.off + 4 * a) v q = m q) := by
    intro m1 a v ha hm1 q hq
    rw [set32_other _ _ _ _ _ (fun h => hq ⟨h.1, by omega, by omega⟩)]
    exact hm1 q hq
  have hm0 : ∀ q, ¬ Seg out.blk out.off (out.off + 16) q → m q = m q := fun _ _ => rfl
  -- number 0
  refine wp_call (decodeOne_spec _ l0 _ e0 b0.1 b0.2 m) ?_ (fun _ h => h.elim) ?_ ?_
  · rintro q ⟨h1, h2, h3⟩; try simp only at h1 h2 h3
    exact .inl ⟨h1, by omega, by omega⟩
  · rintro k m' - ⟨rfl, h⟩; try simp only at h
    exact ⟨.inl rfl, by omega⟩
  rintro r0 _ - ⟨hl0', hr0, rfl⟩
  try simp only [Nat.one_mul] at hl0' hr0
  rw [wp_bind]
  have hr0' : B + psum sz (i + 4) ≤ inn.off + inn.len → r0 = d i := fun hcond =>
    BitVec.eq_of_toNat_eq (by
      rw [hr0]; exact hfr m hm0 hcond _ _ i (by omega) rfl (by omega) (by omega))
  refine wp_setW_ok 0 rfl (by omega) (hW 0 (by omega)) ?_
  generalize hv0 : r0 + prev = v0
  have hm1 := hset m 0 v0 (by omega) hm0
  have hw1 : wordAt (m.set32 out.blk (out.off + 4 * 0) v0) out.blk (out.off + 4 * 0) = v0 :=
    wordAt_set32_self _ _ _ _
  generalize m.set32 out.blk (out.off + 4 * 0) v0 = m1 at hm1 hw1 ⊢
  -- number 1
  rw [wp_bind]
  refine wp_from ?_ (fun h => ⟨.inr rfl, by omega⟩)
  intro a1 ha1 hl1
  have : a1 = (sz i) := by omega
  subst this
  refine wp_call (decodeOne_spec _ l1 _ e1 b1.1 b1.2 m1) ?_ (fun _ h => h.elim) ?_ ?_
  · rintro q ⟨h1, h2, h3⟩; try simp only at h1 h2 h3
    exact .inl ⟨h1, by omega, by omega⟩
  · rintro k m' - ⟨rfl, h⟩; try simp only at h
    exact ⟨.inl rfl, by omega⟩
  rintro r1 _ - ⟨hl1', hr1, rfl⟩
  try simp only [Nat.one_mul] at hl1' hr1
  rw [wp_bind]
  refine wp_getW_ok 0 rfl (by omega) (fun k hk => .inr (.inr (hW 0 (by omega) k hk))) ?_
  rw [hw1]
  rw [wp_bind]
  have hr1' : B + psum sz (i + 4) ≤ inn.off + inn.len → r1 = d (i + 1) := fun hcond =>
    BitVec.eq_of_toNat_eq (by
      rw [hr1]; exact hfr m1 hm1 hcond _ _ (i + 1) (by omega) rfl (by omega) (by omega))
  refine wp_setW_ok 1 rfl (by omega) (hW 1 (by omega)) ?_
  generalize hv1 : r1 + v0 = v1
  have hm2 := hset m1 1 v1 (by omega) hm1
  have hw2 : wordAt (m1.set32 out.blk (out.off + 4 * 1) v1) out.blk (out.off + 4 * 1) = v1 :=
    wordAt_set32_self _ _ _ _
  have hw2_0 : wordAt (m1.set32 out.blk (out.off + 4 * 1) v1) out.blk (out.off + 4 * 0) = v0 := by
    rw [wordAt_set32_other _ _ _ _ _ _ (by omega)]; exact hw1
  generalize m1.set32 out.blk (out.off + 4 * 1) v1 = m2 at hm2 hw2 hw2_0 ⊢
  -- number 2
  rw [wp_bind]
  refine wp_from ?_ (fun h => ⟨.inr rfl, by omega⟩)
  intro a2 ha2 hl2
  have : a2 = (sz i + sz (i + 1)) := by omega
  subst this
  refine wp_call (decodeOne_spec _ l2 _ e2 b2.1 b2.2 m2) ?_ (fun _ h => h.elim) ?_ ?_
  · rintro q ⟨h1, h2, h3⟩; try simp only at h1 h2 h3
    exact .inl ⟨h1, by omega, by omega⟩
  · rintro k m' - ⟨rfl, h⟩; try simp only at h
    exact ⟨.inl rfl, by omega⟩
  rintro r2 _ - ⟨hl2', hr2, rfl⟩
  try simp only [Nat.one_mul] at hl2' hr2
  rw [wp_bind]
  refine wp_getW_ok 1 rfl (by omega) (fun k hk => .inr (.inr (hW 1 (by omega) k hk))) ?_
  rw [hw2]
  rw [wp_bind]
  have hr2' : B + psum sz (i + 4) ≤ inn.off + inn.len → r2 = d (i + 2) := fun hcond =>
    BitVec.eq_of_toNat_eq (by
      rw [hr2]; exact hfr m2 hm2 hcond _ _ (i + 2) (by omega) rfl (by omega) (by omega))
  refine wp_setW_ok 2 rfl (by omega) (hW 2 (by omega)) ?_
  generalize hv2 : r2 + v1 = v2
  have hm3 := hset m2 2 v2 (by omega) hm2
  have hw3 : wordAt (m2.set32 out.blk (out.off + 4 * 2) v2) out.blk (out.off + 4 * 2) = v2 :=
    wordAt_set32_self _ _ _ _
  have hw3_0 : wordAt (m2.set32 out.blk (out.off + 4 * 2) v2) out.blk (out.off + 4 * 0) = v0 := by
    rw [wordAt_set32_other _ _ _ _ _ _ (by omega)]; exact hw2_0
  have hw3_1 : wordAt (m2.set32 out.blk (out.off + 4 * 2) v2) out.blk (out.off + 4 * 1) = v1 := by
    rw [wordAt_set32_other _ _ _ _ _ _ (by omega)]; exact hw2
  generalize m2.set32 out.blk (out.off + 4 * 2) v2 = m3 at hm3 hw3 hw3_0 hw3_1 ⊢
  -- number 3
  rw [wp_bind]
  refine wp_from ?_ (fun h => ⟨.inr rfl, by omega⟩)
  intro a3 ha3 hl3
  have : a3 = (sz i + sz (i + 1) + sz (i + 2)) := by omega
  subst this
  refine wp_call (decodeOne_spec _ l3 _ e3 b3.1 b3.2 m3) ?_ (fun _ h => h.elim) ?_ ?_
  · rintro q ⟨h1, h2, h3⟩; try simp only at h1 h2 h3
    exact .inl ⟨h1, by omega, by omega⟩
  · rintro k m' - ⟨rfl, h⟩; try simp only at h
    exact ⟨.inl rfl, by omega⟩
  rintro r3 _ - ⟨hl3', hr3, rfl⟩
  try simp only [Nat.one_mul] at hl3' hr3
  rw [wp_bind]
  refine wp_getW_ok 2 rfl (by omega) (fun k hk => .inr (.inr (hW 2 (by omega) k hk))) ?_
  rw [hw3]
  have hr3' : B + psum sz (i + 4) ≤ inn.off + inn.len → r3 = d (i + 3) := fun hcond =>
    BitVec.eq_of_toNat_eq (by
      rw [hr3]; exact hfr m3 hm3 hcond _ _ (i + 3) (by omega) rfl (by omega) (by omega))
  refine wp_setW_ok 3 rfl (by omega) (hW 3 (by omega)) ?_
  generalize hv3 : r3 + v2 = v3
  have hcond : B + psum sz (i + 4) ≤ inn.off + inn.len := by omega
  have q1 := hy 0 (by omega); have q2 := hy 1 (by omega); have q3 := hy 2 (by omega)
  simp only [Nat.zero_add, Nat.reduceAdd, Nat.add_zero] at q1 q2 q3
  have y0 : v0 = y i := by rw [hy0, ← hv0, hr0' hcond]
  have y1 : v1 = y (i + 1) := by rw [q1, ← hv1, hr1' hcond, y0]
  have y2 : v2 = y (i + 2) := by rw [q2, ← hv2, hr2' hcond, y1]
  have y3 : v3 = y (i + 3) := by rw [q3, ← hv3, hr3' hcond, y2]
  refine ⟨by omega, hcond, ?_⟩
  intro k hk
  obtain rfl | rfl | rfl | rfl : k = 0 ∨ k = 1 ∨ k = 2 ∨ k = 3 := by omega
  · rw [wordAt_set32_other _ _ _ _ _ _ (by omega), hw3_0, y0]; rfl
  · rw [wordAt_set32_other _ _ _ _ _ _ (by omega), hw3_1, y1]
  · rw [wordAt_set32_other _ _ _ _ _ _ (by omega), hw3, y2]
  · rw [wordAt_set32_self, y3]

/-! ## Guarded decoding: only numbers that end before `lim` -/

/-- Like `Dec`, for the numbers that end at or before `lim`. -/
def DecLim (m : Mem) (b : Block) (B : Nat) (sz : Nat → Nat) (d : Nat → U32) (i j lim : Nat) : Prop :=
  ∀ t, i ≤ t → t < j → B + psum sz (t + 1) ≤ lim → leNat m b (B + psum sz t) (sz t) = (d t).toNat

theorem DecLim.frame {m m' : Mem} {b : Block} {B : Nat} {sz : Nat → Nat} {d : Nat → U32} {i j lim : Nat}
    (h : DecLim m b B sz d i j lim) (hf : ∀ q, Seg b (B + psum sz i) lim q → m' q = m q) :
    DecLim m' b B sz d i j lim := by
  intro t h1 h2 h4
  rw [← h t h1 h2 h4]
  apply leNat_congr
  intro k hk
  apply hf
  have := psum_mono (f := sz) h1
  rw [psum_one] at h4
  exact ⟨rfl, by simp only; omega, by simp only; omega⟩

theorem DecLim.dec {m : Mem} {b : Block} {B : Nat} {sz : Nat → Nat} {d : Nat → U32} {i j i' j' lim : Nat}
    (h : DecLim m b B sz d i j lim) (hi : i ≤ i') (hj : j' ≤ j) (hl : B + psum sz j' ≤ lim) :
    Dec m b B sz d i' j' := by
  intro t h1 h2
  have := psum_mono (f := sz) (show t + 1 ≤ j' by omega)
  exact h t (by omega) (by omega) (by omega)

theorem get8_spec (sz : Nat → Nat) (d : Nat → U32) (i B : Nat) (inn : Bytes) (out : U32s) (ctrl : U16)
    (m : Mem) (hT : TablesLoaded m) (hh : out.blk.isConst = false)
    (hc : ∀ k < 8, code16 ctrl k + 1 = sz (i + k)) (hB : inn.off = B + psum sz i)
    (hd : DecLim m inn.blk B sz d i (i + 8) (inn.off + inn.len))
    (hdj : ∀ q, Seg inn.blk inn.off (inn.off + inn.len) q → ¬ Seg out.blk out.off (out.off + 4 * out.len) q) :
    wp ⟨fun q => Seg inn.blk inn.off (inn.off + inn.len) q ∨ inTables q,
        Seg out.blk out.off (out.off + 32),
        fun k _ => boundsPanic k ∧ ¬ (8 ≤ out.len ∧ B + psum sz (i + 8) ≤ inn.off + inn.len)⟩
      (get8uint32Scalar inn out ctrl) m
      (fun _ m' => 8 ≤ out.len ∧ B + psum sz (i + 8) ≤ inn.off + inn.len ∧
        ∀ k < 8, wordAt m' out.blk (out.off + 4 * k) = d (i + k)) := by
  have hlo : Sizes ((ctrl &&& 0xff#16).setWidth 8) sz i :=
    ⟨fun k hk => by rw [code16_lo ctrl k hk, hc k (by omega)]⟩
  have hhi : Sizes ((ctrl >>> 8).setWidth 8) sz (i + 4) :=
    ⟨fun k hk => by rw [code16_hi ctrl k hk, hc (k + 4) (by omega)]; congr 1; omega⟩
  have t1 := hlo.total
  have t2 := hhi.total
  have g1 := gSize_bounds ((ctrl &&& 0xff#16).setWidth 8)
  have g2 := gSize_bounds ((ctrl >>> 8).setWidth 8)
  rw [show i + 4 + 4 = i + 8 by omega] at t2
  unfold get8uint32Scalar
  simp only [Prog.bind_eq, Prog.pure_eq]
  refine wp_call (controlByteToSize_spec _ m hT) (fun _ h => .inr h) (fun _ h => h.elim)
    (fun _ _ _ h => h.elim) ?_
  rintro _ _ - ⟨rfl, rfl⟩
  refine wp_call (get4_spec sz d i B inn out _ m hT hlo hB
      (fun h => hd.dec (by omega) (by omega) h)
      (fun h h' q hq hq' => hdj q ⟨hq.1, by have := hq.2.1; omega, by have := hq.2.2; omega⟩
        ⟨hq'.1, hq'.2.1, by have := hq'.2.2; omega⟩)) ?_ ?_ ?_ ?_
  · rintro q (h | h)
    · exact .inl h
    · exact .inr h
  · rintro q ⟨h1, h2, h3⟩; exact ⟨h1, h2, by omega⟩
  · rintro k m' - ⟨h1, h2⟩; exact ⟨h1, by omega⟩
  rintro _ m1 hf1 ⟨hl1, hs1, hw1⟩
  have hT1 : TablesLoaded m1 := hT.frame fun q hq => hf1 q (fun h => by
    rw [h.1, hh] at hq; exact absurd hq (by decide))
  have hd1 : DecLim m1 inn.blk B sz d i (i + 8) (inn.off + inn.len) := hd.frame fun q hq =>
    hf1 q fun hq' => hdj q ⟨hq.1, by have := hq.2.1; omega, by have := hq.2.2; omega⟩
        ⟨hq'.1, hq'.2.1, by have := hq'.2.2; omega⟩
  rw [wp_bind]
  refine wp_from_ok (gSize ((ctrl &&& 0xff#16).setWidth 8)) rfl (by omega) ?_
  rw [wp_bind]
  refine wp_from_ok 4 rfl (by omega) ?_
  refine wp_conseq (get4_spec sz d (i + 4) B ⟨inn.blk, _, _, _⟩ ⟨out.blk, _, _, _⟩ _ m1 hT1 hhi
      (by simp only; omega)
      (fun h => hd1.dec (by omega) (by omega) (by simp only at h; omega))
      (fun h h' q hq hq' => hdj q ⟨hq.1, by have := hq.2.1; omega, by have := hq.2.2; simp only at h; omega⟩
        ⟨hq'.1, by have := hq'.2.1; simp only at this; omega, by have := hq'.2.2; simp only at this h'; omega⟩)) ?_ ?_ ?_ ?_
  · rintro q (⟨h1, h2, h3⟩ | h)
    · simp only at h1 h2 h3; exact .inl ⟨h1, by omega, by omega⟩
    · exact .inr h
  · rintro q ⟨h1, h2, h3⟩; simp only at h1 h2 h3; exact ⟨h1, by omega, by omega⟩
  · rintro k m' - ⟨h1, h2⟩; simp only [show i + 4 + 4 = i + 8 by omega] at h2; exact ⟨h1, by omega⟩
  rintro _ m2 hf2 ⟨hl2, hs2, hw2⟩
  simp only [show i + 4 + 4 = i + 8 by omega] at hl2 hs2 hw2
  refine ⟨by omega, by omega, ?_⟩
  intro k hk
  by_cases h4 : k < 4
  · rw [← hw1 k h4]
    apply wordAt_congr
    intro j hj
    apply hf2
    rintro ⟨h1, h2, h3⟩; simp only at h1 h2 h3; omega
  · have := hw2 (k - 4) (by omega)
    rwa [show out.off + 4 * 4 + 4 * (k - 4) = out.off + 4 * k by omega,
      show i + 4 + (k - 4) = i + k by omega] at this

theorem get8Delta_spec (sz : Nat → Nat) (d y : Nat → U32) (i B : Nat) (inn : Bytes) (out : U32s) (ctrl : U16) (prev : U32)
    (m : Mem) (hT : TablesLoaded m) (hh : out.blk.isConst = false)
    (hc : ∀ k < 8, code16 ctrl k + 1 = sz (i + k)) (hB : inn.off = B + psum sz i)
    (hd : DecLim m inn.blk B sz d i (i + 8) (inn.off + inn.len))
    (hdj : ∀ q, Seg inn.blk inn.off (inn.off + inn.len) q → ¬ Seg out.blk out.off (out.off + 4 * out.len) q)
    (hy0 : y i = d i + prev) (hy : ∀ k < 7, y (i + (k + 1)) = d (i + (k + 1)) + y (i + k)) :
    wp ⟨fun q => Seg inn.blk inn.off (inn.off + inn.len) q ∨ inTables q ∨ Seg out.blk out.off (out.off + 32) q,
        Seg out.blk out.off (out.off + 32),
        fun k _ => boundsPanic k ∧ ¬ (8 ≤ out.len ∧ B + psum sz (i + 8) ≤ inn.off + inn.len)⟩
      (get8uint32DeltaScalar inn out ctrl prev) m
      (fun _ m' => 8 ≤ out.len ∧ B + psum sz (i + 8) ≤ inn.off + inn.len ∧
        ∀ k < 8, wordAt m' out.blk (out.off + 4 * k) = y (i + k)) := by
  have hlo : Sizes ((ctrl &&& 0xff#16).setWidth 8) sz i :=
    ⟨fun k hk => by rw [code16_lo ctrl k hk, hc k (by omega)]⟩
  have hhi : Sizes ((ctrl >>> 8).setWidth 8) sz (i + 4) :=
    ⟨fun k hk => by rw [code16_hi ctrl k hk, hc (k + 4) (by omega)]; congr 1; omega⟩
  have t1 := hlo.total
  have t2 := hhi.total
  have g1 := gSize_bounds ((ctrl &&& 0xff#16).setWidth 8)
  have g2 := gSize_bounds ((ctrl >>> 8).setWidth 8)
  rw [show i + 4 + 4 = i + 8 by omega] at t2
  unfold get8uint32DeltaScalar
  simp only [Prog.bind_eq, Prog.pure_eq]
  refine wp_call (controlByteToSize_spec _ m hT) (fun _ h => .inr (.inl h)) (fun _ h => h.elim)
    (fun _ _ _ h => h.elim) ?_
  rintro _ _ - ⟨rfl, rfl⟩
  refine wp_call (get4Delta_spec sz d y i B inn out _ prev m hT hlo hB
      (fun h => hd.dec (by omega) (by omega) h)
      (fun h h' q hq hq' => hdj q ⟨hq.1, by have := hq.2.1; omega, by have := hq.2.2; omega⟩
        ⟨hq'.1, hq'.2.1, by have := hq'.2.2; omega⟩) hy0 (fun k hk => hy k (by omega))) ?_ ?_ ?_ ?_
  · rintro q (h | h | ⟨h1, h2, h3⟩)
    · exact .inl h
    · exact .inr (.inl h)
    · exact .inr (.inr (⟨h1, h2, by omega⟩))
  · rintro q ⟨h1, h2, h3⟩; exact ⟨h1, h2, by omega⟩
  · rintro k m' - ⟨h1, h2⟩; exact ⟨h1, by omega⟩
  rintro _ m1 hf1 ⟨hl1, hs1, hw1⟩
  have hT1 : TablesLoaded m1 := hT.frame fun q hq => hf1 q (fun h => by
    rw [h.1, hh] at hq; exact absurd hq (by decide))
  have hd1 : DecLim m1 inn.blk B sz d i (i + 8) (inn.off + inn.len) := hd.frame fun q hq =>
    hf1 q fun hq' => hdj q ⟨hq.1, by have := hq.2.1; omega, by have := hq.2.2; omega⟩
        ⟨hq'.1, hq'.2.1, by have := hq'.2.2; omega⟩
  rw [wp_bind]
  refine wp_from_ok (gSize ((ctrl &&& 0xff#16).setWidth 8)) rfl (by omega) ?_
  rw [wp_bind]
  refine wp_from_ok 4 rfl (by omega) ?_
  rw [wp_bind]
  refine wp_getW_ok 3 rfl (by omega) (fun k hk => .inr (.inr (⟨rfl, by simp only; omega, by simp only; omega⟩))) ?_
  rw [hw1 3 (by omega)]
  refine wp_conseq (get4Delta_spec sz d y (i + 4) B ⟨inn.blk, _, _, _⟩ ⟨out.blk, _, _, _⟩ _ _ m1 hT1 hhi
      (by simp only; omega)
      (fun h => hd1.dec (by omega) (by omega) (by simp only at h; omega))
      (fun h h' q hq hq' => hdj q ⟨hq.1, by have := hq.2.1; omega, by have := hq.2.2; simp only at h; omega⟩
        ⟨hq'.1, by have := hq'.2.1; simp only at this; omega, by have := hq'.2.2; simp only at this h'; omega⟩) (hy 3 (by omega))
      (fun k hk => by
        have := hy (k + 4) (by omega)
        rwa [show i + (k + 4 + 1) = i + 4 + (k + 1) by omega, show i + (k + 4) = i + 4 + k by omega] at this)) ?_ ?_ ?_ ?_
  · rintro q (⟨h1, h2, h3⟩ | h | ⟨h1, h2, h3⟩)
    · simp only at h1 h2 h3; exact .inl ⟨h1, by omega, by omega⟩
    · exact .inr (.inl h)
    · simp only at h1 h2 h3; exact .inr (.inr (⟨h1, by omega, by omega⟩))
  · rintro q ⟨h1, h2, h3⟩; simp only at h1 h2 h3; exact ⟨h1, by omega, by omega⟩
  · rintro k m' - ⟨h1, h2⟩; simp only [show i + 4 + 4 = i + 8 by omega] at h2; exact ⟨h1, by omega⟩
  rintro _ m2 hf2 ⟨hl2, hs2, hw2⟩
  simp only [show i + 4 + 4 = i + 8 by omega] at hl2 hs2 hw2
  refine ⟨by omega, by omega, ?_⟩
  intro k hk
  by_cases h4 : k < 4
  · rw [← hw1 k h4]
    apply wordAt_congr
    intro j hj
    apply hf2
    rintro ⟨h1, h2, h3⟩; simp only at h1 h2 h3; omega
  · have := hw2 (k - 4) (by omega)
    rwa [show out.off + 4 * 4 + 4 * (k - 4) = out.off + 4 * k by omega,
      show i + 4 + (k - 4) = i + k by omega] at this

/-- After `j` numbers have been stored into `out` and nothing else. -/
def PartOut (m m' : Mem) (out : U32s) (y : Nat → U32) (i j : Nat) : Prop :=
  (∀ k < j, wordAt m' out.blk (out.off + 4 * k) = y (i + k)) ∧
  ∀ q, ¬ Seg out.blk out.off (out.off + 4 * j) q → m' q = m q

/-- State in which a decoder of `n` numbers stops that stores them one by one: the data ends in the middle of number
`j`. -/
def CutOut (m m' : Mem) (out : U32s) (y : Nat → U32) (sz : Nat → Nat) (i n B lim : Nat) : Prop :=
  ∃ j < n, B + psum sz (i + j) ≤ lim ∧ ¬ (B + psum sz (i + j + 1) ≤ lim) ∧ PartOut m m' out y i j

theorem getUint32_specP (sz : Nat → Nat) (d : Nat → U32) (i B : Nat) (inn : Bytes) (out : U32s)
    (ctrl : Byte) (count : Int) (m : Mem) (n : Nat) (hn : n = min count.toNat 4)
    (hc : ∀ k < n, code ctrl k + 1 = sz (i + k)) (hB : inn.off = B + psum sz i)
    (hd : DecLim m inn.blk B sz d i (i + n) (inn.off + inn.len))
    (hdj : ∀ q, Seg inn.blk inn.off (inn.off + inn.len) q → ¬ Seg out.blk out.off (out.off + 4 * min n out.len) q) :
    wp ⟨Seg inn.blk inn.off (inn.off + inn.len), Seg out.blk out.off (out.off + 4 * n),
        fun k m' => (boundsPanic k ∧ ¬ (n ≤ out.len ∧ B + psum sz (i + n) ≤ inn.off + inn.len)) ∧
          (n ≤ out.len → CutOut m m' out d sz i n B (inn.off + inn.len))⟩
      (getUint32Scalar inn out ctrl count) m
      (fun r m' => r + (psum sz i : Int) = (psum sz (i + n) : Int) ∧ n ≤ out.len ∧
        B + psum sz (i + n) ≤ inn.off + inn.len ∧
        ∀ k < n, wordAt m' out.blk (out.off + 4 * k) = d (i + k)) := by
  unfold getUint32Scalar
  simp only [Prog.bind_eq, Prog.pure_eq]
  by_cases hc0 : count = 0
  · simp only [hc0, if_true]
    have : n = 0 := by omega
    subst this
    exact ⟨by simp, by omega, by simp only [Nat.add_zero]; omega, fun k hk => by omega⟩
  simp only [hc0, if_false]
  rw [wp_bind]
  refine wp_loop (fun (s : GetSt) m' => ∃ j : Nat, s.i = (j : Int) ∧ j ≤ n ∧ j ≤ out.len ∧ s.shift = 2 * j ∧
      s.total + (psum sz i : Int) = (psum sz (i + j) : Int) ∧ B + psum sz (i + j) ≤ inn.off + inn.len ∧
      (∀ k < j, wordAt m' out.blk (out.off + 4 * k) = d (i + k)) ∧
      (∀ q, ¬ Seg out.blk out.off (out.off + 4 * j) q → m' q = m q))
    (fun (s : GetSt) => (4 - s.i).toNat) ?_ ?_ ?_ ?_ ?_
  · rintro s m1 ⟨j, hj, hjn, hjl, hsh, htot, hlen, hw, hfr⟩ hcond
    have hjn' : j < n := by
      simp only [decide_eq_true_eq] at hcond
      split at hcond <;> omega
    have hmono := psum_mono (f := sz) (show i + j + 1 ≤ i + n by omega)
    have hmono0 := psum_mono (f := sz) (show i ≤ i + j by omega)
    have ho := psum_one sz (i + j)
    have hcj := hc j hjn'
    have hcl := code_lt ctrl j
    have hsize : ((ctrl >>> s.shift &&& 0x3#8) + 1).toNat = sz (i + j) := by
      rw [← hcj, hsh, BitVec.toNat_add, BitVec.toNat_and, BitVec.toNat_ushiftRight, Nat.shiftRight_eq_div_pow,
        Nat.pow_mul]
      rw [show (3#8 : Byte).toNat = 2 ^ 2 - 1 by decide, Nat.and_two_pow_sub_one_eq_mod]
      simp only [code] at hcl ⊢
      simp only [Nat.reducePow] at hcl ⊢
      rw [show BitVec.toNat (1 : Byte) = 1 from rfl]
      omega
    rw [wp_bind]
    refine wp_from ?_ (fun h => ⟨⟨.inr rfl, by omega⟩, fun _ => by omega⟩)
    intro a ha hal
    have : a = psum sz (i + j) - psum sz i := by omega
    subst this
    refine wp_call (decodeOne_spec _ _ _ hsize (by omega) (by omega) m1) ?_ (fun _ h => h.elim) ?_ ?_
    · rintro q ⟨h1, h2, h3⟩; simp only at h1 h2 h3; exact ⟨h1, by omega, by omega⟩
    · rintro k m' hf ⟨rfl, h⟩; simp only at h
      obtain rfl : m' = m1 := funext fun q => hf q id
      exact ⟨⟨.inl rfl, by omega⟩, fun _ => ⟨j, hjn', hlen, by omega, hw, hfr⟩⟩
    rintro r _ - ⟨hl2, hr, rfl⟩
    simp only [Nat.one_mul] at hl2 hr
    have hr' : r = d (i + j) := by
      apply BitVec.eq_of_toNat_eq
      rw [hr, show inn.off + (psum sz (i + j) - psum sz i) = B + psum sz (i + j) by omega]
      refine (hd.frame (m' := m1) fun q hq => hfr q fun hs => hdj q ⟨hq.1, ?_, hq.2.2⟩ ⟨hs.1, hs.2.1, Nat.lt_of_lt_of_le hs.2.2 (by omega)⟩) (i + j) (by omega) (by omega)
        (by omega)
      have := hq.2.1; omega
    rw [hr']
    rw [wp_bind]
    refine wp_setW ?_ (fun h => ⟨⟨.inl rfl, by omega⟩, fun _ => by omega⟩)
    intro a ha hal2
    have : a = j := by omega
    subst this
    refine ⟨fun k hk => ⟨rfl, by simp only; omega, by simp only; omega⟩, ?_⟩
    refine ⟨⟨a + 1, by simp only; omega, by omega, by omega, by simp only; omega,
      by simp only [hsize, ← Nat.add_assoc]; omega, by simp only [← Nat.add_assoc]; omega, ?_, ?_⟩,
      by simp only; omega⟩
    · intro k hk
      by_cases hka : k = a
      · subst hka; exact wordAt_set32_self _ _ _ _
      · rw [wordAt_set32_other _ _ _ _ _ _ (by omega)]; exact hw k (by omega)
    · intro q hq
      rw [set32_other _ _ _ _ _ (fun h => hq ⟨h.1, by omega, by omega⟩)]
      exact hfr q fun hs => hq ⟨hs.1, hs.2.1, Nat.lt_of_lt_of_le hs.2.2 (by omega)⟩
  · rintro s m1 ⟨j, hj, hjn, hjl, hsh, htot, hlen, hw, hfr⟩ hcond
    simp only [decide_eq_true_eq] at hcond
    split at hcond <;> omega
  · rintro s m1 ⟨j, hj, hjn, hjl, hsh, htot, hlen, hw, hfr⟩ hcond
    simp only [decide_eq_false_iff_not] at hcond
    have : j = n := by split at hcond <;> omega
    subst this
    exact ⟨htot, hjl, hlen, hw⟩
  · exact ⟨0, rfl, by omega, by omega, rfl, by simp, by simp only [Nat.add_zero]; omega,
      fun k hk => by omega, fun _ _ => rfl⟩
  · simp

theorem getUint32_spec (sz : Nat → Nat) (d : Nat → U32) (i B : Nat) (inn : Bytes) (out : U32s)
    (ctrl : Byte) (count : Int) (m : Mem) (n : Nat) (hn : n = min count.toNat 4)
    (hc : ∀ k < n, code ctrl k + 1 = sz (i + k)) (hB : inn.off = B + psum sz i)
    (hd : DecLim m inn.blk B sz d i (i + n) (inn.off + inn.len))
    (hdj : ∀ q, Seg inn.blk inn.off (inn.off + inn.len) q → ¬ Seg out.blk out.off (out.off + 4 * min n out.len) q) :
    wp ⟨Seg inn.blk inn.off (inn.off + inn.len), Seg out.blk out.off (out.off + 4 * n),
        fun k _ => boundsPanic k ∧ ¬ (n ≤ out.len ∧ B + psum sz (i + n) ≤ inn.off + inn.len)⟩
      (getUint32Scalar inn out ctrl count) m
      (fun r m' => r + (psum sz i : Int) = (psum sz (i + n) : Int) ∧ n ≤ out.len ∧
        B + psum sz (i + n) ≤ inn.off + inn.len ∧
        ∀ k < n, wordAt m' out.blk (out.off + 4 * k) = d (i + k)) :=
  wp_conseq (getUint32_specP sz d i B inn out ctrl count m n hn hc hB hd hdj) (fun _ h => h) (fun _ h => h)
    (fun _ _ _ h => h.1) fun _ _ _ h => h

theorem getUint32Delta_specP (sz : Nat → Nat) (d y : Nat → U32) (i B : Nat) (inn : Bytes) (out : U32s)
    (ctrl : Byte) (count : Int) (prev : U32) (m : Mem) (n : Nat) (hn : n = min count.toNat 4)
    (hc : ∀ k < n, code ctrl k + 1 = sz (i + k)) (hB : inn.off = B + psum sz i)
    (hd : DecLim m inn.blk B sz d i (i + n) (inn.off + inn.len))
    (hdj : ∀ q, Seg inn.blk inn.off (inn.off + inn.len) q → ¬ Seg out.blk out.off (out.off + 4 * min n out.len) q)
    (hy0 : 0 < n → y i = d i + prev) (hy : ∀ k < 3, k + 1 < n → y (i + (k + 1)) = d (i + (k + 1)) + y (i + k)) :
    wp ⟨Seg inn.blk inn.off (inn.off + inn.len), Seg out.blk out.off (out.off + 4 * n),
        fun k m' => (boundsPanic k ∧ ¬ (n ≤ out.len ∧ B + psum sz (i + n) ≤ inn.off + inn.len)) ∧
          (n ≤ out.len → CutOut m m' out y sz i n B (inn.off + inn.len))⟩
      (getUint32DeltaScalar inn out ctrl count prev) m
      (fun r m' => r + (psum sz i : Int) = (psum sz (i + n) : Int) ∧ n ≤ out.len ∧
        B + psum sz (i + n) ≤ inn.off + inn.len ∧
        ∀ k < n, wordAt m' out.blk (out.off + 4 * k) = y (i + k)) := by
  unfold getUint32DeltaScalar
  simp only [Prog.bind_eq, Prog.pure_eq]
  by_cases hc0 : count = 0
  · simp only [hc0, if_true]
    have : n = 0 := by omega
    subst this
    exact ⟨by simp, by omega, by simp only [Nat.add_zero]; omega, fun k hk => by omega⟩
  simp only [hc0, if_false]
  rw [wp_bind]
  refine wp_loop (fun (s : GetSt) m' => ∃ j : Nat, s.i = (j : Int) ∧ j ≤ n ∧ j ≤ out.len ∧ s.shift = 2 * j ∧
      s.total + (psum sz i : Int) = (psum sz (i + j) : Int) ∧ B + psum sz (i + j) ≤ inn.off + inn.len ∧
      (∀ k < j, wordAt m' out.blk (out.off + 4 * k) = y (i + k)) ∧
      (∀ q, ¬ Seg out.blk out.off (out.off + 4 * j) q → m' q = m q) ∧
      s.prev = (if j = 0 then prev else y (i + (j - 1))))
    (fun (s : GetSt) => (4 - s.i).toNat) ?_ ?_ ?_ ?_ ?_
  · rintro s m1 ⟨j, hj, hjn, hjl, hsh, htot, hlen, hw, hfr, hpv⟩ hcond
    have hjn' : j < n := by
      simp only [decide_eq_true_eq] at hcond
      split at hcond <;> omega
    have hmono := psum_mono (f := sz) (show i + j + 1 ≤ i + n by omega)
    have hmono0 := psum_mono (f := sz) (show i ≤ i + j by omega)
    have ho := psum_one sz (i + j)
    have hcj := hc j hjn'
    have hcl := code_lt ctrl j
    have hsize : ((ctrl >>> s.shift &&& 0x3#8) + 1).toNat = sz (i + j) := by
      rw [← hcj, hsh, BitVec.toNat_add, BitVec.toNat_and, BitVec.toNat_ushiftRight, Nat.shiftRight_eq_div_pow,
        Nat.pow_mul]
      rw [show (3#8 : Byte).toNat = 2 ^ 2 - 1 by decide, Nat.and_two_pow_sub_one_eq_mod]
      simp only [code] at hcl ⊢
      simp only [Nat.reducePow] at hcl ⊢
      rw [show BitVec.toNat (1 : Byte) = 1 from rfl]
      omega
    rw [wp_bind]
    refine wp_from ?_ (fun h => ⟨⟨.inr rfl, by omega⟩, fun _ => by omega⟩)
    intro a ha hal
    have : a = psum sz (i + j) - psum sz i := by omega
    subst this
    refine wp_call (decodeOne_spec _ _ _ hsize (by omega) (by omega) m1) ?_ (fun _ h => h.elim) ?_ ?_
    · rintro q ⟨h1, h2, h3⟩; simp only at h1 h2 h3; exact ⟨h1, by omega, by omega⟩
    · rintro k m' hf ⟨rfl, h⟩; simp only at h
      obtain rfl : m' = m1 := funext fun q => hf q id
      exact ⟨⟨.inl rfl, by omega⟩, fun _ => ⟨j, hjn', hlen, by omega, hw, hfr⟩⟩
    rintro r _ - ⟨hl2, hr, rfl⟩
    simp only [Nat.one_mul] at hl2 hr
    have hr' : r = d (i + j) := by
      apply BitVec.eq_of_toNat_eq
      rw [hr, show inn.off + (psum sz (i + j) - psum sz i) = B + psum sz (i + j) by omega]
      refine (hd.frame (m' := m1) fun q hq => hfr q fun hs => hdj q ⟨hq.1, ?_, hq.2.2⟩ ⟨hs.1, hs.2.1, Nat.lt_of_lt_of_le hs.2.2 (by omega)⟩) (i + j) (by omega) (by omega)
        (by omega)
      have := hq.2.1; omega
    have hval : r + s.prev = y (i + j) := by
      rw [hr', hpv]
      split
      · have : j = 0 := by omega
        subst this; exact (hy0 (by omega)).symm
      · have := hy (j - 1) (by omega) (by omega)
        rwa [show j - 1 + 1 = j by omega, eq_comm] at this
    rw [hval]
    rw [wp_bind]
    refine wp_setW ?_ (fun h => ⟨⟨.inl rfl, by omega⟩, fun _ => by omega⟩)
    intro a ha hal2
    have : a = j := by omega
    subst this
    refine ⟨fun k hk => ⟨rfl, by simp only; omega, by simp only; omega⟩, ?_⟩
    refine ⟨⟨a + 1, by simp only; omega, by omega, by omega, by simp only; omega,
      by simp only [hsize, ← Nat.add_assoc]; omega, by simp only [← Nat.add_assoc]; omega, ?_, ?_, by simp⟩,
      by simp only; omega⟩
    · intro k hk
      by_cases hka : k = a
      · subst hka; exact wordAt_set32_self _ _ _ _
      · rw [wordAt_set32_other _ _ _ _ _ _ (by omega)]; exact hw k (by omega)
    · intro q hq
      rw [set32_other _ _ _ _ _ (fun h => hq ⟨h.1, by omega, by omega⟩)]
      exact hfr q fun hs => hq ⟨hs.1, hs.2.1, Nat.lt_of_lt_of_le hs.2.2 (by omega)⟩
  · rintro s m1 ⟨j, hj, hjn, hjl, hsh, htot, hlen, hw, hfr, hpv⟩ hcond
    simp only [decide_eq_true_eq] at hcond
    split at hcond <;> omega
  · rintro s m1 ⟨j, hj, hjn, hjl, hsh, htot, hlen, hw, hfr, hpv⟩ hcond
    simp only [decide_eq_false_iff_not] at hcond
    have : j = n := by split at hcond <;> omega
    subst this
    exact ⟨htot, hjl, hlen, hw⟩
  · exact ⟨0, rfl, by omega, by omega, rfl, by simp, by simp only [Nat.add_zero]; omega,
      fun k hk => by omega, fun _ _ => rfl, by simp⟩
  · simp

theorem getUint32Delta_spec (sz : Nat → Nat) (d y : Nat → U32) (i B : Nat) (inn : Bytes) (out : U32s)
    (ctrl : Byte) (count : Int) (prev : U32) (m : Mem) (n : Nat) (hn : n = min count.toNat 4)
    (hc : ∀ k < n, code ctrl k + 1 = sz (i + k)) (hB : inn.off = B + psum sz i)
    (hd : DecLim m inn.blk B sz d i (i + n) (inn.off + inn.len))
    (hdj : ∀ q, Seg inn.blk inn.off (inn.off + inn.len) q → ¬ Seg out.blk out.off (out.off + 4 * min n out.len) q)
    (hy0 : 0 < n → y i = d i + prev) (hy : ∀ k < 3, k + 1 < n → y (i + (k + 1)) = d (i + (k + 1)) + y (i + k)) :
    wp ⟨Seg inn.blk inn.off (inn.off + inn.len), Seg out.blk out.off (out.off + 4 * n),
        fun k _ => boundsPanic k ∧ ¬ (n ≤ out.len ∧ B + psum sz (i + n) ≤ inn.off + inn.len)⟩
      (getUint32DeltaScalar inn out ctrl count prev) m
      (fun r m' => r + (psum sz i : Int) = (psum sz (i + n) : Int) ∧ n ≤ out.len ∧
        B + psum sz (i + n) ≤ inn.off + inn.len ∧
        ∀ k < n, wordAt m' out.blk (out.off + 4 * k) = y (i + k)) :=
  wp_conseq (getUint32Delta_specP sz d y i B inn out ctrl count prev m n hn hc hB hd hdj hy0 hy) (fun _ h => h) (fun _ h => h)
    (fun _ _ _ h => h.1) fun _ _ _ h => h

/-- The delta decoder stores number after number; where it stops when the data ends too early. -/
theorem get4Delta_specP (sz : Nat → Nat) (d y : Nat → U32) (i B : Nat) (inn : Bytes) (out : U32s) (ctrl : Byte)
    (prev : U32) (m : Mem) (hT : TablesLoaded m) (hc : Sizes ctrl sz i) (hB : inn.off = B + psum sz i)
    (hd : DecLim m inn.blk B sz d i (i + 4) (inn.off + inn.len)) (ho : 4 ≤ out.len)
    (hdj : ∀ q, Seg inn.blk inn.off (inn.off + inn.len) q → ¬ Seg out.blk out.off (out.off + 16) q)
    (hy0 : y i = d i + prev) (hy : ∀ k < 3, y (i + (k + 1)) = d (i + (k + 1)) + y (i + k)) :
    wp ⟨fun q => Seg inn.blk inn.off (inn.off + inn.len) q ∨ inTables q ∨
          Seg out.blk out.off (out.off + 16) q,
        Seg out.blk out.off (out.off + 16),
        fun k m' => boundsPanic k ∧ ¬ (B + psum sz (i + 4) ≤ inn.off + inn.len) ∧
          CutOut m m' out y sz i 4 B (inn.off + inn.len)⟩
      (get4uint32DeltaScalar inn out ctrl prev) m
      (fun _ m' => B + psum sz (i + 4) ≤ inn.off + inn.len ∧
        ∀ k < 4, wordAt m' out.blk (out.off + 4 * k) = y (i + k)) := by
  have b0 := hc.bounds 0 (by omega); have b1 := hc.bounds 1 (by omega)
  have b2 := hc.bounds 2 (by omega); have b3 := hc.bounds 3 (by omega)
  have c0 := hc.eq 0 (by omega); have c1 := hc.eq 1 (by omega)
  have c2 := hc.eq 2 (by omega); have c3 := hc.eq 3 (by omega)
  simp only [Nat.add_zero] at b0 c0
  have p1 := psum_one sz i; have p2 := psum_two sz i; have p3 := psum_three sz i
  have p4 := psum_four sz i
  have q1 := hy 0 (by omega); have q2 := hy 1 (by omega); have q3 := hy 2 (by omega)
  simp only [Nat.zero_add, Nat.reduceAdd, Nat.add_zero] at q1 q2 q3
  unfold get4uint32DeltaScalar
  simp only [Prog.bind_eq, Prog.pure_eq]
  refine wp_call (perNumLenRow_spec ctrl m hT) (fun _ h => .inr (.inl h)) (fun _ h => h.elim)
    (fun _ _ _ h => h.elim) ?_
  rintro ⟨l0, l1, l2, l3⟩ _ - ⟨e0, e1, e2, e3, rfl⟩
  simp only at e0 e1 e2 e3 ⊢
  rw [c0] at e0; rw [c1] at e1; rw [c2] at e2; rw [c3] at e3
  have e01 : (l0 + l1).toNat = sz i + sz (i + 1) := by rw [BitVec.toNat_add, e0, e1]; omega
  have e012 : (l0 + l1 + l2).toNat = sz i + sz (i + 1) + sz (i + 2) := by
    rw [BitVec.toNat_add, e01, e2]; omega
  have hW : ∀ a, a < 4 → ∀ k < 4, Seg out.blk out.off (out.off + 16) ⟨out.blk, out.off + 4 * a + k⟩ :=
    fun a ha k hk => ⟨rfl, by simp only; omega, by simp only; omega⟩
  rw [wp_bind]
  refine wp_getW ?_ (fun h => by omega)
  intro a ha hal
  have : a = 3 := by omega
  subst this
  refine ⟨fun k hk => .inr (.inr (hW 3 (by omega) k hk)), ?_⟩
  have hfr : ∀ (m1 : Mem) (j : Nat), j ≤ 4 → PartOut m m1 out y i j →
      ∀ (o l t : Nat), o = B + psum sz t → l = sz t → i ≤ t → t < i + 4 → o + l ≤ inn.off + inn.len →
      leNat m1 inn.blk o l = (d t).toNat := by
    rintro m1 j hj hm1 _ _ t rfl rfl h1 h2 h3
    refine (hd.frame (m' := m1) fun q hq => hm1.2 q fun hs => ?_) t h1 h2 (by rw [psum_one]; omega)
    exact hdj q ⟨hq.1, by have := hq.2.1; omega, hq.2.2⟩ ⟨hs.1, hs.2.1, by have := hs.2.2; omega⟩
  have hset : ∀ (m1 : Mem) (j : Nat), j < 4 → PartOut m m1 out y i j →
      PartOut m (m1.set32 out.blk (out.off + 4 * j) (y (i + j))) out y i (j + 1) := by
    intro m1 j hj hm1
    refine ⟨fun k hk => ?_, fun q hq => ?_⟩
    · by_cases e : k = j
      · subst e; exact wordAt_set32_self _ _ _ _
      · rw [wordAt_set32_other _ _ _ _ _ _ (by omega)]; exact hm1.1 k (by omega)
    · rw [set32_other _ _ _ _ _ (fun h => hq ⟨h.1, by omega, by omega⟩)]
      exact hm1.2 q fun hs => hq ⟨hs.1, hs.2.1, by have := hs.2.2; omega⟩
  have hm0 : PartOut m m out y i 0 := ⟨fun _ h => by omega, fun _ _ => rfl⟩
  -- number 0
  refine wp_call (decodeOne_spec _ l0 _ e0 b0.1 b0.2 m) ?_ (fun _ h => h.elim) ?_ ?_
  · rintro q ⟨h1, h2, h3⟩; try simp only at h1 h2 h3
    exact .inl ⟨h1, by omega, by omega⟩
  · rintro k m' hf ⟨rfl, h⟩; try simp only at h
    obtain rfl : m' = m := funext fun q => hf q id
    exact ⟨.inl rfl, by omega, 0, by omega, by simp only [Nat.add_zero]; omega, by simp only [Nat.add_zero]; omega, hm0⟩
  rintro r0 _ - ⟨hl0', hr0, rfl⟩
  try simp only [Nat.one_mul] at hl0' hr0
  rw [wp_bind]
  have hr0' : r0 = d i := BitVec.eq_of_toNat_eq (by
      rw [hr0]; exact hfr m 0 (by omega) hm0 _ _ i (by omega) rfl (by omega) (by omega) (by omega))
  refine wp_setW_ok 0 rfl (by omega) (hW 0 (by omega)) ?_
  have hm1 := hset m 0 (by omega) hm0
  rw [hr0', ← hy0]
  simp only [Nat.add_zero, Nat.zero_add] at hm1
  rw [show out.off + 4 * 0 = out.off by omega]
  generalize m.set32 out.blk _ (y i) = m1 at hm1 ⊢
  -- number 1
  rw [wp_bind]
  refine wp_from ?_ (fun h => by omega)
  intro a1 ha1 hl1
  have : a1 = (sz i) := by omega
  subst this
  refine wp_call (decodeOne_spec _ l1 _ e1 b1.1 b1.2 m1) ?_ (fun _ h => h.elim) ?_ ?_
  · rintro q ⟨h1, h2, h3⟩; try simp only at h1 h2 h3
    exact .inl ⟨h1, by omega, by omega⟩
  · rintro k m' hf ⟨rfl, h⟩; try simp only at h
    obtain rfl : m' = m1 := funext fun q => hf q id
    exact ⟨.inl rfl, by omega, 1, by omega, by omega, by simp only [Nat.add_assoc, Nat.reduceAdd]; omega, hm1⟩
  rintro r1 _ - ⟨hl1', hr1, rfl⟩
  try simp only [Nat.one_mul] at hl1' hr1
  rw [wp_bind]
  refine wp_getW_ok 0 rfl (by omega) (fun k hk => .inr (.inr (hW 0 (by omega) k hk))) ?_
  rw [hm1.1 0 (by omega), wp_bind]
  have hr1' : r1 = d (i + 1) := BitVec.eq_of_toNat_eq (by
      rw [hr1]; exact hfr m1 1 (by omega) hm1 _ _ (i + 1) (by omega) rfl (by omega) (by omega) (by omega))
  refine wp_setW_ok 1 rfl (by omega) (hW 1 (by omega)) ?_
  have hm2 := hset m1 1 (by omega) hm1
  rw [hr1', show i + 0 = i from rfl, ← q1]
  generalize m1.set32 out.blk _ (y (i + 1)) = m2 at hm2 ⊢
  -- number 2
  rw [wp_bind]
  refine wp_from ?_ (fun h => by omega)
  intro a2 ha2 hl2
  have : a2 = (sz i + sz (i + 1)) := by omega
  subst this
  refine wp_call (decodeOne_spec _ l2 _ e2 b2.1 b2.2 m2) ?_ (fun _ h => h.elim) ?_ ?_
  · rintro q ⟨h1, h2, h3⟩; try simp only at h1 h2 h3
    exact .inl ⟨h1, by omega, by omega⟩
  · rintro k m' hf ⟨rfl, h⟩; try simp only at h
    obtain rfl : m' = m2 := funext fun q => hf q id
    exact ⟨.inl rfl, by omega, 2, by omega, by omega, by simp only [Nat.add_assoc, Nat.reduceAdd]; omega, hm2⟩
  rintro r2 _ - ⟨hl2', hr2, rfl⟩
  try simp only [Nat.one_mul] at hl2' hr2
  rw [wp_bind]
  refine wp_getW_ok 1 rfl (by omega) (fun k hk => .inr (.inr (hW 1 (by omega) k hk))) ?_
  rw [hm2.1 1 (by omega), wp_bind]
  have hr2' : r2 = d (i + 2) := BitVec.eq_of_toNat_eq (by
      rw [hr2]; exact hfr m2 2 (by omega) hm2 _ _ (i + 2) (by omega) rfl (by omega) (by omega) (by omega))
  refine wp_setW_ok 2 rfl (by omega) (hW 2 (by omega)) ?_
  have hm3 := hset m2 2 (by omega) hm2
  rw [hr2', ← q2]
  generalize m2.set32 out.blk _ (y (i + 2)) = m3 at hm3 ⊢
  -- number 3
  rw [wp_bind]
  refine wp_from ?_ (fun h => by omega)
  intro a3 ha3 hl3
  have : a3 = (sz i + sz (i + 1) + sz (i + 2)) := by omega
  subst this
  refine wp_call (decodeOne_spec _ l3 _ e3 b3.1 b3.2 m3) ?_ (fun _ h => h.elim) ?_ ?_
  · rintro q ⟨h1, h2, h3⟩; try simp only at h1 h2 h3
    exact .inl ⟨h1, by omega, by omega⟩
  · rintro k m' hf ⟨rfl, h⟩; try simp only at h
    obtain rfl : m' = m3 := funext fun q => hf q id
    exact ⟨.inl rfl, by omega, 3, by omega, by omega, by simp only [Nat.add_assoc, Nat.reduceAdd]; omega, hm3⟩
  rintro r3 _ - ⟨hl3', hr3, rfl⟩
  try simp only [Nat.one_mul] at hl3' hr3
  rw [wp_bind]
  refine wp_getW_ok 2 rfl (by omega) (fun k hk => .inr (.inr (hW 2 (by omega) k hk))) ?_
  rw [hm3.1 2 (by omega)]
  have hr3' : r3 = d (i + 3) := BitVec.eq_of_toNat_eq (by
      rw [hr3]; exact hfr m3 3 (by omega) hm3 _ _ (i + 3) (by omega) rfl (by omega) (by omega) (by omega))
  refine wp_setW_ok 3 rfl (by omega) (hW 3 (by omega)) ?_
  have hm4 := hset m3 3 (by omega) hm3
  rw [hr3', ← q3]
  exact ⟨by omega, hm4.1⟩

end SVB
