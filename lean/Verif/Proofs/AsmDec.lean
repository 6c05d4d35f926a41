import Verif.Proofs.DecScalar
import Verif.Model.Asm

/-! # Specifications of the assembly decoders: symbolic execution of the instruction lists -/

set_option linter.unusedSimpArgs false
set_option maxRecDepth 4000

namespace SVB
open Spec Asm

theorem wp_loadN {c : Ctx} {n : Nat} {b : Block} {o : Nat} {m : Mem} {Q : List Byte → Mem → Prop}
    (hR : ∀ k < n, c.R ⟨b, o + k⟩)
    (h : ∀ l : List Byte, l.length = n → (∀ k < n, l.getD k 0 = m ⟨b, o + k⟩) → Q l m) :
    wp c (loadN ⟨b, o⟩ n) m Q := by
  induction n generalizing o Q with
  | zero => exact h [] rfl (fun k hk => by omega)
  | succ n ih =>
    simp only [loadN, Prog.bind_eq, Prog.pure_eq]
    rw [wp_bind]
    refine wp_load8 (hR 0 (by omega)) ?_
    rw [wp_bind]
    refine ih (o := o + 1) (fun k hk => ?_) ?_
    · have := hR (k + 1) (by omega)
      rwa [show o + (k + 1) = o + 1 + k by omega] at this
    · intro l hl hk
      refine h _ (by simp [hl]) ?_
      intro k hk'
      cases k with
      | zero => rfl
      | succ k =>
        have := hk k (by omega)
        simp only [List.getD_cons_succ]
        rw [this]; congr 2; omega

theorem wp_load16 {c : Ctx} {b : Block} {o : Nat} {m : Mem} {Q : Vec → Mem → Prop}
    (hR : ∀ k < 16, c.R ⟨b, o + k⟩)
    (h : ∀ v : Vec, (∀ k < 16, v k = m ⟨b, o + k⟩) → Q v m) : wp c (load16 ⟨b, o⟩) m Q := by
  simp only [load16, Prog.bind_eq, Prog.pure_eq]
  rw [wp_bind]
  exact wp_loadN hR fun l _ hl => h _ hl

theorem wp_storeN {c : Ctx} {n i : Nat} {b : Block} {o : Nat} {v : Vec} {m : Mem} {Q : Unit → Mem → Prop}
    (hW : ∀ k < n, c.W ⟨b, o + (i + k)⟩)
    (h : ∀ m' : Mem, (∀ k < n, m' ⟨b, o + (i + k)⟩ = v (i + k)) →
      (∀ q, ¬ Seg b (o + i) (o + i + n) q → m' q = m q) → Q () m') :
    wp c (storeN ⟨b, o⟩ v i n) m Q := by
  induction n generalizing i m Q with
  | zero => exact h m (fun k hk => by omega) (fun _ _ => rfl)
  | succ n ih =>
    simp only [storeN, Prog.bind_eq, Prog.pure_eq]
    rw [wp_bind]
    refine wp_store8 (hW 0 (by omega)) ?_
    refine ih (i := i + 1) (fun k hk => ?_) ?_
    · have := hW (k + 1) (by omega)
      rwa [show i + (k + 1) = i + 1 + k by omega] at this
    · intro m' h1 h2
      refine h m' ?_ ?_
      · intro k hk
        cases k with
        | zero =>
          rw [h2 _ (fun h => by have := h.2.1; simp only at this; omega)]
          exact Mem.set_same _ _ _
        | succ k =>
          have := h1 k (by omega)
          rwa [show i + 1 + k = i + (k + 1) by omega] at this
      · intro q hq
        rw [h2 q (fun h => hq ⟨h.1, by have := h.2.1; omega, by have := h.2.2; omega⟩)]
        apply Mem.set_ne
        rintro rfl
        exact hq ⟨rfl, by simp [Ptr.add], by simp only [Ptr.add]; omega⟩

theorem wp_store16 {c : Ctx} {b : Block} {o : Nat} {v : Vec} {m : Mem} {Q : Unit → Mem → Prop}
    (hW : ∀ k < 16, c.W ⟨b, o + k⟩)
    (h : ∀ m' : Mem, (∀ k < 16, m' ⟨b, o + k⟩ = v k) →
      (∀ q, ¬ Seg b o (o + 16) q → m' q = m q) → Q () m') :
    wp c (store16 ⟨b, o⟩ v) m Q := by
  refine wp_storeN (i := 0) (fun k hk => by simpa using hW k hk) ?_
  intro m' h1 h2
  exact h m' (fun k hk => by simpa using h1 k hk) (fun q hq => h2 q (by simpa using hq))

/-! ## Little-endian words -/

theorem append_toNat {n k : Nat} (x : BitVec n) (y : BitVec k) :
    (x ++ y).toNat = 2 ^ k * x.toNat + y.toNat := by
  rw [BitVec.toNat_append, Nat.shiftLeft_eq, Nat.mul_comm, Nat.two_pow_add_eq_or_of_lt y.isLt]

theorem append4_toNat (a b c d : Byte) :
    (a ++ b ++ c ++ d).toNat = d.toNat + 256 * (c.toNat + 256 * (b.toNat + 256 * a.toNat)) := by
  rw [append_toNat, append_toNat, append_toNat]; omega

theorem wordAt_toNat (m : Mem) (b : Block) (o : Nat) : (wordAt m b o).toNat = leNat m b o 4 := by
  unfold wordAt
  rw [append4_toNat]
  simp only [leNat, Nat.add_assoc, Nat.reduceAdd, Nat.mul_zero, Nat.add_zero]

theorem lane32_toNat (v : Vec) (n : Nat) : (lane32 v n).toNat =
    (v (4 * n)).toNat + 256 * ((v (4 * n + 1)).toNat + 256 * ((v (4 * n + 2)).toNat +
      256 * (v (4 * n + 3)).toNat)) := append4_toNat _ _ _ _

/-- A word whose bytes were stored from lane `n`. -/
theorem wordAt_lane {m : Mem} {b : Block} {o : Nat} {v : Vec} {n : Nat}
    (h : ∀ k < 4, m ⟨b, o + k⟩ = v (4 * n + k)) : wordAt m b o = lane32 v n := by
  have h0 := h 0 (by omega)
  simp only [Nat.add_zero] at h0
  simp only [wordAt, lane32, h0, h 1 (by omega), h 2 (by omega), h 3 (by omega)]

/-! ## Decoding shuffle -/

theorem gOff_bound : ∀ c < 256, ∀ n < 4, gOff c n + (c / 4 ^ n % 4 + 1) ≤ 16 := by decide +kernel

theorem decShuf_lane {m : Mem} (hT : TablesLoaded m) {mask vec : Vec} {b : Block} {o : Nat} (c : Byte)
    (hm : ∀ k < 16, mask k = m ⟨.decShuf, 16 * c.toNat + k⟩) (hv : ∀ k < 16, vec k = m ⟨b, o + k⟩)
    (n : Nat) (hn : n < 4) :
    (lane32 (pshufb mask vec) n).toNat = leNat m b (o + gOff c.toNat n) (code c n + 1) := by
  have hc := c.isLt
  have hb := gOff_bound _ hc n hn
  have key : ∀ k < 4, pshufb mask vec (4 * n + k) =
      if k < code c n + 1 then m ⟨b, o + gOff c.toNat n + k⟩ else 0 := by
    intro k hk
    have ht := decShuf_table _ hc n hn k hk
    have hmk : mask (4 * n + k) = _ := (hm (4 * n + k) (by omega)).trans (hT.decShuf _ hc (4 * n + k) (by omega))
    rw [ht] at hmk
    unfold pshufb
    rw [hmk]
    unfold code
    split
    · rename_i hlt
      have h16 : gOff c.toNat n + k < 16 := by omega
      have : (BitVec.ofNat 8 (gOff c.toNat n + k)).toNat = gOff c.toNat n + k := by
        rw [BitVec.toNat_ofNat]; omega
      have hmsb : (BitVec.ofNat 8 (gOff c.toNat n + k)).msb = false := by
        rw [BitVec.msb_eq_false_iff_two_mul_lt, this]; omega
      rw [hmsb, this, Nat.mod_eq_of_lt h16, hv _ h16]
      simp [Nat.add_assoc]
    · rfl
  have hcl := code_lt c n
  rw [lane32_toNat, key 1 (by omega), key 2 (by omega), key 3 (by omega)]
  have k0 := key 0 (by omega)
  simp only [Nat.add_zero] at k0
  rw [k0]
  generalize code c n = l at hcl
  obtain rfl | rfl | rfl | rfl : l = 0 ∨ l = 1 ∨ l = 2 ∨ l = 3 := by omega
  all_goals simp [leNat, Nat.add_assoc]

/-! ## Lanes of vector operations -/

theorem lane32_of32 (f : Nat → U32) (i : Nat) : lane32 (of32 f) i = f i := by
  unfold lane32 of32
  rw [show (4 * i + 3) / 4 = i by omega, show (4 * i + 3) % 4 = 3 by omega,
    show (4 * i + 2) / 4 = i by omega, show (4 * i + 2) % 4 = 2 by omega,
    show (4 * i + 1) / 4 = i by omega, show (4 * i + 1) % 4 = 1 by omega,
    show (4 * i) / 4 = i by omega, show (4 * i) % 4 = 0 by omega]
  apply BitVec.eq_of_toNat_eq
  rw [append4_toNat]
  have := (f i).isLt
  simp only [BitVec.extractLsb'_toNat, Nat.shiftRight_eq_div_pow, Nat.mul_zero, Nat.reduceMul, Nat.reducePow]
  omega

theorem lane32_pslldq4 (v : Vec) (i : Nat) :
    lane32 (pslldq 4 v) i = if i = 0 then 0 else lane32 v (i - 1) := by
  unfold lane32 pslldq
  by_cases h : i = 0
  · simp only [h, if_true, Nat.mul_zero, Nat.zero_add, Nat.reduceLT, Nat.zero_lt_succ]; rfl
  · simp only [h, if_false, show ¬ 4 * i + 3 < 4 by omega, show ¬ 4 * i + 2 < 4 by omega,
      show ¬ 4 * i + 1 < 4 by omega, show ¬ 4 * i < 4 by omega,
      show 4 * i + 3 - 4 = 4 * (i - 1) + 3 by omega, show 4 * i + 2 - 4 = 4 * (i - 1) + 2 by omega,
      show 4 * i + 1 - 4 = 4 * (i - 1) + 1 by omega, show 4 * i - 4 = 4 * (i - 1) by omega]

theorem lane32_pslldq8 (v : Vec) (i : Nat) :
    lane32 (pslldq 8 v) i = if i < 2 then 0 else lane32 v (i - 2) := by
  unfold lane32 pslldq
  by_cases h : i < 2
  · simp only [h, if_true, show 4 * i + 3 < 8 by omega, show 4 * i + 2 < 8 by omega,
      show 4 * i + 1 < 8 by omega, show 4 * i < 8 by omega]
    rfl
  · simp only [h, if_false, show ¬ 4 * i + 3 < 8 by omega, show ¬ 4 * i + 2 < 8 by omega,
      show ¬ 4 * i + 1 < 8 by omega, show ¬ 4 * i < 8 by omega,
      show 4 * i + 3 - 8 = 4 * (i - 2) + 3 by omega, show 4 * i + 2 - 8 = 4 * (i - 2) + 2 by omega,
      show 4 * i + 1 - 8 = 4 * (i - 2) + 1 by omega, show 4 * i - 8 = 4 * (i - 2) by omega]

theorem lane32_pshufd255 (v : Vec) (i : Nat) (hi : i < 4) : lane32 (pshufd 255 v) i = lane32 v 3 := by
  unfold pshufd
  rw [lane32_of32]
  obtain rfl | rfl | rfl | rfl : i = 0 ∨ i = 1 ∨ i = 2 ∨ i = 3 := by omega
  all_goals rfl

theorem lane32_palignr12 (hi lo : Vec) (i : Nat) (h : i < 4) :
    lane32 (palignr 12 hi lo) i = if i = 0 then lane32 lo 3 else lane32 hi (i - 1) := by
  obtain rfl | rfl | rfl | rfl : i = 0 ∨ i = 1 ∨ i = 2 ∨ i = 3 := by omega
  all_goals rfl

/-! ## Address arithmetic of the control bytes -/

theorem lo_toNat (c : U16) : ((c &&& 0xff#16).setWidth 8 : Byte).toNat = c.toNat % 256 := by
  have := c.isLt
  simp only [BitVec.toNat_setWidth, BitVec.toNat_and, BitVec.toNat_ofNat]
  rw [show (255 % 2 ^ 16 : Nat) = 2 ^ 8 - 1 by decide, Nat.and_two_pow_sub_one_eq_mod]
  omega

theorem hi_toNat (c : U16) : ((c >>> 8).setWidth 8 : Byte).toNat = c.toNat / 256 := by
  have := c.isLt
  simp only [BitVec.toNat_setWidth, BitVec.toNat_ushiftRight, Nat.shiftRight_eq_div_pow]
  omega

theorem addr_len (c : U16) : (BitVec.setWidth 64 (BitVec.setWidth 8 (BitVec.setWidth 64 c))).toNat =
    ((c &&& 0xff#16).setWidth 8 : Byte).toNat := by
  have := c.isLt
  rw [lo_toNat]
  simp only [BitVec.toNat_setWidth]; omega

theorem addr_lo (c : U16) :
    (BitVec.setWidth 64 (BitVec.setWidth 8 (BitVec.setWidth 64 c)) <<< 4).toNat =
    16 * ((c &&& 0xff#16).setWidth 8 : Byte).toNat := by
  have := c.isLt
  rw [lo_toNat]
  simp only [BitVec.toNat_setWidth, BitVec.toNat_shiftLeft, Nat.shiftLeft_eq]; omega

theorem addr_hi (c : U16) :
    (BitVec.setWidth 64 (BitVec.setWidth 16 (BitVec.setWidth 64 c)) >>> 8 <<< 4).toNat =
    16 * ((c >>> 8).setWidth 8 : Byte).toNat := by
  have := c.isLt
  rw [hi_toNat]
  simp only [BitVec.toNat_setWidth, BitVec.toNat_shiftLeft, BitVec.toNat_ushiftRight, Nat.shiftLeft_eq,
    Nat.shiftRight_eq_div_pow]; omega

theorem byte64_toNat (a : Byte) : (BitVec.setWidth 64 a).toNat = a.toNat := by
  have := a.isLt
  simp only [BitVec.toNat_setWidth]; omega

/-! ## The decoders -/

/-- What remains of both decoders after executing the register-only instructions; `F` gives the two
stored vectors in terms of the two shuffled ones. -/
def decShape (inn : Bytes) (out : U32s) (ctrl : U16) (F0 F1 : Vec → Vec → Vec) : Prog Unit :=
  (load8 (ctrlLenPtr.add (BitVec.setWidth 64 (BitVec.setWidth 8 (BitVec.setWidth 64 ctrl))).toNat)).bind fun a =>
  (load16 ((Slice.ptr inn).add 0)).bind fun a_1 =>
  (load16 (((Slice.ptr inn).add (BitVec.setWidth 64 a).toNat).add 0)).bind fun a =>
  (load16 (decShufPtr.add (BitVec.setWidth 64 (BitVec.setWidth 8 (BitVec.setWidth 64 ctrl)) <<< 4).toNat)).bind fun a_2 =>
  (load16 (decShufPtr.add
    (BitVec.setWidth 64 (BitVec.setWidth 16 (BitVec.setWidth 64 ctrl)) >>> 8 <<< 4).toNat)).bind fun a_3 =>
  (store16 ((Slice.ptr out).add 0) (F0 (pshufb a_2 a_1) (pshufb a_3 a))).bind fun _ =>
  (store16 ((Slice.ptr out).add 16) (F1 (pshufb a_2 a_1) (pshufb a_3 a))).bind fun _ => Prog.ret ()

theorem get8Fast_shape (inn : Bytes) (out : U32s) (ctrl : U16) :
    get8uint32FastAsm inn out ctrl decShufPtr ctrlLenPtr =
      decShape inn out ctrl (fun x _ => x) (fun _ x => x) := by
  simp only [get8uint32FastAsm, get8uint32FastText, decCoreText, decStoreText, List.cons_append,
    List.nil_append, exec, step, Frame.get, sliceArg, List.lookup, St.setGP, St.setX, Prog.bind_eq,
    Prog.pure_eq, Prog.ret_bind, Prog.bind_assoc, reduceCtorEq, if_true, if_false, Nat.reduceBEq,
    Nat.reduceAdd, Nat.zero_add, decShape]

/-- Running sums inside one vector. -/
def pre4 (x : Vec) : Vec := of32 fun i => lane32 (pslldq 4 x) i + lane32 x i
/-- Running sums inside one vector, plus a vector of carries. -/
def sum4 (c x : Vec) : Vec :=
  of32 fun i => lane32 (pslldq 8 (pre4 x)) i + lane32 (of32 fun i => lane32 c i + lane32 (pre4 x) i) i

theorem get8DeltaFast_shape (inn : Bytes) (out : U32s) (ctrl : U16) (prev : U32) :
    get8uint32DeltaFastAsm inn out ctrl prev decShufPtr ctrlLenPtr =
      decShape inn out ctrl (fun x _ => sum4 (of32 fun _ => prev) x)
        (fun x y => sum4 (pshufd 255 (sum4 (of32 fun _ => prev) x)) y) := by
  simp only [get8uint32DeltaFastAsm, get8uint32DeltaFastText, decCoreText, decStoreText, List.cons_append,
    List.nil_append, exec, step, Frame.get, sliceArg, List.lookup, St.setGP, St.setX, Prog.bind_eq,
    Prog.pure_eq, Prog.ret_bind, Prog.bind_assoc, reduceCtorEq, if_true, if_false, Nat.reduceBEq,
    Nat.reduceAdd, Nat.zero_add, decShape, sum4, pre4]

theorem gOff_psum {c : Byte} {sz : Nat → Nat} {i : Nat} (h : Sizes c sz i) (n : Nat) (hn : n ≤ 4) :
    psum sz i + gOff c.toNat n = psum sz (i + n) := by
  have h0 := h.eq 0 (by omega); have h1 := h.eq 1 (by omega)
  have h2 := h.eq 2 (by omega); have h3 := h.eq 3 (by omega)
  unfold gOff
  simp only [code, Nat.add_zero] at h0 h1 h2 h3
  obtain rfl | rfl | rfl | rfl | rfl : n = 0 ∨ n = 1 ∨ n = 2 ∨ n = 3 ∨ n = 4 := by omega
  all_goals simp only [psum, ← Nat.add_assoc, Nat.add_zero] at *
  all_goals omega

theorem decShape_spec (sz : Nat → Nat) (d y : Nat → U32) (i B lim : Nat) (inn : Bytes) (out : U32s)
    (ctrl : U16) (m : Mem) (F0 F1 : Vec → Vec → Vec) (hT : TablesLoaded m)
    (hc : ∀ k < 8, code16 ctrl k + 1 = sz (i + k)) (hB : inn.off = B + psum sz i)
    (hd : DecLim m inn.blk B sz d i (i + 8) lim)
    (hF : ∀ x0 x1 : Vec,
      (∀ k < 4, B + psum sz (i + k + 1) ≤ lim → lane32 x0 k = d (i + k)) →
      (∀ k < 4, B + psum sz (i + 4 + k + 1) ≤ lim → lane32 x1 k = d (i + 4 + k)) →
      (∀ k < 4, B + psum sz (i + k + 1) ≤ lim → lane32 (F0 x0 x1) k = y (i + k)) ∧
      (∀ k < 4, B + psum sz (i + 4 + k + 1) ≤ lim → lane32 (F1 x0 x1) k = y (i + 4 + k))) :
    wp ⟨fun q => Seg inn.blk (B + psum sz i) (B + psum sz i + 16) q ∨
          Seg inn.blk (B + psum sz (i + 4)) (B + psum sz (i + 4) + 16) q ∨ inTables q,
        Seg out.blk out.off (out.off + 32), fun _ _ => False⟩
      (decShape inn out ctrl F0 F1) m
      (fun _ m' => ∀ k < 8, B + psum sz (i + k + 1) ≤ lim →
        wordAt m' out.blk (out.off + 4 * k) = y (i + k)) := by
  have hlo : Sizes ((ctrl &&& 0xff#16).setWidth 8) sz i :=
    ⟨fun k hk => by rw [code16_lo ctrl k hk, hc k (by omega)]⟩
  have hhi : Sizes ((ctrl >>> 8).setWidth 8) sz (i + 4) :=
    ⟨fun k hk => by rw [code16_hi ctrl k hk, hc (k + 4) (by omega)]; congr 1; omega⟩
  have t1 := hlo.total
  unfold decShape
  rw [addr_len, addr_lo, addr_hi]
  generalize hclo : ((ctrl &&& 0xff#16).setWidth 8 : Byte) = clo at hlo t1 ⊢
  generalize hchi : ((ctrl >>> 8).setWidth 8 : Byte) = chi at hhi ⊢
  have l1 := clo.isLt
  have l2 := chi.isLt
  simp only [ctrlLenPtr, decShufPtr, Slice.ptr, Ptr.add, Nat.add_zero, Nat.zero_add]
  rw [wp_bind]
  refine wp_load8 (.inr (.inr (by simp only [inTables]; omega))) ?_
  have hsz := hT.ctrlLen' clo
  generalize m ⟨.ctrlLen, clo.toNat⟩ = a at hsz
  rw [byte64_toNat, hsz, wp_bind]
  refine wp_load16 (fun k hk => .inl ⟨rfl, by simp only; omega, by simp only; omega⟩) fun v0 hv0 => ?_
  rw [wp_bind]
  refine wp_load16 (fun k hk => .inr (.inl ⟨rfl, by simp only; omega, by simp only; omega⟩)) fun v1 hv1 => ?_
  rw [wp_bind]
  refine wp_load16 (fun k hk => .inr (.inr (by simp only [inTables]; omega))) fun k0 hk0 => ?_
  rw [wp_bind]
  refine wp_load16 (fun k hk => .inr (.inr (by simp only [inTables]; omega))) fun k1 hk1 => ?_
  have x0 : ∀ k < 4, B + psum sz (i + k + 1) ≤ lim → lane32 (pshufb k0 v0) k = d (i + k) := by
    intro k hk hl
    apply BitVec.eq_of_toNat_eq
    rw [decShuf_lane hT clo hk0 hv0 k hk, ← hd (i + k) (by omega) (by omega) hl, hlo.eq k hk]
    have := gOff_psum hlo k (by omega)
    congr 1; omega
  have x1 : ∀ k < 4, B + psum sz (i + 4 + k + 1) ≤ lim → lane32 (pshufb k1 v1) k = d (i + 4 + k) := by
    intro k hk hl
    apply BitVec.eq_of_toNat_eq
    rw [decShuf_lane hT chi hk1 hv1 k hk, ← hd (i + 4 + k) (by omega) (by omega) hl, hhi.eq k hk]
    have := gOff_psum hhi k (by omega)
    congr 1; omega
  obtain ⟨f0, f1⟩ := hF _ _ x0 x1
  generalize F0 (pshufb k0 v0) (pshufb k1 v1) = w0 at f0
  generalize F1 (pshufb k0 v0) (pshufb k1 v1) = w1 at f1
  rw [wp_bind]
  refine wp_store16 (fun k hk => ⟨rfl, by simp only; omega, by simp only; omega⟩) fun m1 h1 h1' => ?_
  rw [wp_bind]
  refine wp_store16 (fun k hk => ⟨rfl, by simp only; omega, by simp only; omega⟩) fun m2 h2 h2' => ?_
  intro k hk hl
  by_cases h4 : k < 4
  · rw [← f0 k h4 hl]
    apply wordAt_lane
    intro j hj
    rw [h2' _ (fun h => by have := h.2.1; simp only at this; omega), ← h1 (4 * k + j) (by omega)]
    congr 2; omega
  · have := f1 (k - 4) (by omega) (by rwa [show i + 4 + (k - 4) = i + k by omega])
    rw [show i + 4 + (k - 4) = i + k by omega] at this
    rw [← this]
    apply wordAt_lane
    intro j hj
    rw [← h2 (4 * (k - 4) + j) (by omega)]
    congr 2; omega

theorem get8Fast_spec (sz : Nat → Nat) (d : Nat → U32) (i B lim : Nat) (inn : Bytes) (out : U32s)
    (ctrl : U16) (m : Mem) (hT : TablesLoaded m)
    (hc : ∀ k < 8, code16 ctrl k + 1 = sz (i + k)) (hB : inn.off = B + psum sz i)
    (hd : DecLim m inn.blk B sz d i (i + 8) lim) :
    wp ⟨fun q => Seg inn.blk (B + psum sz i) (B + psum sz i + 16) q ∨
          Seg inn.blk (B + psum sz (i + 4)) (B + psum sz (i + 4) + 16) q ∨ inTables q,
        Seg out.blk out.off (out.off + 32), fun _ _ => False⟩
      (get8uint32FastAsm inn out ctrl decShufPtr ctrlLenPtr) m
      (fun _ m' => ∀ k < 8, B + psum sz (i + k + 1) ≤ lim →
        wordAt m' out.blk (out.off + 4 * k) = d (i + k)) := by
  rw [get8Fast_shape]
  exact decShape_spec sz d d i B lim inn out ctrl m _ _ hT hc hB hd fun _ _ h0 h1 => ⟨h0, h1⟩

theorem sum4_lane (c x : Vec) : lane32 (sum4 c x) 0 = lane32 x 0 + lane32 c 0 ∧
    lane32 (sum4 c x) 1 = lane32 x 1 + (lane32 x 0 + lane32 c 1) ∧
    lane32 (sum4 c x) 2 = lane32 x 2 + (lane32 x 1 + (lane32 x 0 + lane32 c 2)) ∧
    lane32 (sum4 c x) 3 = lane32 x 3 + (lane32 x 2 + (lane32 x 1 + (lane32 x 0 + lane32 c 3))) := by
  simp only [sum4, pre4, lane32_of32, lane32_pslldq4, lane32_pslldq8]
  refine ⟨?_, ?_, ?_, ?_⟩
  all_goals
    simp (config := {decide := true}) only [if_true, if_false, Nat.reduceSub, BitVec.zero_add]
    try ac_rfl

theorem get8DeltaFast_spec (sz : Nat → Nat) (d y : Nat → U32) (i B lim : Nat) (inn : Bytes) (out : U32s)
    (ctrl : U16) (prev : U32) (m : Mem) (hT : TablesLoaded m)
    (hc : ∀ k < 8, code16 ctrl k + 1 = sz (i + k)) (hB : inn.off = B + psum sz i)
    (hd : DecLim m inn.blk B sz d i (i + 8) lim)
    (hy0 : B + psum sz (i + 1) ≤ lim → y i = d i + prev)
    (hy : ∀ k < 7, y (i + (k + 1)) = d (i + (k + 1)) + y (i + k)) :
    wp ⟨fun q => Seg inn.blk (B + psum sz i) (B + psum sz i + 16) q ∨
          Seg inn.blk (B + psum sz (i + 4)) (B + psum sz (i + 4) + 16) q ∨ inTables q,
        Seg out.blk out.off (out.off + 32), fun _ _ => False⟩
      (get8uint32DeltaFastAsm inn out ctrl prev decShufPtr ctrlLenPtr) m
      (fun _ m' => ∀ k < 8, B + psum sz (i + k + 1) ≤ lim →
        wordAt m' out.blk (out.off + 4 * k) = y (i + k)) := by
  rw [get8DeltaFast_shape]
  refine decShape_spec sz d y i B lim inn out ctrl m _ _ hT hc hB hd fun x0 x1 h0 h1 => ?_
  have mono : ∀ a b, a ≤ b → psum sz a ≤ psum sz b := fun a b h => psum_mono h
  obtain ⟨s0, s1, s2, s3⟩ := sum4_lane (of32 fun _ => prev) x0
  simp only [lane32_of32] at s0 s1 s2 s3
  have a0 := h0 0 (by omega); have a1 := h0 1 (by omega); have a2 := h0 2 (by omega)
  have a3 := h0 3 (by omega)
  have e0 := h1 0 (by omega); have e1 := h1 1 (by omega); have e2 := h1 2 (by omega)
  have e3 := h1 3 (by omega)
  have y1 := hy 0 (by omega); have y2 := hy 1 (by omega); have y3 := hy 2 (by omega)
  have y4 := hy 3 (by omega); have y5 := hy 4 (by omega); have y6 := hy 5 (by omega)
  have y7 := hy 6 (by omega)
  simp only [Nat.zero_add, Nat.reduceAdd, Nat.add_zero, Nat.add_assoc] at *
  have m1 := mono (i + 1) (i + 2) (by omega); have m2 := mono (i + 2) (i + 3) (by omega)
  have m3 := mono (i + 3) (i + 4) (by omega); have m4 := mono (i + 4) (i + 5) (by omega)
  have m5 := mono (i + 5) (i + 6) (by omega); have m6 := mono (i + 6) (i + 7) (by omega)
  have m7 := mono (i + 7) (i + 8) (by omega)
  have g0 : B + psum sz (i + 1) ≤ lim → lane32 (sum4 (of32 fun _ => prev) x0) 0 = y i := fun h => by
    rw [s0, hy0 h, a0 h]
  have g1 : B + psum sz (i + 2) ≤ lim → lane32 (sum4 (of32 fun _ => prev) x0) 1 = y (i + 1) := fun h => by
    rw [s1, y1, hy0 (by omega), a0 (by omega), a1 h]
  have g2 : B + psum sz (i + 3) ≤ lim → lane32 (sum4 (of32 fun _ => prev) x0) 2 = y (i + 2) := fun h => by
    rw [s2, y2, y1, hy0 (by omega), a0 (by omega), a1 (by omega), a2 h]
  have g3 : B + psum sz (i + 4) ≤ lim → lane32 (sum4 (of32 fun _ => prev) x0) 3 = y (i + 3) := fun h => by
    rw [s3, y3, y2, y1, hy0 (by omega), a0 (by omega), a1 (by omega), a2 (by omega), a3 h]
  obtain ⟨t0, t1, t2, t3⟩ := sum4_lane (pshufd 255 (sum4 (of32 fun _ => prev) x0)) x1
  rw [lane32_pshufd255 _ _ (by omega)] at t0 t1 t2 t3
  constructor
  · intro k hk hl
    obtain rfl | rfl | rfl | rfl : k = 0 ∨ k = 1 ∨ k = 2 ∨ k = 3 := by omega
    · exact g0 hl
    · exact g1 hl
    · exact g2 hl
    · exact g3 hl
  · intro k hk hl
    obtain rfl | rfl | rfl | rfl : k = 0 ∨ k = 1 ∨ k = 2 ∨ k = 3 := by omega
    all_goals simp only [Nat.reduceAdd, Nat.add_zero] at hl ⊢
    · rw [t0, y4, g3 (by omega), e0 hl]
    · rw [t1, y5, y4, g3 (by omega), e0 (by omega), e1 hl]
    · rw [t2, y6, y5, y4, g3 (by omega), e0 (by omega), e1 (by omega), e2 hl]
    · rw [t3, y7, y6, y5, y4, g3 (by omega), e0 (by omega), e1 (by omega), e2 (by omega), e3 hl]

end SVB
