import Verif.Proofs.SafeStream

/-! # The writers when the input changes while they run

Footprint and absence of panics, whatever the loads from the input deliver. -/

set_option autoImplicit false
set_option linter.unusedSimpArgs false

namespace SVB
open Spec Asm

variable {F : Fp} {P : Panic → Prop}

/-- A slice whose elements may be loaded. -/
structure RdL {e : Nat} (F : Fp) (s : Slice e) : Prop where
  lc : s.len ≤ s.cap
  r : ∀ q : Ptr, q.blk = s.blk → s.off ≤ q.off → q.off < s.off + e * s.len → F.R q

theorem RdL.sub {e : Nat} {s : Slice e} (h : RdL F s) (a l : Nat) (ha : a + l ≤ s.len) :
    RdL F (⟨s.blk, s.off + e * a, l, s.cap - a⟩ : Slice e) where
  lc := by have := h.lc; simp only; omega
  r q h1 h2 h3 := by
    simp only at h1 h2 h3
    refine h.r q h1 (by omega) ?_
    have : e * s.len = e * (a + l) + e * (s.len - (a + l)) := by rw [← Nat.mul_add]; congr 1; omega
    rw [Nat.mul_add] at this
    omega

theorem RdL.r32 {s : U32s} (h : RdL F s) (hl : 8 ≤ s.len) (q : Ptr) (h1 : q.blk = s.blk) (h2 : s.off ≤ q.off)
    (h3 : q.off < s.off + 32) : F.R q := h.r q h1 h2 (by omega)

theorem WrOk.wb32 {s : Bytes} (h : WrOk F s) (hl : 32 ≤ s.len) : W32 F s := fun q h1 h2 h3 =>
  h.w q h1 h2 (by have := h.lc; omega)

theorem n_from {e : Nat} {s : Slice e} {i : Int} (a : Nat) (hi : i = a) (h : a ≤ s.len) :
    TriP P F (s.from i) (fun t => t = ⟨s.blk, s.off + e * a, s.len - a, s.cap - a⟩) := by
  subst hi
  unfold Slice.from
  rw [if_pos (by omega)]
  exact tri_ret (by simp)

theorem n_fromW {s : Bytes} {i : Int} (h : WrOk F s) (h0 : 0 ≤ i) (hl : i ≤ s.len) :
    TriP P F (s.from i) (fun t => WrOk F t ∧ (t.len : Int) = s.len - i) :=
  tri_mono (n_from i.toNat (by omega) (by omega)) fun _ e => by
    subst e; exact ⟨h.sub _ _ (by have := h.lc; omega), by simp only; omega⟩

theorem n_fromR {s : U32s} {i : Int} (h : RdL F s) (h0 : 0 ≤ i) (hl : i ≤ s.len) :
    TriP P F (s.from i) (fun t => RdL F t ∧ (t.len : Int) = s.len - i) :=
  tri_mono (n_from i.toNat (by omega) (by omega)) fun _ e => by
    subst e; exact ⟨h.sub _ _ (by have := h.lc; omega), by simp only; omega⟩

theorem n_range {e : Nat} {s : Slice e} {i j : Int} (a b : Nat) (hi : i = a) (hj : j = b) (hab : a ≤ b)
    (h : b ≤ s.cap) :
    TriP P F (s.range i j) (fun t => t = ⟨s.blk, s.off + e * a, b - a, s.cap - a⟩) := by
  subst hi hj
  unfold Slice.range
  rw [if_pos (by omega)]
  exact tri_ret (by simp)

theorem n_rangeR {s : U32s} {i j : Int} (h : RdL F s) (h0 : 0 ≤ i) (hij : i ≤ j) (hl : j ≤ s.len) :
    TriP P F (s.range i j) (fun t => RdL F t ∧ (t.len : Int) = j - i) :=
  tri_mono (n_range i.toNat j.toNat (by omega) (by omega) (by omega) (by have := h.lc; omega)) fun _ e => by
    subst e; exact ⟨h.sub _ _ (by have := h.lc; omega), by simp only; omega⟩

theorem n_rangeW {s : Bytes} {i j : Int} (h : WrOk F s) (h0 : 0 ≤ i) (hij : i ≤ j) (hl : j ≤ s.len) :
    TriP P F (s.range i j) (fun t => WrOk F t ∧ (t.len : Int) = j - i) :=
  tri_mono (n_range i.toNat j.toNat (by omega) (by omega) (by omega) (by have := h.lc; omega)) fun _ e => by
    subst e; exact ⟨h.sub _ _ (by have := h.lc; omega), by simp only; omega⟩

theorem n_getW {s : U32s} {i : Int} (h : RdL F s) (h0 : 0 ≤ i) (hl : i < s.len) :
    TriP P F (getW s i) (fun _ => True) := by
  unfold getW
  rw [if_pos ⟨h0, hl⟩]
  have hr : ∀ k < 4, F.R ⟨s.blk, s.off + 4 * i.toNat + k⟩ := fun k hk =>
    h.r _ rfl (by simp only; omega) (by have := h.lc; simp only; omega)
  exact ⟨hr 0 (by omega), fun _ _ => ⟨hr 1 (by omega), fun _ _ => ⟨hr 2 (by omega), fun _ _ =>
    ⟨hr 3 (by omega), fun _ _ => trivial⟩⟩⟩⟩

theorem n_setB {s : Bytes} {i : Int} {v : Byte} (h : WrOk F s) (h0 : 0 ≤ i) (hl : i < s.len) :
    TriP P F (setB s i v) (fun _ => True) := by
  unfold setB
  rw [if_pos ⟨h0, hl⟩]
  exact tri_store8 (h.w _ rfl (by simp) (by have := h.lc; simp only; omega))

theorem n_size {c : Byte} : TriP P F (controlByteToSize c) (fun s => s = (gSize c : Int)) := by
  unfold controlByteToSize
  refine tri_bind (tri_load8 (F.tabs _ c.isLt)) ?_
  rintro b ⟨m, hT, rfl⟩
  exact tri_ret (by rw [hT.ctrlLen'])

theorem n_encodeOne {num : U32} {out : Bytes} (h : WrOk F out) (hl : 4 ≤ out.len) :
    TriP P F (encodeOne num out) (fun s => 1 ≤ s ∧ s ≤ 4) := by
  have hb := byteLen_bounds num
  have hsz := encodeSize_eq num
  unfold encodeOne
  simp only [hsz, Prog.bind_eq, Prog.pure_eq]
  repeat' first
    | exact tri_ret (by omega)
    | (refine tri_bind (n_setB h (by omega) (by omega)) fun _ _ => ?_)
    | split

theorem n_put4 {inn : U32s} {out : Bytes} (hi : RdL F inn) (ho : WrOk F out) (hl : 4 ≤ inn.len)
    (hc : 16 ≤ out.len) : TriP P F (put4uint32Scalar inn out) (fun _ => True) := by
  unfold put4uint32Scalar
  simp only [Prog.bind_eq, Prog.pure_eq]
  iterate 5 refine tri_bind (n_getW hi (by omega) (by omega)) fun _ _ => ?_
  refine tri_bind (n_encodeOne ho (by omega)) fun _ l0 => ?_
  refine tri_bind (n_fromW ho (by omega) (by omega)) fun _ h => ?_
  refine tri_bind (n_encodeOne h.1 (by omega)) fun _ l1 => ?_
  refine tri_bind (n_fromW ho (by omega) (by omega)) fun _ h => ?_
  refine tri_bind (n_encodeOne h.1 (by omega)) fun _ l2 => ?_
  refine tri_bind (n_fromW ho (by omega) (by omega)) fun _ h => ?_
  exact tri_bind (n_encodeOne h.1 (by omega)) fun _ _ => tri_ret trivial

theorem n_put4Delta {inn : U32s} {out : Bytes} {prev : U32} (hi : RdL F inn) (ho : WrOk F out)
    (hl : 4 ≤ inn.len) (hc : 16 ≤ out.len) :
    TriP P F (put4uint32DeltaScalar inn out prev) (fun _ => True) := by
  unfold put4uint32DeltaScalar
  simp only [Prog.bind_eq, Prog.pure_eq]
  iterate 8 refine tri_bind (n_getW hi (by omega) (by omega)) fun _ _ => ?_
  refine tri_bind (n_encodeOne ho (by omega)) fun _ l0 => ?_
  refine tri_bind (n_fromW ho (by omega) (by omega)) fun _ h => ?_
  refine tri_bind (n_encodeOne h.1 (by omega)) fun _ l1 => ?_
  refine tri_bind (n_fromW ho (by omega) (by omega)) fun _ h => ?_
  refine tri_bind (n_encodeOne h.1 (by omega)) fun _ l2 => ?_
  refine tri_bind (n_fromW ho (by omega) (by omega)) fun _ h => ?_
  exact tri_bind (n_encodeOne h.1 (by omega)) fun _ _ => tri_ret trivial

/-- Loop invariant of `PutUint32Scalar`: the control byte has codes only for the numbers encoded so far. -/
structure PI (s : PutSt) : Prop where
  i0 : 0 ≤ s.i
  i4 : s.i ≤ 4
  shift : (s.shift : Int) = 2 * s.i
  t0 : 0 ≤ s.total
  total : s.total ≤ 4 * s.i
  ctrl : s.ctrl.toNat < 2 ^ (2 * s.i.toNat)

theorem PI.step {s : PutSt} (h : PI s) (hi : s.i < 4) {size : Int} (h1 : 1 ≤ size ∧ size ≤ 4) (prev : U32) :
    PI ⟨s.i + 1, s.ctrl ||| (BitVec.ofInt 8 (size - 1)) <<< s.shift, s.shift + 2, s.total + size, prev⟩ := by
  obtain ⟨i0, i4, sh, t0, tt, c⟩ := h
  refine ⟨by simp only; omega, by simp only; omega, by simp only; omega, by simp only; omega, by simp only; omega, ?_⟩
  simp only [BitVec.toNat_or, BitVec.toNat_shiftLeft]
  obtain ⟨i, ctrl, shift, total, pv⟩ := s
  simp only at *
  have hsz : (BitVec.ofInt 8 (size - 1)).toNat ≤ 3 := by
    obtain rfl | rfl | rfl | rfl : size = 1 ∨ size = 2 ∨ size = 3 ∨ size = 4 := by omega
    all_goals decide
  generalize (BitVec.ofInt 8 (size - 1)).toNat = z at hsz
  have e : 2 * (i + 1).toNat = shift + 2 := by omega
  have e' : 2 * i.toNat = shift := by omega
  rw [e]
  rw [e'] at c
  have hp : 2 ^ (shift + 2) = 2 ^ shift * 4 := by rw [Nat.pow_succ, Nat.pow_succ]; omega
  refine Nat.or_lt_two_pow (Nat.lt_of_lt_of_le c (by rw [hp]; omega)) ?_
  refine Nat.lt_of_le_of_lt (Nat.mod_le _ _) ?_
  rw [Nat.shiftLeft_eq, hp, Nat.mul_comm]
  exact Nat.mul_lt_mul_of_pos_left (by omega) (Nat.two_pow_pos _)

theorem size_short {c : Byte} {n : Nat} (hn : n ≤ 4) (h : c.toNat < 2 ^ (2 * n)) :
    n + 4 ≤ gSize c + n ∧ gSize c + n ≤ 4 + 4 * n := by
  have := c.isLt
  unfold gSize code
  obtain rfl | rfl | rfl | rfl | rfl : n = 0 ∨ n = 1 ∨ n = 2 ∨ n = 3 ∨ n = 4 := by omega
  all_goals simp only [Nat.reduceMul, Nat.reducePow] at *
  all_goals omega

theorem n_putN {inn : U32s} {out : Bytes} {count : Int} (hi : RdL F inn) (ho : WrOk F out) (h1 : 0 ≤ count)
    (h4 : count ≤ 4) (hl : count ≤ inn.len) (hc : 4 * count ≤ out.len) :
    TriP P F (putUint32Scalar inn out count) (fun c => c.toNat < 2 ^ (2 * count.toNat)) := by
  unfold putUint32Scalar
  simp only [Prog.bind_eq, Prog.pure_eq]
  split
  · subst count; exact tri_ret (by simp)
  rw [if_neg (by omega)]
  refine tri_bind (tri_loop (fun s : PutSt => PI s ∧ s.i ≤ count) (fun s => (4 - s.i).toNat) ?_ ?_ ?_ ?_) ?_
  · rintro s ⟨hI, hs⟩ hc'
    simp only [decide_eq_true_eq] at hc'
    have := hI.i0; have := hI.t0; have := hI.total
    refine tri_bind (n_getW hi (by omega) (by omega)) fun _ _ => ?_
    refine tri_bind (n_fromW ho (by omega) (by omega)) fun _ h => ?_
    refine tri_bind (n_encodeOne h.1 (by omega)) fun size hsz => tri_ret ⟨⟨hI.step (by omega) hsz _, ?_⟩, ?_⟩
    all_goals simp only; omega
  · rintro s ⟨hI, hs⟩ hc'
    simp only [decide_eq_true_eq] at hc'
    omega
  · exact ⟨⟨by simp, by simp, by simp, by simp, by simp, by simp⟩, by simp only; omega⟩
  · simp
  · rintro s ⟨⟨hI, hs⟩, hc'⟩
    simp only [decide_eq_false_iff_not] at hc'
    have : s.i = count := by omega
    exact tri_ret (this ▸ hI.ctrl)

theorem n_putNDelta {inn : U32s} {out : Bytes} {count : Int} {prev : U32} (hi : RdL F inn) (ho : WrOk F out)
    (h1 : 0 ≤ count) (h4 : count ≤ 4) (hl : count ≤ inn.len) (hc : 4 * count ≤ out.len) :
    TriP P F (putUint32DeltaScalar inn out count prev) (fun c => c.toNat < 2 ^ (2 * count.toNat)) := by
  unfold putUint32DeltaScalar
  simp only [Prog.bind_eq, Prog.pure_eq]
  split
  · subst count; exact tri_ret (by simp)
  rw [if_neg (by omega)]
  refine tri_bind (tri_loop (fun s : PutSt => PI s ∧ s.i ≤ count) (fun s => (4 - s.i).toNat) ?_ ?_ ?_ ?_) ?_
  · rintro s ⟨hI, hs⟩ hc'
    simp only [decide_eq_true_eq] at hc'
    have := hI.i0; have := hI.t0; have := hI.total
    refine tri_bind (n_getW hi (by omega) (by omega)) fun _ _ => ?_
    refine tri_bind (n_fromW ho (by omega) (by omega)) fun _ h => ?_
    refine tri_bind (n_encodeOne h.1 (by omega)) fun size hsz => ?_
    refine tri_bind (n_getW hi (by omega) (by omega)) fun _ _ => tri_ret ⟨⟨hI.step (by omega) hsz _, ?_⟩, ?_⟩
    all_goals simp only; omega
  · rintro s ⟨hI, hs⟩ hc'
    simp only [decide_eq_true_eq] at hc'
    omega
  · exact ⟨⟨by simp, by simp, by simp, by simp, by simp, by simp⟩, by simp only; omega⟩
  · simp
  · rintro s ⟨⟨hI, hs⟩, hc'⟩
    simp only [decide_eq_false_iff_not] at hc'
    have : s.i = count := by omega
    exact tri_ret (this ▸ hI.ctrl)


theorem n_sizeTwo {c : U16} : TriP P F (controlByteToSizeTwo c) (fun s => 8 ≤ s ∧ s ≤ 32) := tri_sizeTwo

/-! ## Loop bodies -/

/-- Progress of a writer of `n` numbers. -/
structure WJ (n : Nat) (s : WSt) : Prop where
  e0 : 0 ≤ s.encoded
  en : s.encoded ≤ n
  d0 : ((n + 3) / 4 : Nat) + s.encoded ≤ s.dataPos
  d4 : s.dataPos ≤ ((n + 3) / 4 : Nat) + 4 * s.encoded
  cp : 4 * s.ctrlPos = s.encoded ∨ (s.encoded = n ∧ s.ctrlPos = ((n + 3) / 4 : Nat))

/-- The new buffer. -/
structure Buf (F : Fp) (n : Nat) (st : Bytes) : Prop where
  w : WrOk F st
  len : st.len = (n + 3) / 4 + 4 * n
  cap : st.cap = st.len

/-- After a body that handles `k` numbers of full groups. -/
theorem WJ.next {n : Nat} {s : WSt} (h : WJ n s) {k g : Nat} {z : Int} {p : U32} (hk : k = 4 * g) (hc : 4 * s.ctrlPos = s.encoded)
    (hn : s.encoded + k ≤ n) (hz : k ≤ z) (hz' : z ≤ 4 * k) :
    WJ n ⟨s.encoded + k, s.dataPos + z, s.ctrlPos + g, p⟩ := by
  obtain ⟨e0, en, d0, d4, cp⟩ := h
  exact ⟨by simp only; omega, by simp only; omega, by simp only; omega, by simp only; omega, .inl (by simp only; omega)⟩

section
variable {inn : U32s} {st : Bytes} {s : WSt}

theorem n_ws16 (hi : RdL F inn) (hb : Buf F inn.len st) (h : WJ inn.len s) (hc : 4 * s.ctrlPos = s.encoded)
    (hn : s.encoded + 16 ≤ inn.len) :
    TriP P F (wsBody16 inn st s) (fun s' => WJ inn.len s' ∧ 4 * s'.ctrlPos = s'.encoded ∧
      s'.encoded = s.encoded + 16) := by
  have hl := hb.len; have e0 := h.e0; have d0 := h.d0; have d4 := h.d4
  unfold wsBody16
  simp only [Prog.bind_eq, Prog.pure_eq, jump_val, jumpCtrl_val]
  refine tri_bind (n_rangeR hi e0 (by omega) hn) fun nums ⟨hnums, nl⟩ => ?_
  refine tri_bind (n_fromW hb.w (by omega) (by omega)) fun data ⟨hd, dl⟩ => ?_
  refine tri_bind (n_rangeW hb.w (by omega) (by omega) (by omega)) fun ctrls ⟨hct, cl⟩ => ?_
  refine tri_bind (n_put4 hnums hd (by omega) (by omega)) fun c _ => ?_
  refine tri_bind (n_setB hct (by omega) (by omega)) fun _ _ => ?_
  refine tri_bind tri_size fun z0 hz0 => ?_
  refine tri_bind (n_fromR hnums (by omega) (by omega)) fun n1 ⟨h1, l1⟩ => ?_
  refine tri_bind (n_fromW hd (by omega) (by omega)) fun d1 ⟨g1, k1⟩ => ?_
  refine tri_bind (n_put4 h1 g1 (by omega) (by omega)) fun c _ => ?_
  refine tri_bind (n_setB hct (by omega) (by omega)) fun _ _ => ?_
  refine tri_bind tri_size fun z1 hz1 => ?_
  refine tri_bind (n_fromR hnums (by omega) (by omega)) fun n2 ⟨h2, l2⟩ => ?_
  refine tri_bind (n_fromW hd (by omega) (by omega)) fun d2 ⟨g2, k2⟩ => ?_
  refine tri_bind (n_put4 h2 g2 (by omega) (by omega)) fun c _ => ?_
  refine tri_bind (n_setB hct (by omega) (by omega)) fun _ _ => ?_
  refine tri_bind tri_size fun z2 hz2 => ?_
  refine tri_bind (n_fromR hnums (by omega) (by omega)) fun n3 ⟨h3, l3⟩ => ?_
  refine tri_bind (n_fromW hd (by omega) (by omega)) fun d3 ⟨g3, k3⟩ => ?_
  refine tri_bind (n_put4 h3 g3 (by omega) (by omega)) fun c _ => ?_
  refine tri_bind (n_setB hct (by omega) (by omega)) fun _ _ => ?_
  refine tri_bind tri_size fun z3 hz3 => ?_
  refine tri_ret ⟨h.next (k := 16) (g := 4) rfl hc hn (by omega) (by omega), ?_, rfl⟩
  simp only; omega

theorem n_ws4 (hi : RdL F inn) (hb : Buf F inn.len st) (h : WJ inn.len s) (hc : 4 * s.ctrlPos = s.encoded)
    (hn : s.encoded + 4 ≤ inn.len) :
    TriP P F (wsBody4 inn st s) (fun s' => WJ inn.len s' ∧ 4 * s'.ctrlPos = s'.encoded ∧
      s'.encoded = s.encoded + 4) := by
  have hl := hb.len; have e0 := h.e0; have d0 := h.d0; have d4 := h.d4
  unfold wsBody4
  simp only [Prog.bind_eq, Prog.pure_eq, jump_val, jumpCtrl_val]
  refine tri_bind (n_fromR hi (by omega) (by omega)) fun n1 ⟨h1, l1⟩ => ?_
  refine tri_bind (n_fromW hb.w (by omega) (by omega)) fun d1 ⟨g1, k1⟩ => ?_
  refine tri_bind (n_put4 h1 g1 (by omega) (by omega)) fun c _ => ?_
  refine tri_bind (n_setB hb.w (by omega) (by omega)) fun _ _ => ?_
  refine tri_bind tri_size fun z hz => ?_
  refine tri_ret ⟨h.next (k := 4) (g := 1) rfl hc hn (by omega) (by omega), ?_, rfl⟩
  simp only; omega

theorem n_wds16 (hi : RdL F inn) (hb : Buf F inn.len st) (h : WJ inn.len s) (hc : 4 * s.ctrlPos = s.encoded)
    (hn : s.encoded + 16 ≤ inn.len) :
    TriP P F (wdsBody16 inn st s) (fun s' => WJ inn.len s' ∧ 4 * s'.ctrlPos = s'.encoded ∧
      s'.encoded = s.encoded + 16) := by
  have hl := hb.len; have e0 := h.e0; have d0 := h.d0; have d4 := h.d4
  unfold wdsBody16
  simp only [Prog.bind_eq, Prog.pure_eq, jump_val, jumpCtrl_val]
  refine tri_bind (n_rangeR hi e0 (by omega) hn) fun nums ⟨hnums, nl⟩ => ?_
  refine tri_bind (n_fromW hb.w (by omega) (by omega)) fun data ⟨hd, dl⟩ => ?_
  refine tri_bind (n_rangeW hb.w (by omega) (by omega) (by omega)) fun ctrls ⟨hct, cl⟩ => ?_
  refine tri_bind (n_put4Delta hnums hd (by omega) (by omega)) fun c _ => ?_
  refine tri_bind (n_setB hct (by omega) (by omega)) fun _ _ => ?_
  refine tri_bind tri_size fun z0 hz0 => ?_
  refine tri_bind (n_fromR hnums (by omega) (by omega)) fun n1 ⟨h1, l1⟩ => ?_
  refine tri_bind (n_fromW hd (by omega) (by omega)) fun d1 ⟨g1, k1⟩ => ?_
  refine tri_bind (n_getW hnums (by omega) (by omega)) fun _ _ => ?_
  refine tri_bind (n_put4Delta h1 g1 (by omega) (by omega)) fun c _ => ?_
  refine tri_bind (n_setB hct (by omega) (by omega)) fun _ _ => ?_
  refine tri_bind tri_size fun z1 hz1 => ?_
  refine tri_bind (n_fromR hnums (by omega) (by omega)) fun n2 ⟨h2, l2⟩ => ?_
  refine tri_bind (n_fromW hd (by omega) (by omega)) fun d2 ⟨g2, k2⟩ => ?_
  refine tri_bind (n_getW hnums (by omega) (by omega)) fun _ _ => ?_
  refine tri_bind (n_put4Delta h2 g2 (by omega) (by omega)) fun c _ => ?_
  refine tri_bind (n_setB hct (by omega) (by omega)) fun _ _ => ?_
  refine tri_bind tri_size fun z2 hz2 => ?_
  refine tri_bind (n_fromR hnums (by omega) (by omega)) fun n3 ⟨h3, l3⟩ => ?_
  refine tri_bind (n_fromW hd (by omega) (by omega)) fun d3 ⟨g3, k3⟩ => ?_
  refine tri_bind (n_getW hnums (by omega) (by omega)) fun _ _ => ?_
  refine tri_bind (n_put4Delta h3 g3 (by omega) (by omega)) fun c _ => ?_
  refine tri_bind (n_setB hct (by omega) (by omega)) fun _ _ => ?_
  refine tri_bind tri_size fun z3 hz3 => ?_
  refine tri_bind (n_getW hnums (by omega) (by omega)) fun _ _ => ?_
  refine tri_ret ⟨h.next (k := 16) (g := 4) rfl hc hn (by omega) (by omega), ?_, rfl⟩
  simp only; omega

theorem n_wds4 (hi : RdL F inn) (hb : Buf F inn.len st) (h : WJ inn.len s) (hc : 4 * s.ctrlPos = s.encoded)
    (hn : s.encoded + 4 ≤ inn.len) :
    TriP P F (wdsBody4 inn st s) (fun s' => WJ inn.len s' ∧ 4 * s'.ctrlPos = s'.encoded ∧
      s'.encoded = s.encoded + 4) := by
  have hl := hb.len; have e0 := h.e0; have d0 := h.d0; have d4 := h.d4
  unfold wdsBody4
  simp only [Prog.bind_eq, Prog.pure_eq, jump_val, jumpCtrl_val]
  refine tri_bind (n_fromR hi (by omega) (by omega)) fun n1 ⟨h1, l1⟩ => ?_
  refine tri_bind (n_fromW hb.w (by omega) (by omega)) fun d1 ⟨g1, k1⟩ => ?_
  refine tri_bind (n_put4Delta h1 g1 (by omega) (by omega)) fun c _ => ?_
  refine tri_bind (n_setB hb.w (by omega) (by omega)) fun _ _ => ?_
  refine tri_bind tri_size fun z hz => ?_
  refine tri_bind (n_getW hi (by omega) (by omega)) fun _ _ => ?_
  refine tri_ret ⟨h.next (k := 4) (g := 1) rfl hc hn (by omega) (by omega), ?_, rfl⟩
  simp only; omega

theorem n_wf32 (hi : RdL F inn) (hb : Buf F inn.len st) (h : WJ inn.len s) (hc : 4 * s.ctrlPos = s.encoded)
    (hn : s.encoded + 32 ≤ inn.len) :
    TriP P F (wfBody32 inn st s) (fun s' => WJ inn.len s' ∧ 4 * s'.ctrlPos = s'.encoded ∧
      s'.encoded = s.encoded + 32) := by
  have hl := hb.len; have e0 := h.e0; have d0 := h.d0; have d4 := h.d4
  unfold wfBody32
  simp only [Prog.bind_eq, Prog.pure_eq, jump_val, jumpCtrl_val]
  refine tri_bind (n_rangeW hb.w (by omega) (by omega) (by omega)) fun ctrls ⟨hct, cl⟩ => ?_
  refine tri_bind (n_rangeR hi e0 (by omega) hn) fun nums ⟨hnums, nl⟩ => ?_
  refine tri_bind (n_fromW hb.w (by omega) (by omega)) fun data ⟨hd, dl⟩ => ?_
  refine tri_bind (n_rangeR hnums (by omega) (by omega) (by omega)) fun n0 ⟨h0, l0⟩ => ?_
  refine tri_bind (tri_put8F (h0.r32 (by omega)) (hd.wb32 (by omega))) fun c _ => ?_
  refine tri_bind (n_setB hct (by omega) (by omega)) fun _ _ => ?_
  refine tri_bind (n_setB hct (by omega) (by omega)) fun _ _ => ?_
  refine tri_bind tri_sizeTwo fun z0 hz0 => ?_
  refine tri_bind (n_rangeR hnums (by omega) (by omega) (by omega)) fun n1 ⟨h1, l1⟩ => ?_
  refine tri_bind (n_fromW hd (by omega) (by omega)) fun d1 ⟨g1, k1⟩ => ?_
  refine tri_bind (tri_put8F (h1.r32 (by omega)) (g1.wb32 (by omega))) fun c _ => ?_
  refine tri_bind (n_setB hct (by omega) (by omega)) fun _ _ => ?_
  refine tri_bind (n_setB hct (by omega) (by omega)) fun _ _ => ?_
  refine tri_bind tri_sizeTwo fun z1 hz1 => ?_
  refine tri_bind (n_rangeR hnums (by omega) (by omega) (by omega)) fun n2 ⟨h2, l2⟩ => ?_
  refine tri_bind (n_fromW hd (by omega) (by omega)) fun d2 ⟨g2, k2⟩ => ?_
  refine tri_bind (tri_put8F (h2.r32 (by omega)) (g2.wb32 (by omega))) fun c _ => ?_
  refine tri_bind (n_setB hct (by omega) (by omega)) fun _ _ => ?_
  refine tri_bind (n_setB hct (by omega) (by omega)) fun _ _ => ?_
  refine tri_bind tri_sizeTwo fun z2 hz2 => ?_
  refine tri_bind (n_fromR hnums (by omega) (by omega)) fun n3 ⟨h3, l3⟩ => ?_
  refine tri_bind (n_fromW hd (by omega) (by omega)) fun d3 ⟨g3, k3⟩ => ?_
  refine tri_bind (tri_put8F (h3.r32 (by omega)) (g3.wb32 (by omega))) fun c _ => ?_
  refine tri_bind (n_setB hct (by omega) (by omega)) fun _ _ => ?_
  refine tri_bind (n_setB hct (by omega) (by omega)) fun _ _ => ?_
  refine tri_bind tri_sizeTwo fun z3 hz3 => ?_
  refine tri_ret ⟨h.next (k := 32) (g := 8) rfl hc hn (by omega) (by omega), ?_, rfl⟩
  simp only; omega

theorem n_wf8 (hi : RdL F inn) (hb : Buf F inn.len st) (h : WJ inn.len s) (hc : 4 * s.ctrlPos = s.encoded)
    (hn : s.encoded + 8 ≤ inn.len) :
    TriP P F (wfBody8 inn st s) (fun s' => WJ inn.len s' ∧ 4 * s'.ctrlPos = s'.encoded ∧
      s'.encoded = s.encoded + 8) := by
  have hl := hb.len; have e0 := h.e0; have d0 := h.d0; have d4 := h.d4
  unfold wfBody8
  simp only [Prog.bind_eq, Prog.pure_eq, jump_val, jumpCtrl_val]
  refine tri_bind (n_fromR hi (by omega) (by omega)) fun n1 ⟨h1, l1⟩ => ?_
  refine tri_bind (n_fromW hb.w (by omega) (by omega)) fun d1 ⟨g1, k1⟩ => ?_
  refine tri_bind (tri_put8F (h1.r32 (by omega)) (g1.wb32 (by omega))) fun c _ => ?_
  refine tri_bind (n_setB hb.w (by omega) (by omega)) fun _ _ => ?_
  refine tri_bind (n_setB hb.w (by omega) (by omega)) fun _ _ => ?_
  refine tri_bind tri_sizeTwo fun z hz => ?_
  refine tri_ret ⟨h.next (k := 8) (g := 2) rfl hc hn (by omega) (by omega), ?_, rfl⟩
  simp only; omega

theorem n_wf1 (hi : RdL F inn) (hb : Buf F inn.len st) (h : WJ inn.len s) (hlt : s.ctrlPos < ((inn.len + 3) / 4 : Nat)) :
    TriP P F (wfBody1 inn.len inn st s) (fun s' => WJ inn.len s' ∧ s'.ctrlPos = s.ctrlPos + 1) := by
  have hl := hb.len; have e0 := h.e0; have d0 := h.d0; have d4 := h.d4
  have hc : 4 * s.ctrlPos = s.encoded := by rcases h.cp with h | h <;> omega
  unfold wfBody1
  simp only [Prog.bind_eq, Prog.pure_eq]
  generalize hk : (if (inn.len : Int) - s.encoded > 4 then (4 : Int) else inn.len - s.encoded) = k
  have hk' : 1 ≤ k ∧ k ≤ 4 ∧ s.encoded + k ≤ inn.len ∧ (k = 4 ∨ s.encoded + k = inn.len) := by
    split at hk <;> omega
  refine tri_bind (n_fromR hi (by omega) (by omega)) fun n1 ⟨h1, l1⟩ => ?_
  refine tri_bind (n_fromW hb.w (by omega) (by omega)) fun d1 ⟨g1, k1⟩ => ?_
  refine tri_bind (n_putN h1 g1 (by omega) (by omega) (by omega) (by omega)) fun c hcc => ?_
  refine tri_bind n_size fun z hz => ?_
  have := size_short (n := k.toNat) (by omega) hcc
  refine tri_bind (n_setB hb.w (by omega) (by omega)) fun _ _ => ?_
  refine tri_ret ⟨⟨?_, ?_, ?_, ?_, ?_⟩, rfl⟩
  all_goals simp only; omega

theorem n_wdf32 (hi : RdL F inn) (hb : Buf F inn.len st) (h : WJ inn.len s) (hc : 4 * s.ctrlPos = s.encoded)
    (hn : s.encoded + 32 ≤ inn.len) :
    TriP P F (wdfBody32 inn st s) (fun s' => WJ inn.len s' ∧ 4 * s'.ctrlPos = s'.encoded ∧
      s'.encoded = s.encoded + 32) := by
  have hl := hb.len; have e0 := h.e0; have d0 := h.d0; have d4 := h.d4
  unfold wdfBody32
  simp only [Prog.bind_eq, Prog.pure_eq, jump_val, jumpCtrl_val]
  refine tri_bind (n_rangeW hb.w (by omega) (by omega) (by omega)) fun ctrls ⟨hct, cl⟩ => ?_
  refine tri_bind (n_rangeR hi e0 (by omega) hn) fun nums ⟨hnums, nl⟩ => ?_
  refine tri_bind (n_fromW hb.w (by omega) (by omega)) fun data ⟨hd, dl⟩ => ?_
  refine tri_bind (n_rangeR hnums (by omega) (by omega) (by omega)) fun n0 ⟨h0, l0⟩ => ?_
  refine tri_bind (tri_put8DF (h0.r32 (by omega)) (hd.wb32 (by omega))) fun c _ => ?_
  refine tri_bind (n_setB hct (by omega) (by omega)) fun _ _ => ?_
  refine tri_bind (n_setB hct (by omega) (by omega)) fun _ _ => ?_
  refine tri_bind tri_sizeTwo fun z0 hz0 => ?_
  refine tri_bind (n_rangeR hnums (by omega) (by omega) (by omega)) fun n1 ⟨h1, l1⟩ => ?_
  refine tri_bind (n_fromW hd (by omega) (by omega)) fun d1 ⟨g1, k1⟩ => ?_
  refine tri_bind (n_getW hnums (by omega) (by omega)) fun _ _ => ?_
  refine tri_bind (tri_put8DF (h1.r32 (by omega)) (g1.wb32 (by omega))) fun c _ => ?_
  refine tri_bind (n_setB hct (by omega) (by omega)) fun _ _ => ?_
  refine tri_bind (n_setB hct (by omega) (by omega)) fun _ _ => ?_
  refine tri_bind tri_sizeTwo fun z1 hz1 => ?_
  refine tri_bind (n_rangeR hnums (by omega) (by omega) (by omega)) fun n2 ⟨h2, l2⟩ => ?_
  refine tri_bind (n_fromW hd (by omega) (by omega)) fun d2 ⟨g2, k2⟩ => ?_
  refine tri_bind (n_getW hnums (by omega) (by omega)) fun _ _ => ?_
  refine tri_bind (tri_put8DF (h2.r32 (by omega)) (g2.wb32 (by omega))) fun c _ => ?_
  refine tri_bind (n_setB hct (by omega) (by omega)) fun _ _ => ?_
  refine tri_bind (n_setB hct (by omega) (by omega)) fun _ _ => ?_
  refine tri_bind tri_sizeTwo fun z2 hz2 => ?_
  refine tri_bind (n_fromR hnums (by omega) (by omega)) fun n3 ⟨h3, l3⟩ => ?_
  refine tri_bind (n_fromW hd (by omega) (by omega)) fun d3 ⟨g3, k3⟩ => ?_
  refine tri_bind (n_getW hnums (by omega) (by omega)) fun _ _ => ?_
  refine tri_bind (tri_put8DF (h3.r32 (by omega)) (g3.wb32 (by omega))) fun c _ => ?_
  refine tri_bind (n_setB hct (by omega) (by omega)) fun _ _ => ?_
  refine tri_bind (n_setB hct (by omega) (by omega)) fun _ _ => ?_
  refine tri_bind tri_sizeTwo fun z3 hz3 => ?_
  refine tri_bind (n_getW hnums (by omega) (by omega)) fun _ _ => ?_
  refine tri_ret ⟨h.next (k := 32) (g := 8) rfl hc hn (by omega) (by omega), ?_, rfl⟩
  simp only; omega

theorem n_wdf8 (hi : RdL F inn) (hb : Buf F inn.len st) (h : WJ inn.len s) (hc : 4 * s.ctrlPos = s.encoded)
    (hn : s.encoded + 8 ≤ inn.len) :
    TriP P F (wdfBody8 inn st s) (fun s' => WJ inn.len s' ∧ 4 * s'.ctrlPos = s'.encoded ∧
      s'.encoded = s.encoded + 8) := by
  have hl := hb.len; have e0 := h.e0; have d0 := h.d0; have d4 := h.d4
  unfold wdfBody8
  simp only [Prog.bind_eq, Prog.pure_eq, jump_val, jumpCtrl_val]
  refine tri_bind (n_fromR hi (by omega) (by omega)) fun n1 ⟨h1, l1⟩ => ?_
  refine tri_bind (n_fromW hb.w (by omega) (by omega)) fun d1 ⟨g1, k1⟩ => ?_
  refine tri_bind (tri_put8DF (h1.r32 (by omega)) (g1.wb32 (by omega))) fun c _ => ?_
  refine tri_bind (n_setB hb.w (by omega) (by omega)) fun _ _ => ?_
  refine tri_bind (n_setB hb.w (by omega) (by omega)) fun _ _ => ?_
  refine tri_bind tri_sizeTwo fun z hz => ?_
  refine tri_bind (n_getW hi (by omega) (by omega)) fun _ _ => ?_
  refine tri_ret ⟨h.next (k := 8) (g := 2) rfl hc hn (by omega) (by omega), ?_, rfl⟩
  simp only; omega

theorem n_wdf1 (hi : RdL F inn) (hb : Buf F inn.len st) (h : WJ inn.len s) (hlt : s.ctrlPos < ((inn.len + 3) / 4 : Nat)) :
    TriP P F (wdfBody1 inn.len inn st s) (fun s' => WJ inn.len s' ∧ s'.ctrlPos = s.ctrlPos + 1) := by
  have hl := hb.len; have e0 := h.e0; have d0 := h.d0; have d4 := h.d4
  have hc : 4 * s.ctrlPos = s.encoded := by rcases h.cp with h | h <;> omega
  unfold wdfBody1
  simp only [Prog.bind_eq, Prog.pure_eq]
  generalize hk : (if (inn.len : Int) - s.encoded > 4 then (4 : Int) else inn.len - s.encoded) = k
  have hk' : 1 ≤ k ∧ k ≤ 4 ∧ s.encoded + k ≤ inn.len ∧ (k = 4 ∨ s.encoded + k = inn.len) := by
    split at hk <;> omega
  refine tri_bind (n_fromR hi (by omega) (by omega)) fun n1 ⟨h1, l1⟩ => ?_
  refine tri_bind (n_fromW hb.w (by omega) (by omega)) fun d1 ⟨g1, k1⟩ => ?_
  refine tri_bind (n_putNDelta h1 g1 (by omega) (by omega) (by omega) (by omega)) fun c hcc => ?_
  refine tri_bind n_size fun z hz => ?_
  have := size_short (n := k.toNat) (by omega) hcc
  refine tri_bind (n_setB hb.w (by omega) (by omega)) fun _ _ => ?_
  refine tri_bind (n_getW hi (by omega) (by omega)) fun _ _ => ?_
  refine tri_ret ⟨⟨?_, ?_, ?_, ?_, ?_⟩, rfl⟩
  all_goals simp only; omega

end

/-! ## The writers -/

/-- What a writer of `n` numbers returns: the start of its new buffer, `⌈n/4⌉` control bytes and one to four bytes
per number. -/
def WRes (fresh : Block) (n : Nat) (r : Bytes) : Prop :=
  r.blk = fresh ∧ r.off = 0 ∧ r.cap = (n + 3) / 4 + 4 * n ∧ (n + 3) / 4 + n ≤ r.len ∧ r.len ≤ r.cap

theorem n_zeroFill {p : Ptr} {n : Nat} (h : ∀ k < n, F.W ⟨p.blk, p.off + k⟩) :
    TriP P F (zeroFill p n) (fun _ => True) := by
  induction n generalizing p with
  | zero => exact tri_ret trivial
  | succ n ih =>
    unfold zeroFill
    refine tri_bind (tri_store8 (h 0 (by omega))) fun _ _ => ih fun k hk => ?_
    have := h (k + 1) (by omega)
    rwa [show p.off + (k + 1) = (p.add 1).off + k by simp only [Ptr.add]; omega] at this

theorem n_make {fresh : Block} {n : Nat} {k : Int} (hk : k = ((ctrlLen n + 4 * n : Nat) : Int))
    (hw : ∀ q : Ptr, q.blk = fresh → q.off < ctrlLen n + 4 * n → F.W q) :
    TriP P F (makeBytes fresh k) (fun t => t = ⟨fresh, 0, ctrlLen n + 4 * n, ctrlLen n + 4 * n⟩) := by
  subst hk
  unfold makeBytes
  rw [if_pos (by omega)]
  simp only [Prog.bind_eq, Prog.pure_eq, Int.toNat_natCast]
  exact tri_bind (n_zeroFill fun k hk => hw _ rfl (by simp only; omega)) fun _ _ => tri_ret rfl

theorem n_result {fresh : Block} {n : Nat} {i : Int} (h0 : ((n + 3) / 4 : Nat) + (n : Int) ≤ i)
    (h4 : i ≤ ((n + 3) / 4 : Nat) + 4 * (n : Int)) :
    TriP P F ((⟨fresh, 0, ctrlLen n + 4 * n, ctrlLen n + 4 * n⟩ : Bytes).range 0 i) (WRes fresh n) := by
  have hC : ctrlLen n = (n + 3) / 4 := rfl
  refine tri_mono (n_range 0 i.toNat rfl (by omega) (by omega) (by simp only; omega)) ?_
  rintro _ rfl
  exact ⟨rfl, rfl, by simp only; omega, by simp only; omega, by simp only; omega⟩

variable {fresh : Block} {inn : U32s}

theorem n_writeAllScalar (hlen : inn.len < 2 ^ 60) (hi : RdL F inn)
    (hw : ∀ q : Ptr, q.blk = fresh → q.off < ctrlLen inn.len + 4 * inn.len → F.W q) :
    TriP P F (writeAllScalar fresh inn) (WRes fresh inn.len) := by
  have hC : ctrlLen inn.len = (inn.len + 3) / 4 := rfl
  unfold writeAllScalar
  simp only [Prog.bind_eq, Prog.pure_eq]
  rw [header_ctrlLen (by omega), header_total (by omega), header_jump (by omega), header_lowest4 (by omega)]
  refine tri_bind (n_make rfl hw) ?_
  rintro _ rfl
  have hb : Buf F inn.len ⟨fresh, 0, ctrlLen inn.len + 4 * inn.len, ctrlLen inn.len + 4 * inn.len⟩ :=
    ⟨⟨Nat.le_refl _, fun q h1 _ h3 => hw q h1 (by simp only at h3; omega)⟩, by simp only; omega, rfl⟩
  refine tri_bind (tri_loop (fun s : WSt => WJ inn.len s ∧ 4 * s.ctrlPos = s.encoded ∧ s.encoded % 16 = 0)
    (fun s => (inn.len - s.encoded).toNat) ?_ ?_ ?_ ?_) ?_
  · rintro s ⟨hJ, hc, h16⟩ hlt
    simp only [decide_eq_true_eq] at hlt
    have := hJ.e0
    refine tri_mono (n_ws16 hi hb hJ hc (by omega)) ?_
    rintro s' ⟨a, b, c⟩
    exact ⟨⟨a, b, by omega⟩, by omega⟩
  · rintro s ⟨hJ, hc, h16⟩ hlt
    simp only [decide_eq_true_eq] at hlt
    omega
  · exact ⟨⟨by simp, by simp only; omega, by simp only; omega, by simp only; omega, by simp⟩, by simp, by simp⟩
  · simp only; omega
  rintro s1 ⟨⟨hJ1, hc1, -⟩, -⟩
  refine tri_bind (tri_loop (fun s : WSt => WJ inn.len s ∧ 4 * s.ctrlPos = s.encoded)
    (fun s => (inn.len - s.encoded).toNat) ?_ ?_ ⟨hJ1, hc1⟩ ?_) ?_
  · rintro s ⟨hJ, hc⟩ hlt
    simp only [decide_eq_true_eq] at hlt
    have := hJ.e0
    refine tri_mono (n_ws4 hi hb hJ hc (by omega)) ?_
    rintro s' ⟨a, b, c⟩
    exact ⟨⟨a, b⟩, by omega⟩
  · rintro s ⟨hJ, hc⟩ hlt
    simp only [decide_eq_true_eq] at hlt
    omega
  · have := hJ1.e0; omega
  rintro s ⟨⟨hJ, hc⟩, hx⟩
  simp only [decide_eq_false_iff_not] at hx
  have e0 := hJ.e0; have en := hJ.en; have d0 := hJ.d0; have d4 := hJ.d4
  have hl := hb.len
  split
  · rename_i hne
    generalize hk : (inn.len : Int) - (inn.len / 4 * 4 : Nat) = k
    refine tri_bind (n_fromR hi (by omega) (by omega)) fun n1 ⟨h1, l1⟩ => ?_
    refine tri_bind (n_fromW hb.w (by omega) (by simp only at hl ⊢; omega)) fun d1 ⟨g1, k1⟩ => ?_
    simp only at k1
    refine tri_bind (n_putN h1 g1 (by omega) (by omega) (by omega) (by omega)) fun c hcc => ?_
    refine tri_bind n_size fun z hz => ?_
    have := size_short (n := k.toNat) (by omega) hcc
    refine tri_bind (n_setB hb.w (by omega) (by simp only; omega)) fun _ _ => ?_
    exact n_result (by omega) (by omega)
  · exact n_result (by omega) (by omega)

theorem n_writeAllDeltaScalar {prev : U32} (hlen : inn.len < 2 ^ 60) (hi : RdL F inn)
    (hw : ∀ q : Ptr, q.blk = fresh → q.off < ctrlLen inn.len + 4 * inn.len → F.W q) :
    TriP P F (writeAllDeltaScalar fresh inn prev) (WRes fresh inn.len) := by
  have hC : ctrlLen inn.len = (inn.len + 3) / 4 := rfl
  unfold writeAllDeltaScalar
  simp only [Prog.bind_eq, Prog.pure_eq]
  rw [header_ctrlLen (by omega), header_total (by omega), header_jump (by omega), header_lowest4 (by omega)]
  refine tri_bind (n_make rfl hw) ?_
  rintro _ rfl
  have hb : Buf F inn.len ⟨fresh, 0, ctrlLen inn.len + 4 * inn.len, ctrlLen inn.len + 4 * inn.len⟩ :=
    ⟨⟨Nat.le_refl _, fun q h1 _ h3 => hw q h1 (by simp only at h3; omega)⟩, by simp only; omega, rfl⟩
  refine tri_bind (tri_loop (fun s : WSt => WJ inn.len s ∧ 4 * s.ctrlPos = s.encoded ∧ s.encoded % 16 = 0)
    (fun s => (inn.len - s.encoded).toNat) ?_ ?_ ?_ ?_) ?_
  · rintro s ⟨hJ, hc, h16⟩ hlt
    simp only [decide_eq_true_eq] at hlt
    have := hJ.e0
    refine tri_mono (n_wds16 hi hb hJ hc (by omega)) ?_
    rintro s' ⟨a, b, c⟩
    exact ⟨⟨a, b, by omega⟩, by omega⟩
  · rintro s ⟨hJ, hc, h16⟩ hlt
    simp only [decide_eq_true_eq] at hlt
    omega
  · exact ⟨⟨by simp, by simp only; omega, by simp only; omega, by simp only; omega, by simp⟩, by simp, by simp⟩
  · simp only; omega
  rintro s1 ⟨⟨hJ1, hc1, -⟩, -⟩
  refine tri_bind (tri_loop (fun s : WSt => WJ inn.len s ∧ 4 * s.ctrlPos = s.encoded)
    (fun s => (inn.len - s.encoded).toNat) ?_ ?_ ⟨hJ1, hc1⟩ ?_) ?_
  · rintro s ⟨hJ, hc⟩ hlt
    simp only [decide_eq_true_eq] at hlt
    have := hJ.e0
    refine tri_mono (n_wds4 hi hb hJ hc (by omega)) ?_
    rintro s' ⟨a, b, c⟩
    exact ⟨⟨a, b⟩, by omega⟩
  · rintro s ⟨hJ, hc⟩ hlt
    simp only [decide_eq_true_eq] at hlt
    omega
  · have := hJ1.e0; omega
  rintro s ⟨⟨hJ, hc⟩, hx⟩
  simp only [decide_eq_false_iff_not] at hx
  have e0 := hJ.e0; have en := hJ.en; have d0 := hJ.d0; have d4 := hJ.d4
  have hl := hb.len
  split
  · rename_i hne
    generalize hk : (inn.len : Int) - (inn.len / 4 * 4 : Nat) = k
    refine tri_bind (n_fromR hi (by omega) (by omega)) fun n1 ⟨h1, l1⟩ => ?_
    refine tri_bind (n_fromW hb.w (by omega) (by simp only at hl ⊢; omega)) fun d1 ⟨g1, k1⟩ => ?_
    simp only at k1
    refine tri_bind (n_putNDelta h1 g1 (by omega) (by omega) (by omega) (by omega)) fun c hcc => ?_
    refine tri_bind n_size fun z hz => ?_
    have := size_short (n := k.toNat) (by omega) hcc
    refine tri_bind (n_setB hb.w (by omega) (by simp only; omega)) fun _ _ => ?_
    exact n_result (by omega) (by omega)
  · exact n_result (by omega) (by omega)

theorem n_writeAllFast (hlen : inn.len < 2 ^ 60) (hi : RdL F inn)
    (hw : ∀ q : Ptr, q.blk = fresh → q.off < ctrlLen inn.len + 4 * inn.len → F.W q) :
    TriP P F (writeAllFast fresh inn) (WRes fresh inn.len) := by
  have hC : ctrlLen inn.len = (inn.len + 3) / 4 := rfl
  unfold writeAllFast
  simp only [Prog.bind_eq]
  rw [header_ctrlLen (by omega), header_total (by omega), header_lowest32 (by omega)]
  refine tri_bind (n_make rfl hw) ?_
  rintro _ rfl
  have hb : Buf F inn.len ⟨fresh, 0, ctrlLen inn.len + 4 * inn.len, ctrlLen inn.len + 4 * inn.len⟩ :=
    ⟨⟨Nat.le_refl _, fun q h1 _ h3 => hw q h1 (by simp only at h3; omega)⟩, by simp only; omega, rfl⟩
  refine tri_bind (tri_loop (fun s : WSt => WJ inn.len s ∧ 4 * s.ctrlPos = s.encoded ∧ s.encoded % 32 = 0)
    (fun s => (inn.len - s.encoded).toNat) ?_ ?_ ?_ ?_) ?_
  · rintro s ⟨hJ, hc, h16⟩ hlt
    simp only [decide_eq_true_eq] at hlt
    have := hJ.e0
    refine tri_mono (n_wf32 hi hb hJ hc (by omega)) ?_
    rintro s' ⟨a, b, c⟩
    exact ⟨⟨a, b, by omega⟩, by omega⟩
  · rintro s ⟨hJ, hc, h16⟩ hlt
    simp only [decide_eq_true_eq] at hlt
    omega
  · exact ⟨⟨by simp, by simp only; omega, by simp only; omega, by simp only; omega, by simp⟩, by simp, by simp⟩
  · simp only; omega
  rintro s1 ⟨⟨hJ1, hc1, -⟩, -⟩
  refine tri_bind (tri_loop (fun s : WSt => WJ inn.len s ∧ 4 * s.ctrlPos = s.encoded)
    (fun s => (inn.len - s.encoded).toNat) ?_ ?_ ⟨hJ1, hc1⟩ ?_) ?_
  · rintro s ⟨hJ, hc⟩ hlt
    simp only [decide_eq_true_eq] at hlt
    have := hJ.e0
    refine tri_mono (n_wf8 hi hb hJ hc (by omega)) ?_
    rintro s' ⟨a, b, c⟩
    exact ⟨⟨a, b⟩, by omega⟩
  · rintro s ⟨hJ, hc⟩ hlt
    simp only [decide_eq_true_eq] at hlt
    omega
  · have := hJ1.e0; omega
  rintro s2 ⟨⟨hJ2, hc2⟩, -⟩
  refine tri_bind (tri_loop (fun s : WSt => WJ inn.len s ∧ 0 ≤ s.ctrlPos)
    (fun s => (ctrlLen inn.len - s.ctrlPos).toNat) ?_ ?_ ⟨hJ2, by have := hJ2.e0; omega⟩ ?_) ?_
  · rintro s ⟨hJ, hc⟩ hlt
    simp only [decide_eq_true_eq] at hlt
    refine tri_mono (n_wf1 hi hb hJ hlt) ?_
    rintro s' ⟨a, b⟩
    exact ⟨⟨a, by omega⟩, by omega⟩
  · rintro s ⟨hJ, hc⟩ hlt
    simp only [decide_eq_true_eq] at hlt
    omega
  · have := hJ2.e0; omega
  rintro s ⟨⟨hJ, hc⟩, hx⟩
  simp only [decide_eq_false_iff_not] at hx
  have e0 := hJ.e0; have en := hJ.en; have d0 := hJ.d0; have d4 := hJ.d4
  have hn : s.encoded = inn.len := by rcases hJ.cp with h | h <;> omega
  exact n_result (by omega) (by omega)

theorem n_writeAllDeltaFast {prev : U32} (hlen : inn.len < 2 ^ 60) (hi : RdL F inn)
    (hw : ∀ q : Ptr, q.blk = fresh → q.off < ctrlLen inn.len + 4 * inn.len → F.W q) :
    TriP P F (writeAllDeltaFast fresh inn prev) (WRes fresh inn.len) := by
  have hC : ctrlLen inn.len = (inn.len + 3) / 4 := rfl
  unfold writeAllDeltaFast
  simp only [Prog.bind_eq]
  rw [header_ctrlLen (by omega), header_total (by omega), header_lowest32 (by omega)]
  refine tri_bind (n_make rfl hw) ?_
  rintro _ rfl
  have hb : Buf F inn.len ⟨fresh, 0, ctrlLen inn.len + 4 * inn.len, ctrlLen inn.len + 4 * inn.len⟩ :=
    ⟨⟨Nat.le_refl _, fun q h1 _ h3 => hw q h1 (by simp only at h3; omega)⟩, by simp only; omega, rfl⟩
  refine tri_bind (tri_loop (fun s : WSt => WJ inn.len s ∧ 4 * s.ctrlPos = s.encoded ∧ s.encoded % 32 = 0)
    (fun s => (inn.len - s.encoded).toNat) ?_ ?_ ?_ ?_) ?_
  · rintro s ⟨hJ, hc, h16⟩ hlt
    simp only [decide_eq_true_eq] at hlt
    have := hJ.e0
    refine tri_mono (n_wdf32 hi hb hJ hc (by omega)) ?_
    rintro s' ⟨a, b, c⟩
    exact ⟨⟨a, b, by omega⟩, by omega⟩
  · rintro s ⟨hJ, hc, h16⟩ hlt
    simp only [decide_eq_true_eq] at hlt
    omega
  · exact ⟨⟨by simp, by simp only; omega, by simp only; omega, by simp only; omega, by simp⟩, by simp, by simp⟩
  · simp only; omega
  rintro s1 ⟨⟨hJ1, hc1, -⟩, -⟩
  refine tri_bind (tri_loop (fun s : WSt => WJ inn.len s ∧ 4 * s.ctrlPos = s.encoded)
    (fun s => (inn.len - s.encoded).toNat) ?_ ?_ ⟨hJ1, hc1⟩ ?_) ?_
  · rintro s ⟨hJ, hc⟩ hlt
    simp only [decide_eq_true_eq] at hlt
    have := hJ.e0
    refine tri_mono (n_wdf8 hi hb hJ hc (by omega)) ?_
    rintro s' ⟨a, b, c⟩
    exact ⟨⟨a, b⟩, by omega⟩
  · rintro s ⟨hJ, hc⟩ hlt
    simp only [decide_eq_true_eq] at hlt
    omega
  · have := hJ1.e0; omega
  rintro s2 ⟨⟨hJ2, hc2⟩, -⟩
  refine tri_bind (tri_loop (fun s : WSt => WJ inn.len s ∧ 0 ≤ s.ctrlPos)
    (fun s => (ctrlLen inn.len - s.ctrlPos).toNat) ?_ ?_ ⟨hJ2, by have := hJ2.e0; omega⟩ ?_) ?_
  · rintro s ⟨hJ, hc⟩ hlt
    simp only [decide_eq_true_eq] at hlt
    refine tri_mono (n_wdf1 hi hb hJ hlt) ?_
    rintro s' ⟨a, b⟩
    exact ⟨⟨a, by omega⟩, by omega⟩
  · rintro s ⟨hJ, hc⟩ hlt
    simp only [decide_eq_true_eq] at hlt
    omega
  · have := hJ2.e0; omega
  rintro s ⟨⟨hJ, hc⟩, hx⟩
  simp only [decide_eq_false_iff_not] at hx
  have e0 := hJ.e0; have en := hJ.en; have d0 := hJ.d0; have d4 := hJ.d4
  have hn : s.encoded = inn.len := by rcases hJ.cp with h | h <;> omega
  exact n_result (by omega) (by omega)

end SVB
