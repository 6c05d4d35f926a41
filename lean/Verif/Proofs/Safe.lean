import Verif.Proofs.EncScalar
import Verif.Proofs.DecScalar
import Verif.Proofs.AsmEnc
import Verif.Proofs.AsmDec
import Verif.Proofs.WriterFast
import Verif.Proofs.Arith
import Verif.Model.Reader

/-!
# Footprints for arbitrary arguments

Nothing is assumed about lengths, counts, control bytes or aliasing; only that slices satisfy
`len ≤ cap` and that whatever is written is not one of the tables.
-/

set_option autoImplicit false

namespace SVB
open Spec Asm

/-- Addresses that may be loaded and stored. -/
structure Fp where
  R : Ptr → Prop
  W : Ptr → Prop
  tabs : ∀ q, inTables q → R q
  heap : ∀ q, W q → q.blk.isConst = false

/-- A byte that a load from `p` can deliver when anybody may have written to the heap: what the tables hold is
fixed, everything else is arbitrary. -/
def AnyByte (p : Ptr) (b : Byte) : Prop := ∃ m, TablesLoaded m ∧ m p = b

/-- `p` stays inside the footprint whatever each single load from the heap delivers, panics only as `P` allows
and returns values satisfying `Q`.  Two loads from the same address may deliver different bytes. -/
def TriP {α : Type} (P : Panic → Prop) (F : Fp) : Prog α → (α → Prop) → Prop
  | .ret a, Q => Q a
  | .panic k, _ => P k
  | .load p k, Q => F.R p ∧ ∀ b, AnyByte p b → TriP P F (k b) Q
  | .store p _ k, Q => F.W p ∧ TriP P F k Q

/-- Only bounds panics. -/
abbrev Tri {α : Type} (F : Fp) (p : Prog α) (Q : α → Prop) : Prop := TriP boundsPanic F p Q

variable {F : Fp} {P : Panic → Prop}

theorem tri_ret {α : Type} {a : α} {Q : α → Prop} (h : Q a) : TriP P F (.ret a) Q := h

theorem tri_bind {α β : Type} {p : Prog α} {f : α → Prog β} {S : α → Prop} {Q : β → Prop}
    (h : TriP P F p S) (hf : ∀ a, S a → TriP P F (f a) Q) : TriP P F (p.bind f) Q := by
  induction p with
  | ret a => exact hf a h
  | panic k => exact h
  | load p k ih => exact ⟨h.1, fun b hb => ih b (h.2 b hb)⟩
  | store p v k ih => exact ⟨h.1, ih h.2⟩

theorem tri_mono {α : Type} {p : Prog α} {S Q : α → Prop} (h : TriP P F p S) (hQ : ∀ a, S a → Q a) :
    TriP P F p Q := by
  induction p with
  | ret a => exact hQ a h
  | panic k => exact h
  | load p k ih => exact ⟨h.1, fun b hb => ih b (h.2 b hb)⟩
  | store p v k ih => exact ⟨h.1, ih h.2⟩

/-- In particular: a sequential run. -/
theorem tri_wp {α : Type} {p : Prog α} {Q : α → Prop} (h : TriP P F p Q) : ∀ m, TablesLoaded m →
    wp ⟨F.R, F.W, fun k _ => P k⟩ p m (fun a m' => Q a ∧ TablesLoaded m') := by
  induction p with
  | ret a => intro m hT; exact ⟨h, hT⟩
  | panic k => intro m _; exact h
  | load p k ih => intro m hT; exact ⟨h.1, ih _ (h.2 _ ⟨m, hT, rfl⟩) m hT⟩
  | store p v k ih =>
    intro m hT
    refine ⟨h.1, ih h.2 _ (hT.frame fun q hq => Mem.set_ne _ _ ?_)⟩
    rintro rfl
    have := F.heap _ h.1
    rw [hq] at this; cases this

theorem tri_loop {σ : Type} {cond : σ → Bool} {body : σ → Prog σ} (I : σ → Prop) (μ : σ → Nat)
    (hbody : ∀ s, I s → cond s = true → TriP P F (body s) (fun s' => I s' ∧ μ s' < μ s))
    (hpos : ∀ s, I s → cond s = true → 0 < μ s) {fuel : Nat} {s : σ} (hI : I s) (hf : μ s ≤ fuel) :
    TriP P F (loop fuel cond body s) (fun s' => I s' ∧ cond s' = false) := by
  induction fuel generalizing s with
  | zero =>
    unfold loop
    split
    · rename_i hc; have := hpos s hI hc; omega
    · rename_i hc; exact ⟨hI, by simpa using hc⟩
  | succ n ih =>
    unfold loop
    split
    · rename_i hc
      exact tri_bind (hbody s hI hc) fun s' h => ih h.1 (by omega)
    · rename_i hc; exact ⟨hI, by simpa using hc⟩

theorem tri_load8 {p : Ptr} (h : F.R p) : TriP P F (load8 p) (AnyByte p) := ⟨h, fun _ hb => hb⟩

theorem tri_store8 {p : Ptr} {v : Byte} (h : F.W p) : TriP P F (store8 p v) (fun _ => True) := ⟨h, trivial⟩

/-- A slice whose whole capacity may be loaded. -/
structure RdOk {e : Nat} (F : Fp) (s : Slice e) : Prop where
  lc : s.len ≤ s.cap
  r : ∀ q : Ptr, q.blk = s.blk → s.off ≤ q.off → q.off < s.off + e * s.cap → F.R q

/-- A slice whose whole capacity may be stored to. -/
structure WrOk {e : Nat} (F : Fp) (s : Slice e) : Prop where
  lc : s.len ≤ s.cap
  w : ∀ q : Ptr, q.blk = s.blk → s.off ≤ q.off → q.off < s.off + e * s.cap → F.W q

theorem RdOk.sub {e : Nat} {s : Slice e} (h : RdOk F s) (a l : Nat) (ha : a + l ≤ s.cap) :
    RdOk F (⟨s.blk, s.off + e * a, l, s.cap - a⟩ : Slice e) where
  lc := by simp only; omega
  r q h1 h2 h3 := by
    simp only at h1 h2 h3
    refine h.r q h1 (by omega) ?_
    have : e * s.cap = e * a + e * (s.cap - a) := by rw [← Nat.mul_add]; congr 1; omega
    omega

theorem WrOk.sub {e : Nat} {s : Slice e} (h : WrOk F s) (a l : Nat) (ha : a + l ≤ s.cap) :
    WrOk F (⟨s.blk, s.off + e * a, l, s.cap - a⟩ : Slice e) where
  lc := by simp only; omega
  w q h1 h2 h3 := by
    simp only at h1 h2 h3
    refine h.w q h1 (by omega) ?_
    have : e * s.cap = e * a + e * (s.cap - a) := by rw [← Nat.mul_add]; congr 1; omega
    omega

theorem tri_from {e : Nat} {s : Slice e} {i : Int} :
    Tri F (s.from i) (fun t => ∃ a : Nat, i = a ∧ a ≤ s.len ∧
      t = ⟨s.blk, s.off + e * a, s.len - a, s.cap - a⟩) := by
  unfold Slice.from
  split
  · exact ⟨i.toNat, by omega, by omega, rfl⟩
  · exact .inr rfl

theorem tri_range {e : Nat} {s : Slice e} {i j : Int} :
    Tri F (s.range i j) (fun t => ∃ a b : Nat, i = a ∧ j = b ∧ a ≤ b ∧ b ≤ s.cap ∧
      t = ⟨s.blk, s.off + e * a, b - a, s.cap - a⟩) := by
  unfold Slice.range
  split
  · exact ⟨i.toNat, j.toNat, by omega, by omega, by omega, by omega, rfl⟩
  · exact .inr rfl

theorem tri_fromR {e : Nat} {s : Slice e} {i : Int} (h : RdOk F s) :
    Tri F (s.from i) (fun t => 0 ≤ i ∧ RdOk F t) :=
  tri_mono tri_from fun _ ⟨a, h1, h2, h3⟩ => by
    subst h3; exact ⟨by omega, h.sub a _ (by have := h.lc; omega)⟩

theorem tri_fromW {e : Nat} {s : Slice e} {i : Int} (h : WrOk F s) :
    Tri F (s.from i) (fun t => 0 ≤ i ∧ WrOk F t ∧ (t.len : Int) = s.len - i) :=
  tri_mono tri_from fun _ ⟨a, h1, h2, h3⟩ => by
    subst h3; exact ⟨by omega, h.sub a _ (by have := h.lc; omega), by simp only; omega⟩

theorem tri_fromRW {e : Nat} {s : Slice e} {i : Int} (h : RdOk F s) (hw : WrOk F s) :
    Tri F (s.from i) (fun t => 0 ≤ i ∧ RdOk F t ∧ WrOk F t ∧ (t.len : Int) = s.len - i) :=
  tri_mono tri_from fun _ ⟨a, h1, h2, h3⟩ => by
    subst h3
    exact ⟨by omega, h.sub a _ (by have := h.lc; omega), hw.sub a _ (by have := h.lc; omega),
      by simp only; omega⟩

theorem tri_rangeR {e : Nat} {s : Slice e} {i j : Int} (h : RdOk F s) :
    Tri F (s.range i j) (fun t => RdOk F t) :=
  tri_mono tri_range fun _ ⟨a, b, h1, h2, h3, h4, h5⟩ => by
    subst h5; exact h.sub a _ (by omega)

theorem tri_rangeW {e : Nat} {s : Slice e} {i j : Int} (h : WrOk F s) :
    Tri F (s.range i j) (fun t => WrOk F t ∧ j ≤ s.cap ∧ (t.len : Int) = j - i) :=
  tri_mono tri_range fun _ ⟨a, b, h1, h2, h3, h4, h5⟩ => by
    subst h5; exact ⟨h.sub a _ (by omega), by omega, by simp only; omega⟩

theorem tri_rangeRW {e : Nat} {s : Slice e} {i j : Int} (h : RdOk F s) (hw : WrOk F s) :
    Tri F (s.range i j) (fun t => RdOk F t ∧ WrOk F t ∧ j ≤ s.cap ∧ (t.len : Int) = j - i) :=
  tri_mono tri_range fun _ ⟨a, b, h1, h2, h3, h4, h5⟩ => by
    subst h5; exact ⟨h.sub a _ (by omega), hw.sub a _ (by omega), by omega, by simp only; omega⟩

theorem tri_getB {s : Bytes} {i : Int} (h : RdOk F s) : Tri F (getB s i) (fun _ => True) := by
  unfold getB
  split
  · exact tri_mono (tri_load8 (h.r _ rfl (by simp) (by have := h.lc; simp only; omega))) fun _ _ => trivial
  · exact .inl rfl

theorem tri_setB {s : Bytes} {i : Int} {v : Byte} (h : WrOk F s) :
    Tri F (setB s i v) (fun _ => True) := by
  unfold setB
  split
  · exact tri_store8 (h.w _ rfl (by simp) (by have := h.lc; simp only; omega))
  · exact .inl rfl

theorem tri_getW {s : U32s} {i : Int} (h : RdOk F s) : Tri F (getW s i) (fun _ => 0 ≤ i ∧ i < s.len) := by
  unfold getW
  split
  · have hr : ∀ k < 4, F.R ⟨s.blk, s.off + 4 * i.toNat + k⟩ := fun k hk =>
      h.r _ rfl (by simp only; omega) (by have := h.lc; simp only; omega)
    exact ⟨hr 0 (by omega), fun _ _ => ⟨hr 1 (by omega), fun _ _ => ⟨hr 2 (by omega), fun _ _ =>
      ⟨hr 3 (by omega), fun _ _ => by assumption⟩⟩⟩⟩
  · exact .inl rfl

theorem tri_setW {s : U32s} {i : Int} {v : U32} (h : WrOk F s) :
    Tri F (setW s i v) (fun _ => 0 ≤ i ∧ i < s.len) := by
  unfold setW
  split
  · have hw : ∀ k < 4, F.W ⟨s.blk, s.off + 4 * i.toNat + k⟩ := fun k hk =>
      h.w _ rfl (by simp only; omega) (by have := h.lc; simp only; omega)
    exact ⟨hw 0 (by omega), hw 1 (by omega), hw 2 (by omega), hw 3 (by omega), by assumption⟩
  · exact .inl rfl

theorem tri_size {c : Byte} : TriP P F (controlByteToSize c) (fun s => 4 ≤ s ∧ s ≤ 16) := by
  unfold controlByteToSize
  refine tri_bind (tri_load8 (F.tabs _ c.isLt)) ?_
  rintro b ⟨m, hT, rfl⟩
  have := gSize_bounds c
  refine tri_ret ?_
  rw [hT.ctrlLen']
  omega

theorem tri_sizeTwo {c : U16} : TriP P F (controlByteToSizeTwo c) (fun s => 8 ≤ s ∧ s ≤ 32) := by
  have hc := c.isLt
  have h8 : (256 : Nat) = 2 ^ 8 := rfl
  have hlo : (c &&& 0xff#16).toNat < 256 := by
    simp only [BitVec.toNat_and, BitVec.toNat_ofNat]
    exact Nat.lt_of_le_of_lt Nat.and_le_right (by decide)
  have hhi : (c >>> 8).toNat < 256 := by
    simp only [BitVec.toNat_ushiftRight, Nat.shiftRight_eq_div_pow]
    omega
  unfold controlByteToSizeTwo
  simp only [Prog.bind_eq, Prog.pure_eq, hlo, hhi, and_self, if_true]
  refine tri_bind (tri_load8 (F.tabs _ hlo)) ?_
  rintro a ⟨m, hT, rfl⟩
  refine tri_bind (tri_load8 (F.tabs _ hhi)) ?_
  rintro b ⟨m', hT', rfl⟩
  have e1 := hT.ctrlLen' (BitVec.ofNat 8 (c &&& 0xff#16).toNat)
  have e2 := hT'.ctrlLen' (BitVec.ofNat 8 (c >>> 8).toNat)
  have g1 := gSize_bounds (BitVec.ofNat 8 (c &&& 0xff#16).toNat)
  have g2 := gSize_bounds (BitVec.ofNat 8 (c >>> 8).toNat)
  rw [BitVec.toNat_ofNat, Nat.mod_eq_of_lt (by omega)] at e1 e2
  refine tri_ret ?_
  rw [BitVec.toNat_add, e1, e2]
  omega

theorem tri_encodeOne {num : U32} {out : Bytes} (h : WrOk F out) :
    Tri F (encodeOne num out) (fun s => 1 ≤ s ∧ s ≤ 4) := by
  -- the specification's write set is only inside `out` when `out` is long enough, so go through the code
  have hb := byteLen_bounds num
  have hsz := encodeSize_eq num
  unfold encodeOne
  simp only [hsz, Prog.bind_eq, Prog.pure_eq]
  repeat' first
    | exact tri_ret (by omega)
    | (refine tri_bind (tri_setB h) fun _ _ => ?_)
    | split

theorem tri_decodeOne {b : Bytes} {size : Byte} (h : RdOk F b) (h1 : 1 ≤ size.toNat)
    (h4 : size.toNat ≤ 4) : Tri F (decodeOne b size) (fun _ => True) := by
  unfold decodeOne
  simp only [Prog.bind_eq, Prog.pure_eq]
  repeat' first
    | exact tri_ret trivial
    | (refine tri_bind (tri_getB h) fun _ _ => ?_)
    | split
  rename_i n4 n3 n2 n1
  have e : ∀ k : Nat, k < 256 → size ≠ BitVec.ofNat 8 k → size.toNat ≠ k := by
    intro k hk hne he
    exact hne (BitVec.eq_of_toNat_eq (by rw [BitVec.toNat_ofNat]; omega))
  have := e 4 (by omega) n4; have := e 3 (by omega) n3
  have := e 2 (by omega) n2; have := e 1 (by omega) n1
  omega

theorem tri_row {c : Byte} : TriP P F (perNumLenRow c) (fun r =>
    (1 ≤ r.1.toNat ∧ r.1.toNat ≤ 4) ∧ (1 ≤ r.2.1.toNat ∧ r.2.1.toNat ≤ 4) ∧
    (1 ≤ r.2.2.1.toNat ∧ r.2.2.1.toNat ≤ 4) ∧ (1 ≤ r.2.2.2.toNat ∧ r.2.2.2.toNat ≤ 4)) := by
  have hlt := c.isLt
  have hl : ∀ k < 4, ∀ m, TablesLoaded m → 1 ≤ (m ⟨.numLen, 4 * c.toNat + k⟩).toNat ∧
      (m ⟨.numLen, 4 * c.toNat + k⟩).toNat ≤ 4 := by
    intro k hk m hT
    have := hT.numLen' c k hk; have := code_lt c k
    omega
  have hR : ∀ k < 4, F.R ⟨.numLen, 4 * c.toNat + k⟩ := fun k hk =>
    F.tabs _ (by simp only [inTables]; omega)
  unfold perNumLenRow
  simp only [Prog.bind_eq, Prog.pure_eq]
  refine tri_bind (tri_load8 (hR 0 (by omega))) ?_
  rintro _ ⟨m0, h0, rfl⟩
  refine tri_bind (tri_load8 (hR 1 (by omega))) ?_
  rintro _ ⟨m1, h1, rfl⟩
  refine tri_bind (tri_load8 (hR 2 (by omega))) ?_
  rintro _ ⟨m2, h2, rfl⟩
  refine tri_bind (tri_load8 (hR 3 (by omega))) ?_
  rintro _ ⟨m3, h3, rfl⟩
  exact ⟨hl 0 (by omega) _ h0, hl 1 (by omega) _ h1, hl 2 (by omega) _ h2, hl 3 (by omega) _ h3⟩

/-! ## Block functions -/

theorem tri_put4 {inn : U32s} {out : Bytes} (hi : RdOk F inn) (ho : WrOk F out) :
    Tri F (put4uint32Scalar inn out) (fun _ => True) := by
  unfold put4uint32Scalar
  simp only [Prog.bind_eq, Prog.pure_eq]
  refine tri_bind (tri_getW hi) fun _ _ => ?_
  refine tri_bind (tri_getW hi) fun _ _ => ?_
  refine tri_bind (tri_getW hi) fun _ _ => ?_
  refine tri_bind (tri_getW hi) fun _ _ => ?_
  refine tri_bind (tri_getW hi) fun _ _ => ?_
  refine tri_bind (tri_encodeOne ho) fun _ _ => ?_
  refine tri_bind (tri_fromW ho) fun _ h => ?_
  refine tri_bind (tri_encodeOne h.2.1) fun _ _ => ?_
  refine tri_bind (tri_fromW ho) fun _ h => ?_
  refine tri_bind (tri_encodeOne h.2.1) fun _ _ => ?_
  refine tri_bind (tri_fromW ho) fun _ h => ?_
  refine tri_bind (tri_encodeOne h.2.1) fun _ _ => ?_
  exact tri_ret trivial

theorem tri_put4Delta {inn : U32s} {out : Bytes} {prev : U32} (hi : RdOk F inn) (ho : WrOk F out) :
    Tri F (put4uint32DeltaScalar inn out prev) (fun _ => True) := by
  unfold put4uint32DeltaScalar
  simp only [Prog.bind_eq, Prog.pure_eq]
  refine tri_bind (tri_getW hi) fun _ _ => ?_
  refine tri_bind (tri_getW hi) fun _ _ => ?_
  refine tri_bind (tri_getW hi) fun _ _ => ?_
  refine tri_bind (tri_getW hi) fun _ _ => ?_
  refine tri_bind (tri_getW hi) fun _ _ => ?_
  refine tri_bind (tri_getW hi) fun _ _ => ?_
  refine tri_bind (tri_getW hi) fun _ _ => ?_
  refine tri_bind (tri_getW hi) fun _ _ => ?_
  refine tri_bind (tri_encodeOne ho) fun _ _ => ?_
  refine tri_bind (tri_fromW ho) fun _ h => ?_
  refine tri_bind (tri_encodeOne h.2.1) fun _ _ => ?_
  refine tri_bind (tri_fromW ho) fun _ h => ?_
  refine tri_bind (tri_encodeOne h.2.1) fun _ _ => ?_
  refine tri_bind (tri_fromW ho) fun _ h => ?_
  refine tri_bind (tri_encodeOne h.2.1) fun _ _ => ?_
  exact tri_ret trivial

theorem tri_put8 {inn : U32s} {out : Bytes} (hi : RdOk F inn) (ho : WrOk F out) :
    Tri F (put8uint32Scalar inn out) (fun _ => True) := by
  unfold put8uint32Scalar
  simp only [Prog.bind_eq, Prog.pure_eq]
  refine tri_bind (tri_put4 hi ho) fun _ _ => ?_
  refine tri_bind tri_size fun _ _ => ?_
  refine tri_bind (tri_fromR hi) fun _ h1 => ?_
  refine tri_bind (tri_fromW ho) fun _ h2 => ?_
  refine tri_bind (tri_put4 h1.2 h2.2.1) fun _ _ => ?_
  exact tri_ret trivial

theorem tri_put8Delta {inn : U32s} {out : Bytes} {prev : U32} (hi : RdOk F inn) (ho : WrOk F out) :
    Tri F (put8uint32DeltaScalar inn out prev) (fun _ => True) := by
  unfold put8uint32DeltaScalar
  simp only [Prog.bind_eq, Prog.pure_eq]
  refine tri_bind (tri_put4Delta hi ho) fun _ _ => ?_
  refine tri_bind tri_size fun _ _ => ?_
  refine tri_bind (tri_fromR hi) fun _ h1 => ?_
  refine tri_bind (tri_fromW ho) fun _ h2 => ?_
  refine tri_bind (tri_getW hi) fun _ _ => ?_
  refine tri_bind (tri_put4Delta h1.2 h2.2.1) fun _ _ => ?_
  exact tri_ret trivial

theorem tri_putN {inn : U32s} {out : Bytes} {count : Int} (hi : RdOk F inn) (ho : WrOk F out) :
    Tri F (putUint32Scalar inn out count) (fun _ => True) := by
  unfold putUint32Scalar
  simp only [Prog.bind_eq, Prog.pure_eq]
  split
  · exact tri_ret trivial
  · refine tri_bind (tri_loop (fun s : PutSt => 0 ≤ s.i) (fun s => (4 - s.i).toNat) ?_ ?_ ?_ ?_)
      fun _ _ => tri_ret trivial
    · intro s hI hc
      simp only [decide_eq_true_eq] at hc
      refine tri_bind (tri_getW hi) fun _ _ => ?_
      refine tri_bind (tri_fromW ho) fun _ h => ?_
      refine tri_bind (tri_encodeOne h.2.1) fun _ _ => tri_ret ?_
      simp only
      split at hc <;> omega
    · intro s hI hc
      simp only [decide_eq_true_eq] at hc
      split at hc <;> omega
    · simp
    · simp

theorem tri_putNDelta {inn : U32s} {out : Bytes} {count : Int} {prev : U32} (hi : RdOk F inn)
    (ho : WrOk F out) : Tri F (putUint32DeltaScalar inn out count prev) (fun _ => True) := by
  unfold putUint32DeltaScalar
  simp only [Prog.bind_eq, Prog.pure_eq]
  split
  · exact tri_ret trivial
  · refine tri_bind (tri_loop (fun s : PutSt => 0 ≤ s.i) (fun s => (4 - s.i).toNat) ?_ ?_ ?_ ?_)
      fun _ _ => tri_ret trivial
    · intro s hI hc
      simp only [decide_eq_true_eq] at hc
      refine tri_bind (tri_getW hi) fun _ _ => ?_
      refine tri_bind (tri_fromW ho) fun _ h => ?_
      refine tri_bind (tri_encodeOne h.2.1) fun _ _ => ?_
      refine tri_bind (tri_getW hi) fun _ _ => tri_ret ?_
      simp only
      split at hc <;> omega
    · intro s hI hc
      simp only [decide_eq_true_eq] at hc
      split at hc <;> omega
    · simp
    · simp

theorem tri_get4 {inn : Bytes} {out : U32s} {c : Byte} (hi : RdOk F inn) (ho : WrOk F out) :
    Tri F (get4uint32Scalar inn out c) (fun _ => 4 ≤ out.len) := by
  unfold get4uint32Scalar
  simp only [Prog.bind_eq]
  refine tri_bind tri_row ?_
  rintro ⟨l0, l1, l2, l3⟩ ⟨h0, h1, h2, h3⟩
  simp only at h0 h1 h2 h3 ⊢
  refine tri_bind (tri_fromR hi) fun _ h => ?_
  refine tri_bind (tri_decodeOne h.2 h3.1 h3.2) fun _ _ => ?_
  refine tri_bind (tri_setW ho) fun _ w3 => ?_
  refine tri_bind (tri_fromR hi) fun _ h => ?_
  refine tri_bind (tri_decodeOne h.2 h2.1 h2.2) fun _ _ => ?_
  refine tri_bind (tri_setW ho) fun _ _ => ?_
  refine tri_bind (tri_fromR hi) fun _ h => ?_
  refine tri_bind (tri_decodeOne h.2 h1.1 h1.2) fun _ _ => ?_
  refine tri_bind (tri_setW ho) fun _ _ => ?_
  refine tri_bind (tri_decodeOne hi h0.1 h0.2) fun _ _ => ?_
  exact tri_mono (tri_setW ho) fun _ _ => by omega

theorem tri_get4Delta {inn : Bytes} {out : U32s} {c : Byte} {prev : U32} (hi : RdOk F inn)
    (ho : WrOk F out) (hr : RdOk F out) :
    Tri F (get4uint32DeltaScalar inn out c prev) (fun _ => 4 ≤ out.len) := by
  unfold get4uint32DeltaScalar
  simp only [Prog.bind_eq]
  refine tri_bind tri_row ?_
  rintro ⟨l0, l1, l2, l3⟩ ⟨h0, h1, h2, h3⟩
  simp only at h0 h1 h2 h3 ⊢
  refine tri_bind (tri_getW hr) fun _ _ => ?_
  refine tri_bind (tri_decodeOne hi h0.1 h0.2) fun _ _ => ?_
  refine tri_bind (tri_setW ho) fun _ _ => ?_
  refine tri_bind (tri_fromR hi) fun _ h => ?_
  refine tri_bind (tri_decodeOne h.2 h1.1 h1.2) fun _ _ => ?_
  refine tri_bind (tri_getW hr) fun _ _ => ?_
  refine tri_bind (tri_setW ho) fun _ _ => ?_
  refine tri_bind (tri_fromR hi) fun _ h => ?_
  refine tri_bind (tri_decodeOne h.2 h2.1 h2.2) fun _ _ => ?_
  refine tri_bind (tri_getW hr) fun _ _ => ?_
  refine tri_bind (tri_setW ho) fun _ _ => ?_
  refine tri_bind (tri_fromR hi) fun _ h => ?_
  refine tri_bind (tri_decodeOne h.2 h3.1 h3.2) fun _ _ => ?_
  refine tri_bind (tri_getW hr) fun _ _ => ?_
  exact tri_mono (tri_setW ho) fun _ _ => by omega

theorem tri_get8 {inn : Bytes} {out : U32s} {c : U16} (hi : RdOk F inn) (ho : WrOk F out) :
    Tri F (get8uint32Scalar inn out c) (fun _ => 8 ≤ out.len) := by
  unfold get8uint32Scalar
  simp only [Prog.bind_eq]
  refine tri_bind tri_size fun _ _ => ?_
  refine tri_bind (tri_get4 hi ho) fun _ _ => ?_
  refine tri_bind (tri_fromR hi) fun _ h1 => ?_
  refine tri_bind (tri_fromW ho) fun _ h2 => ?_
  exact tri_mono (tri_get4 h1.2 h2.2.1) fun _ h => by omega

theorem tri_get8Delta {inn : Bytes} {out : U32s} {c : U16} {prev : U32} (hi : RdOk F inn)
    (ho : WrOk F out) (hr : RdOk F out) :
    Tri F (get8uint32DeltaScalar inn out c prev) (fun _ => 8 ≤ out.len) := by
  unfold get8uint32DeltaScalar
  simp only [Prog.bind_eq]
  refine tri_bind tri_size fun _ _ => ?_
  refine tri_bind (tri_get4Delta hi ho hr) fun _ _ => ?_
  refine tri_bind (tri_fromR hi) fun _ h1 => ?_
  refine tri_bind (tri_fromRW hr ho) fun _ h2 => ?_
  refine tri_bind (tri_getW hr) fun _ _ => ?_
  exact tri_mono (tri_get4Delta h1.2 h2.2.2.1 h2.2.1) fun _ h => by omega

theorem size_bounds (c : Byte) (sh : Nat) :
    1 ≤ (((c >>> sh) &&& 0x3#8) + 1).toNat ∧ (((c >>> sh) &&& 0x3#8) + 1).toNat ≤ 4 := by
  have h : ((c >>> sh) &&& 0x3#8).toNat ≤ 3 := by
    rw [BitVec.toNat_and]; exact Nat.and_le_right
  rw [BitVec.toNat_add]
  have : (1 : Byte).toNat = 1 := rfl
  omega

theorem tri_getN {inn : Bytes} {out : U32s} {c : Byte} {count : Int} (hi : RdOk F inn) (ho : WrOk F out) :
    Tri F (getUint32Scalar inn out c count)
      (fun r => 0 ≤ r ∧ (count ≤ 4 → count ≤ out.len)) := by
  unfold getUint32Scalar
  simp only [Prog.bind_eq, Prog.pure_eq]
  split
  · exact tri_ret (by omega)
  · refine tri_bind (tri_loop (fun s : GetSt => 0 ≤ s.i ∧ 0 ≤ s.total ∧ s.i ≤ out.len) (fun s => (4 - s.i).toNat) ?_ ?_ ?_ ?_)
      fun s h => tri_ret ?_
    · intro s hI hc
      simp only [decide_eq_true_eq] at hc
      have hb := size_bounds c s.shift
      refine tri_bind (tri_fromR hi) fun _ h => ?_
      refine tri_bind (tri_decodeOne h.2 hb.1 hb.2) fun _ _ => ?_
      refine tri_bind (tri_setW ho) fun _ _ => tri_ret ?_
      simp only
      split at hc <;> omega
    · intro s hI hc
      simp only [decide_eq_true_eq] at hc
      split at hc <;> omega
    · simp
    · simp
    · have h2 := h.2
      simp only [decide_eq_false_iff_not] at h2
      refine ⟨h.1.2.1, fun hc => ?_⟩
      split at h2 <;> omega

theorem tri_getNDelta {inn : Bytes} {out : U32s} {c : Byte} {count : Int} {prev : U32} (hi : RdOk F inn)
    (ho : WrOk F out) : Tri F (getUint32DeltaScalar inn out c count prev)
      (fun r => 0 ≤ r ∧ (count ≤ 4 → count ≤ out.len)) := by
  unfold getUint32DeltaScalar
  simp only [Prog.bind_eq, Prog.pure_eq]
  split
  · exact tri_ret (by omega)
  · refine tri_bind (tri_loop (fun s : GetSt => 0 ≤ s.i ∧ 0 ≤ s.total ∧ s.i ≤ out.len) (fun s => (4 - s.i).toNat) ?_ ?_ ?_ ?_)
      fun s h => tri_ret ?_
    · intro s hI hc
      simp only [decide_eq_true_eq] at hc
      have hb := size_bounds c s.shift
      refine tri_bind (tri_fromR hi) fun _ h => ?_
      refine tri_bind (tri_decodeOne h.2 hb.1 hb.2) fun _ _ => ?_
      refine tri_bind (tri_setW ho) fun _ _ => tri_ret ?_
      simp only
      split at hc <;> omega
    · intro s hI hc
      simp only [decide_eq_true_eq] at hc
      split at hc <;> omega
    · simp
    · simp
    · have h2 := h.2
      simp only [decide_eq_false_iff_not] at h2
      refine ⟨h.1.2.1, fun hc => ?_⟩
      split at h2 <;> omega

end SVB
