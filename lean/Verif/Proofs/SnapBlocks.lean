import Verif.Proofs.Snap
import Verif.Proofs.SafeStream

/-! # Snapshots of the block decoders -/

set_option autoImplicit false

namespace SVB
open Spec Asm

/-- Memory that the others leave alone contains the tables and the block of the output. -/
structure Own (own : Ptr → Prop) (J : Mem → Prop) (B : Block) : Prop where
  const : ∀ q : Ptr, q.blk.isConst = true → own q
  out : ∀ q : Ptr, q.blk = B → own q
  heap : B.isConst = false
  tabs : ∀ m, J m → TablesLoaded m
  st : ∀ (q : Ptr) v m, q.blk = B → J m → J (m.set q v)

/-- Footprint of code that touches own memory only. -/
def ownFp {own : Ptr → Prop} {J : Mem → Prop} {B : Block} (h : Own own J B) : Fp where
  R := own
  W q := q.blk = B
  tabs q hq := h.const q (by unfold inTables at hq; split at hq <;> simp_all [Block.isConst])
  heap q hq := by rw [show q.blk = B from hq]; exact h.heap

/-- `D'` lacks at most the addresses `lo … hi - 1` of `D`. -/
def Cut (b : Block) (lo hi : Nat) (D D' : Ptr → Prop) : Prop := ∀ q, D q → ¬ Seg b lo hi q → D' q

/-- A slice of the output. -/
def OutOk {e : Nat} (B : Block) (s : Slice e) : Prop := s.blk = B ∧ s.len ≤ s.cap

theorem Cut.refl {b : Block} {lo hi : Nat} (D : Ptr → Prop) : Cut b lo hi D D := fun _ h _ => h

theorem Cut.trans {b : Block} {l1 h1 l2 h2 lo hi : Nat} {D D1 D2 : Ptr → Prop} (a : Cut b l1 h1 D D1) (c : Cut b l2 h2 D1 D2)
    (hl1 : lo ≤ l1) (hl2 : lo ≤ l2) (hh1 : h1 ≤ hi) (hh2 : h2 ≤ hi) : Cut b lo hi D D2 := fun q h hn =>
  c q (a q h fun hs => hn ⟨hs.1, by have := hs.2.1; omega, by have := hs.2.2; omega⟩)
    fun hs => hn ⟨hs.1, by have := hs.2.1; omega, by have := hs.2.2; omega⟩

/-- `D` contains the addresses `lo … hi - 1`. -/
def Has (b : Block) (lo hi : Nat) (D : Ptr → Prop) : Prop := ∀ q, Seg b lo hi q → D q

theorem Has.cut {b : Block} {lo hi l h : Nat} {D D' : Ptr → Prop} (a : Has b lo hi D) (c : Cut b l h D D')
    (hd : hi ≤ l ∨ h ≤ lo) : Has b lo hi D' := fun q hq => c q (a q hq) fun hs => by
  have := hq.2.1; have := hq.2.2; have := hs.2.1; have := hs.2.2; omega

theorem Has.sub {b : Block} {lo hi l h : Nat} {D : Ptr → Prop} (a : Has b lo hi D) (h1 : lo ≤ l) (h2 : h ≤ hi) :
    Has b l h D := fun q hq => a q ⟨hq.1, by have := hq.2.1; omega, by have := hq.2.2; omega⟩

variable {own : Ptr → Prop} {may : Ptr → Byte → Prop} {J : Mem → Prop} {B : Block} {D : Ptr → Prop}

theorem snap_own {α : Type} {P : Panic → Prop} {p : Prog α} {Q : α → Prop} (ho : Own own J B) (h : TriP P (ownFp ho) p Q) :
    Snap own may J D p (fun a D' => Q a ∧ D' = D) := snap_of_tri (fun _ h => h) ho.out ho.tabs ho.st h

theorem OutOk.rd {e : Nat} {s : Slice e} (h : OutOk B s) (ho : Own own J B) : RdOk (ownFp ho) s :=
  ⟨h.2, fun _ hq _ _ => ho.out _ (hq.trans h.1)⟩

theorem OutOk.wr {e : Nat} {s : Slice e} (h : OutOk B s) (ho : Own own J B) : WrOk (ownFp ho) s :=
  ⟨h.2, fun _ hq _ _ => hq.trans h.1⟩

theorem snap_from {e : Nat} {s : Slice e} {i : Int} (ho : Own own J B) : Snap own may J D (s.from i) (fun t D' =>
    (∃ a : Nat, i = a ∧ a ≤ s.len ∧ t = ⟨s.blk, s.off + e * a, s.len - a, s.cap - a⟩) ∧ D' = D) :=
  snap_own ho tri_from

theorem snap_range {e : Nat} {s : Slice e} {i j : Int} (ho : Own own J B) : Snap own may J D (s.range i j) (fun t D' =>
    (∃ a b : Nat, i = a ∧ j = b ∧ a ≤ b ∧ b ≤ s.cap ∧ t = ⟨s.blk, s.off + e * a, b - a, s.cap - a⟩) ∧ D' = D) :=
  snap_own ho tri_range

theorem snap_outFrom {e : Nat} {s : Slice e} {i : Int} (ho : Own own J B) (h : OutOk B s) :
    Snap own may J D (s.from i) (fun t D' => OutOk B t ∧ D' = D) :=
  snap_mono (snap_from ho) fun t D' ⟨⟨a, h1, h2, h3⟩, hD⟩ => ⟨by subst h3; exact ⟨h.1, by have := h.2; simp only; omega⟩, hD⟩

theorem snap_outRange {e : Nat} {s : Slice e} {i j : Int} (ho : Own own J B) (h : OutOk B s) :
    Snap own may J D (s.range i j) (fun t D' => OutOk B t ∧ D' = D) :=
  snap_mono (snap_range ho) fun t D' ⟨⟨a, b, h1, h2, h3, h4, h5⟩, hD⟩ =>
    ⟨by subst h5; exact ⟨h.1, by have := h.2; simp only; omega⟩, hD⟩

theorem snap_setW {s : U32s} {i : Int} {v : U32} (ho : Own own J B) (h : OutOk B s) :
    Snap own may J D (setW s i v) (fun _ D' => D' = D) :=
  snap_mono (snap_own ho (tri_setW (h.wr ho))) fun _ _ h => h.2

theorem snap_getW {s : U32s} {i : Int} (ho : Own own J B) (h : OutOk B s) :
    Snap own may J D (getW s i) (fun _ D' => D' = D) :=
  snap_mono (snap_own ho (tri_getW (h.rd ho))) fun _ _ h => h.2

/-- A byte that is loaded for the first time. -/
theorem snap_getB {s : Bytes} {i : Int}
    (h : 0 ≤ i → i < s.len → own ⟨s.blk, s.off + i.toNat⟩ ∨ D ⟨s.blk, s.off + i.toNat⟩) :
    Snap own may J D (getB s i) (fun _ D' => (0 ≤ i ∧ i < s.len) ∧
      Cut s.blk (s.off + i.toNat) (s.off + i.toNat + 1) D D') := by
  unfold getB
  split
  · rename_i hi
    refine snap_load (h hi.1 hi.2) fun b _ => snap_ret ⟨hi, fun q hq hn => ⟨hq, ?_⟩⟩
    rintro rfl
    exact absurd ⟨rfl, Nat.le_refl _, Nat.lt_succ_self _⟩ hn
  · exact snap_panic

/-- A byte that nobody changes. -/
theorem snap_getBOwn {s : Bytes} {i : Int}
    (h : 0 ≤ i → i < s.len → own ⟨s.blk, s.off + i.toNat⟩) :
    Snap own may J D (getB s i) (fun b D' => (0 ≤ i ∧ i < s.len) ∧ (∃ m, J m ∧ m ⟨s.blk, s.off + i.toNat⟩ = b) ∧ D' = D) := by
  unfold getB
  split
  · rename_i hi
    refine snap_load (.inl (h hi.1 hi.2)) fun b hb => snap_ret ⟨hi, hb (h hi.1 hi.2), ?_⟩
    funext x
    exact propext ⟨fun h => h.1, fun hx => ⟨hx, fun _ => h hi.1 hi.2⟩⟩
  · exact snap_panic

theorem snap_size {c : Byte} (ho : Own own J B) :
    Snap own may J D (controlByteToSize c) (fun s D' => s = gSize c ∧ D' = D) := by
  refine snap_own ho (P := boundsPanic) (Q := fun s => s = (gSize c : Int)) ?_
  unfold controlByteToSize
  refine tri_bind (tri_load8 ((ownFp ho).tabs _ c.isLt)) ?_
  rintro b ⟨m, hT, rfl⟩
  refine tri_ret ?_
  rw [hT.ctrlLen']

theorem toNat_ne {size : Byte} {k : Nat} (hk : k < 256) (hne : size ≠ BitVec.ofNat 8 k) : size.toNat ≠ k := fun he =>
  hne (BitVec.eq_of_toNat_eq (by rw [BitVec.toNat_ofNat]; omega))

theorem snap_decodeOne {b : Bytes} {size : Byte} (h : Has b.blk b.off (b.off + size.toNat) D) :
    Snap own may J D (decodeOne b size) (fun _ D' => Cut b.blk b.off (b.off + size.toNat) D D') := by
  have step : ∀ {D1 : Ptr → Prop} {i j : Nat} {f : Byte → Prog U32} (_ : j = i + 1) (_ : j ≤ size.toNat)
      (_ : Has b.blk b.off (b.off + j) D1) (_ : Cut b.blk b.off (b.off + size.toNat) D D1)
      (_ : ∀ v D2, Has b.blk b.off (b.off + i) D2 → Cut b.blk b.off (b.off + size.toNat) D D2 →
        Snap own may J D2 (f v) (fun _ D' => Cut b.blk b.off (b.off + size.toNat) D D')),
      Snap own may J D1 ((getB b (i : Int)).bind f) (fun _ D' => Cut b.blk b.off (b.off + size.toNat) D D') := by
    intro D1 i j f hj hs hH hC hf
    refine snap_bind (snap_getB fun _ _ => .inr (hH _ ⟨rfl, by simp only; omega, by simp only; omega⟩)) ?_
    rintro v D2 ⟨-, h2⟩
    refine hf v D2 ((hH.sub (Nat.le_refl _) (by omega)).cut h2 (.inl (by omega)))
      (hC.trans h2 (by omega) (by omega) (by omega) (by omega))
  unfold decodeOne
  simp only [Prog.bind_eq, Prog.pure_eq]
  split
  · rename_i e
    have e4 : size.toNat = 4 := by rw [e]; rfl
    refine step (i := 3) (j := 4) rfl (by omega) (h.sub (Nat.le_refl _) (by omega)) (Cut.refl _) fun v3 D3 h3 c3 => ?_
    refine step (i := 2) (j := 3) rfl (by omega) h3 c3 fun v2 D2 h2 c2 => ?_
    refine step (i := 1) (j := 2) rfl (by omega) h2 c2 fun v1 D1 h1 c1 => ?_
    refine step (i := 0) (j := 1) rfl (by omega) h1 c1 fun v0 D0 h0 c0 => ?_
    exact snap_ret c0
  split
  · rename_i e
    have e4 : size.toNat = 3 := by rw [e]; rfl
    refine step (i := 2) (j := 3) rfl (by omega) (h.sub (Nat.le_refl _) (by omega)) (Cut.refl _) fun v2 D2 h2 c2 => ?_
    refine step (i := 1) (j := 2) rfl (by omega) h2 c2 fun v1 D1 h1 c1 => ?_
    refine step (i := 0) (j := 1) rfl (by omega) h1 c1 fun v0 D0 h0 c0 => ?_
    exact snap_ret c0
  split
  · rename_i e
    have e4 : size.toNat = 2 := by rw [e]; rfl
    refine step (i := 1) (j := 2) rfl (by omega) (h.sub (Nat.le_refl _) (by omega)) (Cut.refl _) fun v1 D1 h1 c1 => ?_
    refine step (i := 0) (j := 1) rfl (by omega) h1 c1 fun v0 D0 h0 c0 => ?_
    exact snap_ret c0
  split
  · rename_i e
    have e4 : size.toNat = 1 := by rw [e]; rfl
    refine step (i := 0) (j := 1) rfl (by omega) (h.sub (Nat.le_refl _) (by omega)) (Cut.refl _) fun v0 D0 h0 c0 => ?_
    exact snap_ret c0
  · exact snap_panic

theorem snap_row {c : Byte} (ho : Own own J B) : Snap own may J D (perNumLenRow c) (fun r D' =>
    (r.1.toNat = code c 0 + 1 ∧ r.2.1.toNat = code c 1 + 1 ∧ r.2.2.1.toNat = code c 2 + 1 ∧
      r.2.2.2.toNat = code c 3 + 1) ∧ D' = D) := by
  refine snap_own ho (P := boundsPanic) (Q := fun r : Byte × Byte × Byte × Byte => r.1.toNat = code c 0 + 1 ∧
    r.2.1.toNat = code c 1 + 1 ∧ r.2.2.1.toNat = code c 2 + 1 ∧ r.2.2.2.toNat = code c 3 + 1) ?_
  have hlt := c.isLt
  have hR : ∀ k < 4, (ownFp ho).R ⟨.numLen, 4 * c.toNat + k⟩ := fun k hk =>
    (ownFp ho).tabs _ (by simp only [inTables]; omega)
  unfold perNumLenRow
  simp only [Prog.bind_eq, Prog.pure_eq]
  refine tri_bind (tri_load8 (hR 0 (by omega))) ?_
  rintro _ ⟨m0, h0, rfl⟩
  refine tri_bind (tri_load8 (hR 1 (by omega))) ?_
  rintro _ ⟨m1, h1, rfl⟩
  refine tri_bind (tri_load8 (hR 2 (by omega))) ?_
  rintro _ ⟨m2, h2, rfl⟩
  refine tri_bind (tri_load8 (hR 3 (by omega))) ?_
  rintro _ ⟨m3, h3, rfl⟩
  exact ⟨h0.numLen' c 0 (by omega), h1.numLen' c 1 (by omega), h2.numLen' c 2 (by omega), h3.numLen' c 3 (by omega)⟩

/-- One number of a block: slicing, decoding. -/
theorem snap_at {inn : Bytes} {i : Nat} {size : Byte} (ho : Own own J B)
    (h : Has inn.blk (inn.off + i) (inn.off + i + size.toNat) D) {α : Type} {f : U32 → Prog α}
    {Q : α → (Ptr → Prop) → Prop}
    (hf : ∀ v D', Cut inn.blk (inn.off + i) (inn.off + i + size.toNat) D D' → Snap own may J D' (f v) Q) :
    Snap own may J D ((inn.from (i : Int)).bind fun b => (decodeOne b size).bind f) Q := by
  refine snap_bind (snap_from ho) ?_
  rintro t D' ⟨⟨a, h1, h2, h3⟩, rfl⟩
  obtain rfl : i = a := by omega
  subst h3
  simp only [Nat.one_mul]
  exact snap_bind (snap_decodeOne (by simpa only [Nat.one_mul] using h)) fun v D' h => hf v D' (by simpa only using h)

theorem snap_get4 {inn : Bytes} {out : U32s} {c : Byte} (ho : Own own J B) (hout : OutOk B out)
    (h : Has inn.blk inn.off (inn.off + gSize c) D) :
    Snap own may J D (get4uint32Scalar inn out c) (fun _ D' => Cut inn.blk inn.off (inn.off + gSize c) D D') := by
  unfold get4uint32Scalar
  simp only [Prog.bind_eq]
  refine snap_bind (snap_row ho) ?_
  rintro ⟨l0, l1, l2, l3⟩ D' ⟨⟨h0, h1, h2, h3⟩, rfl⟩
  simp only at h0 h1 h2 h3 ⊢
  have b0 := code_lt c 0; have b1 := code_lt c 1; have b2 := code_lt c 2; have b3 := code_lt c 3
  have s1 : (l0 + l1).toNat = l0.toNat + l1.toNat := by rw [BitVec.toNat_add]; omega
  have s2 : (l0 + l1 + l2).toNat = l0.toNat + l1.toNat + l2.toNat := by rw [BitVec.toNat_add, s1]; omega
  unfold gSize at h ⊢
  refine snap_at ho (h.sub (by omega) (by omega)) fun v3 D3 c3 => ?_
  refine snap_bind (snap_setW ho hout) ?_
  rintro _ _ rfl
  refine snap_at ho ((h.sub (by omega) (by omega)).cut c3 (.inl (by omega))) fun v2 D2 c2 => ?_
  refine snap_bind (snap_setW ho hout) ?_
  rintro _ _ rfl
  refine snap_at ho (((h.sub (by omega) (by omega)).cut c3 (.inl (by omega))).cut c2 (.inl (by omega))) fun v1 D1 c1 => ?_
  refine snap_bind (snap_setW ho hout) ?_
  rintro _ _ rfl
  refine snap_bind (snap_decodeOne ((((h.sub (by omega) (by omega)).cut c3 (.inl (by omega))).cut c2
    (.inl (by omega))).cut c1 (.inl (by omega)))) fun v0 D0 c0 => ?_
  refine snap_mono (snap_setW ho hout) ?_
  rintro _ _ rfl
  have k1 := c3.trans c2 (lo := inn.off) (hi := inn.off + (code c 0 + 1 + (code c 1 + 1) + (code c 2 + 1) + (code c 3 + 1)))
    (by omega) (by omega) (by omega) (by omega)
  exact (k1.trans c1 (Nat.le_refl _) (by omega) (Nat.le_refl _) (by omega)).trans c0
    (Nat.le_refl _) (by omega) (Nat.le_refl _) (by omega)

theorem snap_get4Delta {inn : Bytes} {out : U32s} {c : Byte} {prev : U32} (ho : Own own J B) (hout : OutOk B out)
    (h : Has inn.blk inn.off (inn.off + gSize c) D) :
    Snap own may J D (get4uint32DeltaScalar inn out c prev) (fun _ D' => Cut inn.blk inn.off (inn.off + gSize c) D D') := by
  unfold get4uint32DeltaScalar
  simp only [Prog.bind_eq]
  refine snap_bind (snap_row ho) ?_
  rintro ⟨l0, l1, l2, l3⟩ D' ⟨⟨h0, h1, h2, h3⟩, rfl⟩
  simp only at h0 h1 h2 h3 ⊢
  have b0 := code_lt c 0; have b1 := code_lt c 1; have b2 := code_lt c 2; have b3 := code_lt c 3
  have s1 : (l0 + l1).toNat = l0.toNat + l1.toNat := by rw [BitVec.toNat_add]; omega
  have s2 : (l0 + l1 + l2).toNat = l0.toNat + l1.toNat + l2.toNat := by rw [BitVec.toNat_add, s1]; omega
  unfold gSize at h ⊢
  refine snap_bind (snap_getW ho hout) ?_
  rintro _ _ rfl
  refine snap_bind (snap_decodeOne (h.sub (by omega) (by omega))) fun v0 D0 c0 => ?_
  refine snap_bind (snap_setW ho hout) ?_
  rintro _ _ rfl
  refine snap_at ho ((h.sub (by omega) (by omega)).cut c0 (.inr (by omega))) fun v1 D1 c1 => ?_
  refine snap_bind (snap_getW ho hout) ?_
  rintro _ _ rfl
  refine snap_bind (snap_setW ho hout) ?_
  rintro _ _ rfl
  refine snap_at ho (((h.sub (by omega) (by omega)).cut c0 (.inr (by omega))).cut c1 (.inr (by omega))) fun v2 D2 c2 => ?_
  refine snap_bind (snap_getW ho hout) ?_
  rintro _ _ rfl
  refine snap_bind (snap_setW ho hout) ?_
  rintro _ _ rfl
  refine snap_at ho ((((h.sub (by omega) (by omega)).cut c0 (.inr (by omega))).cut c1 (.inr (by omega))).cut c2
    (.inr (by omega))) fun v3 D3 c3 => ?_
  refine snap_bind (snap_getW ho hout) ?_
  rintro _ _ rfl
  refine snap_mono (snap_setW ho hout) ?_
  rintro _ _ rfl
  have k1 := c0.trans c1 (lo := inn.off) (hi := inn.off + (code c 0 + 1 + (code c 1 + 1) + (code c 2 + 1) + (code c 3 + 1)))
    (by omega) (by omega) (by omega) (by omega)
  exact (k1.trans c2 (Nat.le_refl _) (by omega) (Nat.le_refl _) (by omega)).trans c3
    (Nat.le_refl _) (by omega) (Nat.le_refl _) (by omega)

/-- All addresses from `lo` on. -/
def HasFrom (b : Block) (lo : Nat) (D : Ptr → Prop) : Prop := ∀ q : Ptr, q.blk = b → lo ≤ q.off → D q

theorem HasFrom.has {b : Block} {lo l h : Nat} {D : Ptr → Prop} (a : HasFrom b lo D) (hl : lo ≤ l) : Has b l h D :=
  fun q hq => a q hq.1 (by have := hq.2.1; omega)

theorem HasFrom.cut {b : Block} {lo hi l h : Nat} {D D' : Ptr → Prop} (a : HasFrom b lo D) (c : Cut b l h D D')
    (hl : lo ≤ hi) (hd : h ≤ hi) : HasFrom b hi D' := fun q hq ho => c q (a q hq (by omega)) fun hs => by
  have := hs.2.2; omega

theorem snap_getN {inn : Bytes} {out : U32s} {c : Byte} {count : Int} (ho : Own own J B) (hout : OutOk B out)
    (h : HasFrom inn.blk inn.off D) :
    Snap own may J D (getUint32Scalar inn out c count)
      (fun t D' => 0 ≤ t ∧ Cut inn.blk inn.off (inn.off + t.toNat) D D') := by
  unfold getUint32Scalar
  simp only [Prog.bind_eq, Prog.pure_eq]
  split
  · exact snap_ret ⟨Int.le_refl _, Cut.refl _⟩
  · refine snap_bind (snap_loop (fun (s : GetSt) D' => 0 ≤ s.total ∧ Cut inn.blk inn.off (inn.off + s.total.toNat) D D') ?_ 4
      ⟨Int.le_refl _, Cut.refl _⟩) fun s D' h => snap_ret h.1
    rintro s D1 ⟨h0, hC⟩ -
    obtain ⟨t, ht⟩ : ∃ t : Nat, s.total = t := ⟨s.total.toNat, by omega⟩
    rw [ht] at hC ⊢
    rw [Int.toNat_natCast] at hC
    refine snap_at ho ((h.cut hC (by omega) (Nat.le_refl _)).has (Nat.le_refl _)) fun v D2 c2 => ?_
    refine snap_bind (snap_setW ho hout) ?_
    rintro _ _ rfl
    refine snap_ret ⟨by simp only; omega, hC.trans c2 (Nat.le_refl _) (by omega) ?_ ?_⟩ <;> (simp only; omega)

theorem snap_getNDelta {inn : Bytes} {out : U32s} {c : Byte} {count : Int} {prev : U32} (ho : Own own J B) (hout : OutOk B out)
    (h : HasFrom inn.blk inn.off D) :
    Snap own may J D (getUint32DeltaScalar inn out c count prev)
      (fun t D' => 0 ≤ t ∧ Cut inn.blk inn.off (inn.off + t.toNat) D D') := by
  unfold getUint32DeltaScalar
  simp only [Prog.bind_eq, Prog.pure_eq]
  split
  · exact snap_ret ⟨Int.le_refl _, Cut.refl _⟩
  · refine snap_bind (snap_loop (fun (s : GetSt) D' => 0 ≤ s.total ∧ Cut inn.blk inn.off (inn.off + s.total.toNat) D D') ?_ 4
      ⟨Int.le_refl _, Cut.refl _⟩) fun s D' h => snap_ret h.1
    rintro s D1 ⟨h0, hC⟩ -
    obtain ⟨t, ht⟩ : ∃ t : Nat, s.total = t := ⟨s.total.toNat, by omega⟩
    rw [ht] at hC ⊢
    rw [Int.toNat_natCast] at hC
    refine snap_at ho ((h.cut hC (by omega) (Nat.le_refl _)).has (Nat.le_refl _)) fun v D2 c2 => ?_
    refine snap_bind (snap_setW ho hout) ?_
    rintro _ _ rfl
    refine snap_ret ⟨by simp only; omega, hC.trans c2 (Nat.le_refl _) (by omega) ?_ ?_⟩ <;> (simp only; omega)

end SVB
