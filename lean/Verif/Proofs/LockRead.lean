import Verif.Proofs.Lock
import Verif.Proofs.ReaderFast
import Verif.Proofs.SafeStream
import Verif.Proofs.Work

/-! # Readers in step

Two memories that have the tables and the control bytes in common. -/

set_option autoImplicit false

namespace SVB.InStep
open Asm

section
variable {I : Mem → Mem → Prop}

/-- The tables are the same in both runs. -/
structure TabI (I : Mem → Mem → Prop) : Prop where
  len : ∀ k < 256, Pub I ⟨.ctrlLen, k⟩
  num : ∀ k < 1024, Pub I ⟨.numLen, k⟩

theorem lk_size (hT : TabI I) (c : Byte) : Lk I (controlByteToSize c) (controlByteToSize c) Eq := by
  unfold controlByteToSize
  simp only [Prog.bind_eq, Prog.pure_eq]
  refine lk_bind (lk_load8P (hT.len _ c.isLt)) fun a b e => lk_ret ?_
  rw [e]

theorem lk_row (hT : TabI I) (c : Byte) : Lk I (perNumLenRow c) (perNumLenRow c) Eq := by
  unfold perNumLenRow
  simp only [Prog.bind_eq, Prog.pure_eq]
  have := c.isLt
  refine lk_bind (lk_load8P (hT.num _ (by omega))) fun a _ e => ?_
  refine lk_bind (lk_load8P (hT.num _ (by omega))) fun b _ e1 => ?_
  refine lk_bind (lk_load8P (hT.num _ (by omega))) fun c _ e2 => ?_
  refine lk_bind (lk_load8P (hT.num _ (by omega))) fun d _ e3 => lk_ret ?_
  rw [e, e1, e2, e3]

theorem lk_decodeOne (b : Bytes) (size : Byte) : Lk I (decodeOne b size) (decodeOne b size) (fun _ _ => True) := by
  unfold decodeOne
  simp only [Prog.bind_eq, Prog.pure_eq]
  refine lk_if (fun _ => ?_) fun _ => lk_if (fun _ => ?_) fun _ => lk_if (fun _ => ?_) fun _ => lk_if (fun _ => ?_) fun _ => lk_panic
  · exact lk_bind (lk_getB _ _) fun _ _ _ => lk_bind (lk_getB _ _) fun _ _ _ => lk_bind (lk_getB _ _) fun _ _ _ =>
      lk_bind (lk_getB _ _) fun _ _ _ => lk_ret trivial
  · exact lk_bind (lk_getB _ _) fun _ _ _ => lk_bind (lk_getB _ _) fun _ _ _ => lk_bind (lk_getB _ _) fun _ _ _ => lk_ret trivial
  · exact lk_bind (lk_getB _ _) fun _ _ _ => lk_bind (lk_getB _ _) fun _ _ _ => lk_ret trivial
  · exact lk_bind (lk_getB _ _) fun _ _ _ => lk_ret trivial

/-- `setW out i (decodeOne (s.from j) size)` and the rest. -/
theorem lk_one {α β : Type} {s : Bytes} {i : Int} {size : Byte} {f : U32 → Prog α} {g : U32 → Prog β} {Q : α → β → Prop}
    (h : ∀ x y, Lk I (f x) (g y) Q) :
    Lk I ((s.from i).bind fun t => (decodeOne t size).bind f) ((s.from i).bind fun t => (decodeOne t size).bind g) Q := by
  refine lk_bind (lk_from s i) ?_
  rintro t _ ⟨rfl, -⟩
  exact lk_bind (lk_decodeOne t size) fun _ _ _ => h _ _

theorem lk_get4 (hT : TabI I) {inn : Bytes} {out : U32s} (ho : Free I out.blk) (c : Byte) :
    Lk I (get4uint32Scalar inn out c) (get4uint32Scalar inn out c) (fun _ _ => True) := by
  unfold get4uint32Scalar
  simp only [Prog.bind_eq]
  refine lk_bind (lk_row hT c) ?_
  rintro ⟨l0, l1, l2, l3⟩ _ rfl
  simp only
  refine lk_one fun _ _ => lk_bind (lk_setW 3 ho _ _) fun _ _ _ => ?_
  refine lk_one fun _ _ => lk_bind (lk_setW 2 ho _ _) fun _ _ _ => ?_
  refine lk_one fun _ _ => lk_bind (lk_setW 1 ho _ _) fun _ _ _ => ?_
  exact lk_bind (lk_decodeOne _ _) fun _ _ _ => lk_setW 0 ho _ _

theorem lk_get4D (hT : TabI I) {inn : Bytes} {out : U32s} (ho : Free I out.blk) (c : Byte) (p q : U32) :
    Lk I (get4uint32DeltaScalar inn out c p) (get4uint32DeltaScalar inn out c q) (fun _ _ => True) := by
  unfold get4uint32DeltaScalar
  simp only [Prog.bind_eq]
  refine lk_bind (lk_row hT c) ?_
  rintro ⟨l0, l1, l2, l3⟩ _ rfl
  simp only
  refine lk_bind (lk_getW _ _) fun _ _ _ => ?_
  refine lk_bind (lk_decodeOne _ _) fun _ _ _ => lk_bind (lk_setW 0 ho _ _) fun _ _ _ => ?_
  refine lk_one fun _ _ => lk_bind (lk_getW _ _) fun _ _ _ => lk_bind (lk_setW 1 ho _ _) fun _ _ _ => ?_
  refine lk_one fun _ _ => lk_bind (lk_getW _ _) fun _ _ _ => lk_bind (lk_setW 2 ho _ _) fun _ _ _ => ?_
  exact lk_one fun _ _ => lk_bind (lk_getW _ _) fun _ _ _ => lk_setW 3 ho _ _

theorem lk_get8 (hT : TabI I) {inn : Bytes} {out : U32s} (ho : Free I out.blk) (c : U16) :
    Lk I (get8uint32Scalar inn out c) (get8uint32Scalar inn out c) (fun _ _ => True) := by
  unfold get8uint32Scalar
  simp only [Prog.bind_eq]
  refine lk_bind (lk_size hT _) ?_
  rintro z _ rfl
  refine lk_bind (lk_get4 hT ho _) fun _ _ _ => ?_
  refine lk_bind (lk_from inn z) ?_
  rintro t _ ⟨rfl, -⟩
  refine lk_bind (lk_from out 4) ?_
  rintro u _ ⟨rfl, -, hu, -⟩
  exact lk_get4 hT (hu ▸ ho) _

theorem lk_get8D (hT : TabI I) {inn : Bytes} {out : U32s} (ho : Free I out.blk) (c : U16) (p q : U32) :
    Lk I (get8uint32DeltaScalar inn out c p) (get8uint32DeltaScalar inn out c q) (fun _ _ => True) := by
  unfold get8uint32DeltaScalar
  simp only [Prog.bind_eq]
  refine lk_bind (lk_size hT _) ?_
  rintro z _ rfl
  refine lk_bind (lk_get4D hT ho _ _ _) fun _ _ _ => ?_
  refine lk_bind (lk_from inn z) ?_
  rintro t _ ⟨rfl, -⟩
  refine lk_bind (lk_from out 4) ?_
  rintro u _ ⟨rfl, -, hu, -⟩
  exact lk_bind (lk_getW _ _) fun _ _ _ => lk_get4D hT (hu ▸ ho) _ _ _

/-- Results of `GetUint32Scalar`: the same number of bytes. -/
theorem lk_getN {inn : Bytes} {out : U32s} (ho : Free I out.blk) (c : Byte) (n : Int) :
    Lk I (getUint32Scalar inn out c n) (getUint32Scalar inn out c n) Eq := by
  unfold getUint32Scalar
  simp only [Prog.bind_eq, Prog.pure_eq]
  refine lk_if (fun _ => lk_ret rfl) fun _ => ?_
  refine lk_bind (lk_loop (fun s t => s.i = t.i ∧ s.shift = t.shift ∧ s.total = t.total) (fun s t h => by rw [h.1]) ?_ 4
    ⟨rfl, rfl, rfl⟩) ?_
  · rintro ⟨i, sh, to, p⟩ ⟨_, _, _, q⟩ ⟨rfl, rfl, rfl⟩ -
    simp only
    exact lk_one fun _ _ => lk_bind (lk_setW _ ho _ _) fun _ _ _ => lk_ret ⟨rfl, rfl, rfl⟩
  · rintro s t ⟨h, -⟩
    exact lk_ret h.2.2

theorem lk_getND {inn : Bytes} {out : U32s} (ho : Free I out.blk) (c : Byte) (n : Int) (p q : U32) :
    Lk I (getUint32DeltaScalar inn out c n p) (getUint32DeltaScalar inn out c n q) Eq := by
  unfold getUint32DeltaScalar
  simp only [Prog.bind_eq, Prog.pure_eq]
  refine lk_if (fun _ => lk_ret rfl) fun _ => ?_
  refine lk_bind (lk_loop (fun s t => s.i = t.i ∧ s.shift = t.shift ∧ s.total = t.total) (fun s t h => by rw [h.1]) ?_ 4
    ⟨rfl, rfl, rfl⟩) ?_
  · rintro ⟨i, sh, to, p⟩ ⟨_, _, _, q⟩ ⟨rfl, rfl, rfl⟩ -
    simp only
    exact lk_one fun _ _ => lk_bind (lk_setW _ ho _ _) fun _ _ _ => lk_ret ⟨rfl, rfl, rfl⟩
  · rintro s t ⟨h, -⟩
    exact lk_ret h.2.2

theorem lk_decShape (hT : TabI I) {inn : Bytes} {out : U32s} (ho : Free I out.blk) (c : U16) (F0 F1 G0 G1 : Vec → Vec → Vec) :
    Lk I (decShape inn out c F0 F1) (decShape inn out c G0 G1) (fun _ _ => True) := by
  unfold decShape
  refine lk_bind (lk_load8P ?_) ?_
  · have : (BitVec.setWidth 64 (BitVec.setWidth 8 (BitVec.setWidth 64 c))).toNat < 256 := by
      simp only [BitVec.toNat_setWidth]; omega
    simpa [ctrlLenPtr, Ptr.add] using hT.len _ this
  rintro a _ rfl
  refine lk_bind (lk_load16 _) fun _ _ _ => lk_bind (lk_load16 _) fun _ _ _ => lk_bind (lk_load16 _) fun _ _ _ =>
    lk_bind (lk_load16 _) fun _ _ _ => ?_
  exact lk_bind (lk_store16 (p := (Slice.ptr out).add 0) ho _ _) fun _ _ _ =>
    lk_bind (lk_store16 (p := (Slice.ptr out).add 16) ho _ _) fun _ _ _ => lk_ret trivial

theorem lk_get8F (hT : TabI I) {inn : Bytes} {out : U32s} (ho : Free I out.blk) (c : U16) :
    Lk I (get8uint32FastAsm inn out c decShufPtr ctrlLenPtr) (get8uint32FastAsm inn out c decShufPtr ctrlLenPtr) (fun _ _ => True) := by
  rw [get8Fast_shape]
  exact lk_decShape hT ho c _ _ _ _

theorem lk_get8DF (hT : TabI I) {inn : Bytes} {out : U32s} (ho : Free I out.blk) (c : U16) (p q : U32) :
    Lk I (get8uint32DeltaFastAsm inn out c p decShufPtr ctrlLenPtr) (get8uint32DeltaFastAsm inn out c q decShufPtr ctrlLenPtr)
      (fun _ _ => True) := by
  rw [get8DeltaFast_shape, get8DeltaFast_shape]
  exact lk_decShape hT ho c _ _ _ _

/-! ## Readers -/

/-- The control bytes of the stream are the same in both runs. -/
def CtlI (I : Mem → Mem → Prop) (st : Bytes) (H : Nat) : Prop := ∀ k < H, Pub I ⟨st.blk, st.off + k⟩

/-- States of both runs. -/
structure RR (s t : RSt) : Prop where
  decoded : s.decoded = t.decoded
  dataPos : s.dataPos = t.dataPos
  ctrlPos : s.ctrlPos = t.ctrlPos
  pos : 0 ≤ s.ctrlPos

variable {α β : Type} {Q : α → β → Prop}

/-- A control byte of the slice `ctrls`. -/
theorem lk_ctl {st t : Bytes} {H : Nat} {i : Int} {f : Byte → Prog α} {g : Byte → Prog β} (hC : CtlI I st H) {c : Nat} (hb : t.blk = st.blk)
    (ht : t.off = st.off + c) (h : c + i.toNat < H) (k : ∀ x, Lk I (f x) (g x) Q) : Lk I ((getB t i).bind f) ((getB t i).bind g) Q := by
  refine lk_bind (lk_getBP fun _ _ => ?_) ?_
  · rw [hb, ht, Nat.add_assoc]
    exact hC _ h
  · rintro x _ rfl
    exact k x

theorem lk_sz (hT : TabI I) {c : Byte} {f : Int → Prog α} {g : Int → Prog β} (k : ∀ z, Lk I (f z) (g z) Q) :
    Lk I ((controlByteToSize c).bind f) ((controlByteToSize c).bind g) Q := by
  refine lk_bind (lk_size hT c) ?_
  rintro z _ rfl
  exact k z

theorem lk_fr {e : Nat} {s : Slice e} {i : Int} {f : Slice e → Prog α} {g : Slice e → Prog β}
    (k : ∀ t, t.blk = s.blk → t.off = s.off + e * i.toNat → Lk I (f t) (g t) Q) : Lk I ((s.from i).bind f) ((s.from i).bind g) Q := by
  refine lk_bind (lk_from s i) ?_
  rintro t _ ⟨rfl, -, h1, h2, -⟩
  exact k t h1 h2

theorem lk_rg {e : Nat} {s : Slice e} {i j : Int} {f : Slice e → Prog α} {g : Slice e → Prog β}
    (k : ∀ t, t.blk = s.blk → t.off = s.off + e * i.toNat → Lk I (f t) (g t) Q) : Lk I ((s.range i j).bind f) ((s.range i j).bind g) Q := by
  refine lk_bind (lk_range s i j) ?_
  rintro t _ ⟨rfl, -, h1, h2, -⟩
  exact k t h1 h2

theorem lk_un {γ δ : Type} {p : Prog γ} {q : Prog δ} {f : γ → Prog α} {g : δ → Prog β} (h : Lk I p q (fun _ _ => True))
    (k : ∀ x y, Lk I (f x) (g y) Q) : Lk I (p.bind f) (q.bind g) Q := lk_bind h fun _ _ _ => k _ _

section
variable {st : Bytes} {out : U32s} {H : Nat}

/-- What the bodies of the loops do to the state. -/
def Step (k n : Int) (s s' t' : RSt) : Prop := RR s' t' ∧ s'.ctrlPos = s.ctrlPos + k ∧ s'.decoded = s.decoded + n

theorem lk_rs16 (hT : TabI I) (hC : CtlI I st H) (ho : Free I out.blk) {s t : RSt} (h : RR s t) (hc : s.ctrlPos + 4 ≤ H) :
    Lk I (rsBody16 st out s) (rsBody16 st out t) (Step 4 16 s) := by
  obtain ⟨d, x, c, p⟩ := s
  obtain ⟨_, _, _, p'⟩ := t
  obtain ⟨rfl, rfl, rfl, h0⟩ := h
  simp only at h0 hc
  unfold rsBody16
  simp only [Prog.bind_eq, Prog.pure_eq]
  refine lk_fr fun data _ _ => lk_rg fun cs hb hcs => lk_rg fun nums hn _ => ?_
  rw [Nat.one_mul] at hcs
  have hn : Free I nums.blk := hn ▸ ho
  refine lk_ctl hC hb hcs (by simp only [Int.toNat_zero]; omega) fun c0 => lk_un (lk_get4 hT hn _) fun _ _ => lk_sz hT fun z0 => ?_
  refine lk_ctl hC hb hcs (by omega) fun c1 => lk_fr fun t _ _ => lk_fr fun u hu _ => lk_un (lk_get4 hT (hu ▸ hn) _) fun _ _ =>
    lk_sz hT fun z1 => ?_
  refine lk_ctl hC hb hcs (by omega) fun c1 => lk_fr fun t _ _ => lk_fr fun u hu _ => lk_un (lk_get4 hT (hu ▸ hn) _) fun _ _ =>
    lk_sz hT fun z1 => ?_
  refine lk_ctl hC hb hcs (by omega) fun c1 => lk_fr fun t _ _ => lk_fr fun u hu _ => lk_un (lk_get4 hT (hu ▸ hn) _) fun _ _ =>
    lk_sz hT fun z1 => lk_ret ⟨⟨rfl, rfl, rfl, ?_⟩, rfl, rfl⟩
  show 0 ≤ c + 4
  omega

theorem lk_rs4 (hT : TabI I) (hC : CtlI I st H) (ho : Free I out.blk) {s t : RSt} (h : RR s t) (hc : s.ctrlPos + 1 ≤ H) :
    Lk I (rsBody4 st out s) (rsBody4 st out t) (Step 1 4 s) := by
  obtain ⟨d, x, c, p⟩ := s
  obtain ⟨_, _, _, p'⟩ := t
  obtain ⟨rfl, rfl, rfl, h0⟩ := h
  simp only at h0 hc
  unfold rsBody4
  simp only [Prog.bind_eq, Prog.pure_eq]
  refine lk_ctl hC (c := 0) rfl rfl (by omega) fun c1 => lk_fr fun t _ _ => lk_fr fun u hu _ => lk_un (lk_get4 hT (hu ▸ ho) _) fun _ _ =>
    lk_sz hT fun z1 => lk_ret ⟨⟨rfl, rfl, rfl, ?_⟩, rfl, rfl⟩
  show 0 ≤ c + 1
  omega

theorem lk_rds16 (hT : TabI I) (hC : CtlI I st H) (ho : Free I out.blk) {s t : RSt} (h : RR s t) (hc : s.ctrlPos + 4 ≤ H) :
    Lk I (rdsBody16 st out s) (rdsBody16 st out t) (Step 4 16 s) := by
  obtain ⟨d, x, c, p⟩ := s
  obtain ⟨_, _, _, p'⟩ := t
  obtain ⟨rfl, rfl, rfl, h0⟩ := h
  simp only at h0 hc
  unfold rdsBody16
  simp only [Prog.bind_eq, Prog.pure_eq]
  refine lk_fr fun data _ _ => lk_rg fun cs hb hcs => lk_rg fun nums hn _ => ?_
  rw [Nat.one_mul] at hcs
  have hn : Free I nums.blk := hn ▸ ho
  refine lk_ctl hC hb hcs (by simp only [Int.toNat_zero]; omega) fun c0 => lk_un (lk_get4D hT hn _ _ _) fun _ _ => lk_sz hT fun z0 => ?_
  refine lk_ctl hC hb hcs (by omega) fun c1 => lk_fr fun t _ _ => lk_fr fun u hu _ => lk_un (lk_getW _ _) fun _ _ =>
    lk_un (lk_get4D hT (hu ▸ hn) _ _ _) fun _ _ => lk_sz hT fun z1 => ?_
  refine lk_ctl hC hb hcs (by omega) fun c1 => lk_fr fun t _ _ => lk_fr fun u hu _ => lk_un (lk_getW _ _) fun _ _ =>
    lk_un (lk_get4D hT (hu ▸ hn) _ _ _) fun _ _ => lk_sz hT fun z1 => ?_
  refine lk_ctl hC hb hcs (by omega) fun c1 => lk_fr fun t _ _ => lk_fr fun u hu _ => lk_un (lk_getW _ _) fun _ _ =>
    lk_un (lk_get4D hT (hu ▸ hn) _ _ _) fun _ _ => lk_sz hT fun z1 => lk_un (lk_getW _ _) fun _ _ =>
    lk_ret ⟨⟨rfl, rfl, rfl, ?_⟩, rfl, rfl⟩
  show 0 ≤ c + 4
  omega

theorem lk_rds4 (hT : TabI I) (hC : CtlI I st H) (ho : Free I out.blk) {s t : RSt} (h : RR s t) (hc : s.ctrlPos + 1 ≤ H) :
    Lk I (rdsBody4 st out s) (rdsBody4 st out t) (Step 1 4 s) := by
  obtain ⟨d, x, c, p⟩ := s
  obtain ⟨_, _, _, p'⟩ := t
  obtain ⟨rfl, rfl, rfl, h0⟩ := h
  simp only at h0 hc
  unfold rdsBody4
  simp only [Prog.bind_eq, Prog.pure_eq]
  refine lk_ctl hC (c := 0) rfl rfl (by omega) fun c1 => lk_fr fun t _ _ => lk_fr fun u hu _ => lk_un (lk_get4D hT (hu ▸ ho) _ _ _) fun _ _ =>
    lk_sz hT fun z1 => lk_un (lk_getW _ _) fun _ _ => lk_ret ⟨⟨rfl, rfl, rfl, ?_⟩, rfl, rfl⟩
  show 0 ≤ c + 1
  omega

/-- The loops of the scalar readers. -/
theorem lk_sloop {n : Nat} {b16 b4 : RSt → Prog RSt} {rest rest' : RSt → Prog Unit} {s t : RSt} (hn : n < 2 ^ 61)
    (h16 : ∀ s t, RR s t → s.ctrlPos + 4 ≤ ((n + 3) / 4 : Nat) → Lk I (b16 s) (b16 t) (Step 4 16 s))
    (h4 : ∀ s t, RR s t → s.ctrlPos + 1 ≤ ((n + 3) / 4 : Nat) → Lk I (b4 s) (b4 t) (Step 1 4 s))
    (hr : ∀ s t, RR s t → 4 * s.ctrlPos = (n / 4 * 4 : Nat) → Lk I (rest s) (rest' t) (fun _ _ => True))
    (h : RR s t) (h0 : s.ctrlPos = 0) (h1 : s.decoded = 0) {fuel : Nat} :
    Lk I ((loop fuel (fun s => decide (s.decoded < andNot (n : Int) (jump - 1))) b16 s).bind fun s =>
        (loop fuel (fun s => decide (s.decoded < andNot (n : Int) 3)) b4 s).bind rest)
      ((loop fuel (fun s => decide (s.decoded < andNot (n : Int) (jump - 1))) b16 t).bind fun s =>
        (loop fuel (fun s => decide (s.decoded < andNot (n : Int) 3)) b4 s).bind rest') (fun _ _ => True) := by
  rw [header_jump hn, header_lowest4 hn]
  refine lk_bind (lk_loop (fun s t => RR s t ∧ s.decoded = 4 * s.ctrlPos ∧ s.ctrlPos % 4 = 0 ∧ s.ctrlPos ≤ (n / 4 : Nat))
    (fun s t h => by rw [h.1.decoded]) ?_ fuel ⟨h, by omega, by omega, by omega⟩) ?_
  · rintro s t ⟨h, hd, hm, hle⟩ hc
    simp only [decide_eq_true_eq] at hc
    refine lk_mono (h16 s t h (by omega)) ?_
    rintro s' t' ⟨h, h', h''⟩
    exact ⟨h, by omega, by omega, by omega⟩
  rintro s t ⟨⟨h, hd, -, hle⟩, -⟩
  refine lk_bind (lk_loop (fun s t => RR s t ∧ s.decoded = 4 * s.ctrlPos ∧ s.ctrlPos ≤ (n / 4 : Nat))
    (fun s t h => by rw [h.1.decoded]) ?_ fuel ⟨h, hd, hle⟩) ?_
  · rintro s t ⟨h, hd, hle⟩ hc
    simp only [decide_eq_true_eq] at hc
    refine lk_mono (h4 s t h (by omega)) ?_
    rintro s' t' ⟨h, h', h''⟩
    exact ⟨h, by omega, by omega⟩
  · rintro s t ⟨⟨h, hd, hle⟩, hc⟩
    simp only [decide_eq_false_iff_not] at hc
    exact hr s t h (by omega)

theorem lk_readAllScalar {n : Nat} (hn : n < 2 ^ 61) (hT : TabI I) (hC : CtlI I st ((n + 3) / 4)) (ho : Free I out.blk) :
    Lk I (readAllScalar n st out) (readAllScalar n st out) (fun _ _ => True) := by
  unfold readAllScalar
  simp only [Prog.bind_eq, Prog.pure_eq]
  rw [header_ctrlLen hn]
  refine lk_sloop hn (fun s t h hc => lk_rs16 hT hC ho h hc) (fun s t h hc => lk_rs4 hT hC ho h hc) ?_ ⟨rfl, rfl, rfl, Int.le_refl 0⟩ rfl rfl
  intro s t h hc
  rw [header_lowest4 hn]
  refine lk_if (fun hne => ?_) fun _ => lk_ret trivial
  have hne' : n / 4 * 4 ≠ n := fun e => hne (by rw [e])
  rw [h.dataPos, h.decoded, h.ctrlPos]
  rw [h.ctrlPos] at hc
  refine lk_fr fun a _ _ => lk_fr fun u hu _ => lk_ctl hC (c := 0) rfl rfl (by omega) fun _ => ?_
  exact lk_bind (lk_getN (hu ▸ ho) _ _) fun _ _ _ => lk_ret trivial

theorem lk_readAllDeltaScalar {n : Nat} {p q : U32} (hn : n < 2 ^ 61) (hT : TabI I) (hC : CtlI I st ((n + 3) / 4)) (ho : Free I out.blk) :
    Lk I (readAllDeltaScalar n st out p) (readAllDeltaScalar n st out q) (fun _ _ => True) := by
  unfold readAllDeltaScalar
  simp only [Prog.bind_eq, Prog.pure_eq]
  rw [header_ctrlLen hn]
  refine lk_sloop hn (fun s t h hc => lk_rds16 hT hC ho h hc) (fun s t h hc => lk_rds4 hT hC ho h hc) ?_ ?_ ?_ ?_
  rotate_left
  · exact ⟨rfl, rfl, rfl, Int.le_refl 0⟩
  · rfl
  · rfl
  intro s t h hc
  rw [header_lowest4 hn]
  refine lk_if (fun hne => ?_) fun _ => lk_ret trivial
  have hne' : n / 4 * 4 ≠ n := fun e => hne (by rw [e])
  rw [h.dataPos, h.decoded, h.ctrlPos]
  rw [h.ctrlPos] at hc
  refine lk_fr fun a _ _ => lk_fr fun u hu _ => lk_ctl hC (c := 0) rfl rfl (by omega) fun _ => ?_
  exact lk_bind (lk_getND (hu ▸ ho) _ _ _ _) fun _ _ _ => lk_ret trivial

/-! ### The vectorised readers -/

theorem lk_rf32 (hT : TabI I) (hC : CtlI I st H) (ho : Free I out.blk) {s t : RSt} (h : RR s t) (hc : s.ctrlPos + 8 ≤ H) :
    Lk I (rfBody32 st out s) (rfBody32 st out t) (Step 8 32 s) := by
  obtain ⟨d, x, c, p⟩ := s
  obtain ⟨_, _, _, p'⟩ := t
  obtain ⟨rfl, rfl, rfl, h0⟩ := h
  simp only at h0 hc
  unfold rfBody32
  simp only [Prog.bind_eq, Prog.pure_eq]
  refine lk_fr fun data _ _ => lk_rg fun cs hb hcs => lk_rg fun nums hn _ => ?_
  rw [Nat.one_mul] at hcs
  have hn : Free I nums.blk := hn ▸ ho
  refine lk_ctl hC hb hcs (by simp only [Int.toNat_zero]; omega) fun _ => lk_ctl hC hb hcs (by omega) fun _ =>
    lk_un (lk_get8F hT hn _) fun _ _ => ?_
  refine lk_ctl hC hb hcs (by simp only [Int.toNat_zero]; omega) fun _ => lk_sz hT fun _ => lk_ctl hC hb hcs (by omega) fun _ =>
    lk_sz hT fun _ => ?_
  refine lk_ctl hC hb hcs (by omega) fun _ => lk_ctl hC hb hcs (by omega) fun _ => lk_fr fun _ _ _ => lk_fr fun u hu _ =>
    lk_un (lk_get8F hT (hu ▸ hn) _) fun _ _ => ?_
  refine lk_ctl hC hb hcs (by omega) fun _ => lk_sz hT fun _ => lk_ctl hC hb hcs (by omega) fun _ => lk_sz hT fun _ => ?_
  refine lk_ctl hC hb hcs (by omega) fun _ => lk_ctl hC hb hcs (by omega) fun _ => lk_fr fun _ _ _ => lk_fr fun u hu _ =>
    lk_un (lk_get8F hT (hu ▸ hn) _) fun _ _ => ?_
  refine lk_ctl hC hb hcs (by omega) fun _ => lk_sz hT fun _ => lk_ctl hC hb hcs (by omega) fun _ => lk_sz hT fun _ => ?_
  refine lk_ctl hC hb hcs (by omega) fun _ => lk_ctl hC hb hcs (by omega) fun _ => lk_fr fun _ _ _ => lk_fr fun u hu _ =>
    lk_un (lk_get8F hT (hu ▸ hn) _) fun _ _ => ?_
  refine lk_ctl hC hb hcs (by omega) fun _ => lk_sz hT fun _ => lk_ctl hC hb hcs (by omega) fun _ => lk_sz hT fun _ =>
    lk_ret ⟨⟨rfl, rfl, rfl, ?_⟩, rfl, rfl⟩
  show 0 ≤ c + 8
  omega

theorem lk_rdf32 (hT : TabI I) (hC : CtlI I st H) (ho : Free I out.blk) {s t : RSt} (h : RR s t) (hc : s.ctrlPos + 8 ≤ H) :
    Lk I (rdfBody32 st out s) (rdfBody32 st out t) (Step 8 32 s) := by
  obtain ⟨d, x, c, p⟩ := s
  obtain ⟨_, _, _, p'⟩ := t
  obtain ⟨rfl, rfl, rfl, h0⟩ := h
  simp only at h0 hc
  unfold rdfBody32
  simp only [Prog.bind_eq, Prog.pure_eq]
  refine lk_fr fun data _ _ => lk_rg fun cs hb hcs => lk_rg fun nums hn _ => ?_
  rw [Nat.one_mul] at hcs
  have hn : Free I nums.blk := hn ▸ ho
  refine lk_ctl hC hb hcs (by simp only [Int.toNat_zero]; omega) fun _ => lk_ctl hC hb hcs (by omega) fun _ =>
    lk_un (lk_get8DF hT hn _ _ _) fun _ _ => ?_
  refine lk_ctl hC hb hcs (by simp only [Int.toNat_zero]; omega) fun _ => lk_sz hT fun _ => lk_ctl hC hb hcs (by omega) fun _ =>
    lk_sz hT fun _ => ?_
  refine lk_ctl hC hb hcs (by omega) fun _ => lk_ctl hC hb hcs (by omega) fun _ => lk_fr fun _ _ _ => lk_fr fun u hu _ =>
    lk_un (lk_getW _ _) fun _ _ => lk_un (lk_get8DF hT (hu ▸ hn) _ _ _) fun _ _ => ?_
  refine lk_ctl hC hb hcs (by omega) fun _ => lk_sz hT fun _ => lk_ctl hC hb hcs (by omega) fun _ => lk_sz hT fun _ => ?_
  refine lk_ctl hC hb hcs (by omega) fun _ => lk_ctl hC hb hcs (by omega) fun _ => lk_fr fun _ _ _ => lk_fr fun u hu _ =>
    lk_un (lk_getW _ _) fun _ _ => lk_un (lk_get8DF hT (hu ▸ hn) _ _ _) fun _ _ => ?_
  refine lk_ctl hC hb hcs (by omega) fun _ => lk_sz hT fun _ => lk_ctl hC hb hcs (by omega) fun _ => lk_sz hT fun _ => ?_
  refine lk_ctl hC hb hcs (by omega) fun _ => lk_ctl hC hb hcs (by omega) fun _ => lk_fr fun _ _ _ => lk_fr fun u hu _ =>
    lk_un (lk_getW _ _) fun _ _ => lk_un (lk_get8DF hT (hu ▸ hn) _ _ _) fun _ _ => ?_
  refine lk_ctl hC hb hcs (by omega) fun _ => lk_sz hT fun _ => lk_ctl hC hb hcs (by omega) fun _ => lk_sz hT fun _ =>
    lk_un (lk_getW _ _) fun _ _ => lk_ret ⟨⟨rfl, rfl, rfl, ?_⟩, rfl, rfl⟩
  show 0 ≤ c + 8
  omega

theorem lk_rf8 (hT : TabI I) (hC : CtlI I st H) (ho : Free I out.blk) {s t : RSt} (h : RR s t) (hc : s.ctrlPos + 2 ≤ H) :
    Lk I (rfBody8 st out s) (rfBody8 st out t) (Step 2 8 s) := by
  obtain ⟨d, x, c, p⟩ := s
  obtain ⟨_, _, _, p'⟩ := t
  obtain ⟨rfl, rfl, rfl, h0⟩ := h
  simp only at h0 hc
  unfold rfBody8
  simp only [Prog.bind_eq, Prog.pure_eq]
  refine lk_ctl hC (c := 0) rfl rfl (by omega) fun _ => lk_ctl hC (c := 0) rfl rfl (by omega) fun _ => lk_fr fun _ _ _ =>
    lk_fr fun u hu _ => lk_un (lk_get8F hT (hu ▸ ho) _) fun _ _ => ?_
  refine lk_ctl hC (c := 0) rfl rfl (by omega) fun _ => lk_sz hT fun _ => lk_ctl hC (c := 0) rfl rfl (by omega) fun _ =>
    lk_sz hT fun _ => lk_ret ⟨⟨rfl, rfl, rfl, ?_⟩, rfl, rfl⟩
  show 0 ≤ c + 2
  omega

theorem lk_rdf8 (hT : TabI I) (hC : CtlI I st H) (ho : Free I out.blk) {s t : RSt} (h : RR s t) (hc : s.ctrlPos + 2 ≤ H) :
    Lk I (rdfBody8 st out s) (rdfBody8 st out t) (Step 2 8 s) := by
  obtain ⟨d, x, c, p⟩ := s
  obtain ⟨_, _, _, p'⟩ := t
  obtain ⟨rfl, rfl, rfl, h0⟩ := h
  simp only at h0 hc
  unfold rdfBody8
  simp only [Prog.bind_eq, Prog.pure_eq]
  refine lk_ctl hC (c := 0) rfl rfl (by omega) fun _ => lk_ctl hC (c := 0) rfl rfl (by omega) fun _ => lk_fr fun _ _ _ =>
    lk_fr fun u hu _ => lk_un (lk_get8DF hT (hu ▸ ho) _ _ _) fun _ _ => ?_
  refine lk_ctl hC (c := 0) rfl rfl (by omega) fun _ => lk_sz hT fun _ => lk_ctl hC (c := 0) rfl rfl (by omega) fun _ =>
    lk_sz hT fun _ => lk_un (lk_getW _ _) fun _ _ => lk_ret ⟨⟨rfl, rfl, rfl, ?_⟩, rfl, rfl⟩
  show 0 ≤ c + 2
  omega

theorem lk_rf1 {count : Int} (hC : CtlI I st H) (ho : Free I out.blk) {s t : RSt} (h : RR s t) (hc : s.ctrlPos + 1 ≤ H) :
    Lk I (rfBody1 count st out s) (rfBody1 count st out t) RR := by
  obtain ⟨d, x, c, p⟩ := s
  obtain ⟨_, _, _, p'⟩ := t
  obtain ⟨rfl, rfl, rfl, h0⟩ := h
  simp only at h0 hc
  unfold rfBody1
  simp only [Prog.bind_eq, Prog.pure_eq]
  refine lk_fr fun _ _ _ => lk_fr fun u hu _ => lk_ctl hC (c := 0) rfl rfl (by omega) fun _ => lk_bind (lk_getN (hu ▸ ho) _ _) ?_
  rintro z _ rfl
  refine lk_ret ⟨rfl, rfl, rfl, ?_⟩
  show 0 ≤ c + 1
  omega

theorem lk_rdf1 {count : Int} (hC : CtlI I st H) (ho : Free I out.blk) {s t : RSt} (h : RR s t) (hc : s.ctrlPos + 1 ≤ H) :
    Lk I (rdfBody1 count st out s) (rdfBody1 count st out t) RR := by
  obtain ⟨d, x, c, p⟩ := s
  obtain ⟨_, _, _, p'⟩ := t
  obtain ⟨rfl, rfl, rfl, h0⟩ := h
  simp only at h0 hc
  unfold rdfBody1
  simp only [Prog.bind_eq, Prog.pure_eq]
  refine lk_fr fun _ _ _ => lk_fr fun u hu _ => lk_ctl hC (c := 0) rfl rfl (by omega) fun _ => lk_bind (lk_getND (hu ▸ ho) _ _ _ _) ?_
  rintro z _ rfl
  refine lk_un (lk_getW _ _) fun _ _ => lk_ret ⟨rfl, rfl, rfl, ?_⟩
  show 0 ≤ c + 1
  omega

/-- The loops of the vectorised readers. -/
theorem lk_floop {b32 b8 b1 : RSt → Prog RSt} {s t : RSt} (hH : H < 2 ^ 61)
    (h32 : ∀ s t, RR s t → s.ctrlPos + 8 ≤ H → Lk I (b32 s) (b32 t) (Step 8 32 s))
    (h8 : ∀ s t, RR s t → s.ctrlPos + 2 ≤ H → Lk I (b8 s) (b8 t) (Step 2 8 s))
    (hb1 : ∀ s t, RR s t → s.ctrlPos + 1 ≤ H → Lk I (b1 s) (b1 t) RR)
    (h : RR s t) (h0 : s.ctrlPos = 0) (h0' : s.decoded = 0) {fuel : Nat} :
    Lk I ((loop fuel (fun s => decide (s.decoded < lowest32Of (H : Int))) b32 s).bind fun s =>
        (loop fuel (fun s => decide (s.ctrlPos < (H : Int) - 4)) b8 s).bind fun s =>
        (loop fuel (fun s => decide (s.ctrlPos < (H : Int))) b1 s).bind fun _ => .ret ())
      ((loop fuel (fun s => decide (s.decoded < lowest32Of (H : Int))) b32 t).bind fun s =>
        (loop fuel (fun s => decide (s.ctrlPos < (H : Int) - 4)) b8 s).bind fun s =>
        (loop fuel (fun s => decide (s.ctrlPos < (H : Int))) b1 s).bind fun _ => .ret ()) (fun _ _ => True) := by
  have hl := low32_le hH
  refine lk_bind (lk_loop (fun s t => RR s t ∧ s.decoded = 4 * s.ctrlPos ∧ s.decoded % 32 = 0) (fun s t h => by rw [h.1.decoded]) ?_ fuel
    ⟨h, by omega, by omega⟩) ?_
  · rintro s t ⟨h, hm, hm'⟩ hc
    simp only [decide_eq_true_eq] at hc
    refine lk_mono (h32 s t h (by omega)) ?_
    rintro s' t' ⟨h, h', h''⟩
    exact ⟨h, by omega, by omega⟩
  rintro s t ⟨⟨h, -⟩, -⟩
  refine lk_bind (lk_loop RR (fun s t h => by rw [h.ctrlPos]) ?_ fuel h) ?_
  · intro s t h hc
    simp only [decide_eq_true_eq] at hc
    exact lk_mono (h8 s t h (by omega)) fun _ _ h => h.1
  rintro s t ⟨h, -⟩
  refine lk_bind (lk_loop RR (fun s t h => by rw [h.ctrlPos]) ?_ fuel h) fun _ _ _ => lk_ret trivial
  intro s t h hc
  simp only [decide_eq_true_eq] at hc
  exact hb1 s t h (by omega)

theorem lk_readAllFast {n : Nat} (hn : n < 2 ^ 61) (hT : TabI I) (hC : CtlI I st ((n + 3) / 4)) (ho : Free I out.blk) :
    Lk I (readAllFast n st out) (readAllFast n st out) (fun _ _ => True) := by
  unfold readAllFast
  simp only [Prog.bind_eq, Prog.pure_eq]
  rw [header_ctrlLen hn]
  exact lk_floop (by omega) (fun s t h hc => lk_rf32 hT hC ho h hc) (fun s t h hc => lk_rf8 hT hC ho h hc)
    (fun s t h hc => lk_rf1 hC ho h hc) ⟨rfl, rfl, rfl, Int.le_refl 0⟩ rfl rfl

theorem lk_readAllDeltaFast {n : Nat} {p q : U32} (hn : n < 2 ^ 61) (hT : TabI I) (hC : CtlI I st ((n + 3) / 4)) (ho : Free I out.blk) :
    Lk I (readAllDeltaFast n st out p) (readAllDeltaFast n st out q) (fun _ _ => True) := by
  unfold readAllDeltaFast
  simp only [Prog.bind_eq, Prog.pure_eq]
  rw [header_ctrlLen hn]
  refine lk_floop (by omega) (fun s t h hc => lk_rdf32 hT hC ho h hc) (fun s t h hc => lk_rdf8 hT hC ho h hc)
    (fun s t h hc => lk_rdf1 hC ho h hc) ?_ ?_ ?_
  · exact ⟨rfl, rfl, rfl, Int.le_refl 0⟩
  · rfl
  · rfl

end

end

end SVB.InStep
