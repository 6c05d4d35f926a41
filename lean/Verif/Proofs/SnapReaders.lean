import Verif.Proofs.SnapAsm
import Verif.Proofs.Work

/-! # Snapshots of the readers -/

set_option autoImplicit false

namespace SVB
open Spec Asm

variable {own : Ptr → Prop} {may : Ptr → Byte → Prop} {J : Mem → Prop} {B : Block} {D : Ptr → Prop}

/-- The control bytes from `c` on and everything from `d` on have not been loaded yet. -/
structure RemOk (st : Bytes) (H c d : Nat) (D : Ptr → Prop) : Prop where
  ctrl : Has st.blk (st.off + c) (st.off + H) D
  data : HasFrom st.blk (st.off + d) D
  le : H ≤ d

theorem RemOk.stepC {st : Bytes} {H c d : Nat} {D D' : Ptr → Prop} (h : RemOk st H c d D) (hc : c < H)
    (k : Cut st.blk (st.off + c) (st.off + c + 1) D D') : RemOk st H (c + 1) d D' where
  ctrl := (h.ctrl.sub (by omega) (Nat.le_refl _)).cut k (.inr (by omega))
  data := h.data.cut k (Nat.le_refl _) (by have := h.le; omega)
  le := h.le

theorem RemOk.stepD {st : Bytes} {H c d g : Nat} {D D' : Ptr → Prop} (h : RemOk st H c d D)
    (k : Cut st.blk (st.off + d) (st.off + d + g) D D') : RemOk st H c (d + g) D' where
  ctrl := h.ctrl.cut k (.inl (by have := h.le; omega))
  data := h.data.cut k (by omega) (by omega)
  le := by have := h.le; omega

/-- State of a loop of a reader. -/
def SnapI (st : Bytes) (H : Nat) (s : RSt) (D : Ptr → Prop) : Prop :=
  ∃ c d : Nat, s.ctrlPos = c ∧ s.dataPos = d ∧ s.decoded = 4 * c ∧ RemOk st H c d D

/-- Loading control byte `c`, relative to a slice. -/
theorem snap_ctrl {α : Type} {st t : Bytes} {H c d : Nat} {i : Int} {f : Byte → Prog α} {Q : α → (Ptr → Prop) → Prop}
    (h : RemOk st H c d D) (hc : c < H) (ht : t.blk = st.blk) (hi : t.off + i.toNat = st.off + c)
    (hf : ∀ b D', RemOk st H (c + 1) d D' → Snap own may J D' (f b) Q) : Snap own may J D ((getB t i).bind f) Q := by
  refine snap_bind (snap_getB fun _ _ => .inr ?_) ?_
  · rw [ht, hi]; exact h.ctrl _ ⟨rfl, by simp only; omega, by simp only; omega⟩
  · rintro b D' ⟨-, k⟩
    rw [ht, hi] at k
    exact hf b D' (h.stepC hc k)

theorem snap_grp {α : Type} {st t : Bytes} {out : U32s} {H c d : Nat} {b : Byte} {f : Unit → Prog α}
    {Q : α → (Ptr → Prop) → Prop} (ho : Own own J B) (hout : OutOk B out) (h : RemOk st H c d D) (ht : t.blk = st.blk)
    (hi : t.off = st.off + d) (hf : ∀ D', RemOk st H c (d + gSize b) D' → Snap own may J D' (f ()) Q) :
    Snap own may J D ((get4uint32Scalar t out b).bind f) Q := by
  refine snap_bind (snap_get4 ho hout ?_) ?_
  · rw [ht, hi]; exact h.data.has (Nat.le_refl _)
  · intro _ D' k
    rw [ht, hi] at k
    exact hf D' (h.stepD k)

theorem snap_grpDelta {α : Type} {st t : Bytes} {out : U32s} {H c d : Nat} {b : Byte} {prev : U32} {f : Unit → Prog α}
    {Q : α → (Ptr → Prop) → Prop} (ho : Own own J B) (hout : OutOk B out) (h : RemOk st H c d D) (ht : t.blk = st.blk)
    (hi : t.off = st.off + d) (hf : ∀ D', RemOk st H c (d + gSize b) D' → Snap own may J D' (f ()) Q) :
    Snap own may J D ((get4uint32DeltaScalar t out b prev).bind f) Q := by
  refine snap_bind (snap_get4Delta ho hout ?_) ?_
  · rw [ht, hi]; exact h.data.has (Nat.le_refl _)
  · intro _ D' k
    rw [ht, hi] at k
    exact hf D' (h.stepD k)

theorem snap_size' {α : Type} {c : Byte} {f : Int → Prog α} {Q : α → (Ptr → Prop) → Prop} (ho : Own own J B)
    (hf : Snap own may J D (f (gSize c)) Q) : Snap own may J D ((controlByteToSize c).bind f) Q := by
  refine snap_bind (snap_size ho) ?_
  rintro _ _ ⟨rfl, rfl⟩
  exact hf

theorem snap_from' {α : Type} {e : Nat} {s : Slice e} {i : Int} {f : Slice e → Prog α} {Q : α → (Ptr → Prop) → Prop}
    (ho : Own own J B) (hf : ∀ t : Slice e, 0 ≤ i → t.blk = s.blk → t.off = s.off + e * i.toNat → Snap own may J D (f t) Q) :
    Snap own may J D ((s.from i).bind f) Q := by
  refine snap_bind (snap_from ho) ?_
  rintro t _ ⟨⟨a, h1, h2, h3⟩, rfl⟩
  subst h3
  exact hf _ (by omega) rfl (by simp only; rw [h1, Int.toNat_natCast])

theorem snap_outFrom' {α : Type} {e : Nat} {s : Slice e} {i : Int} {f : Slice e → Prog α} {Q : α → (Ptr → Prop) → Prop}
    (ho : Own own J B) (h : OutOk B s) (hf : ∀ t : Slice e, OutOk B t → Snap own may J D (f t) Q) :
    Snap own may J D ((s.from i).bind f) Q := by
  refine snap_bind (snap_outFrom ho h) ?_
  rintro t _ ⟨h, rfl⟩
  exact hf _ h

theorem snap_getW' {α : Type} {s : U32s} {i : Int} {f : U32 → Prog α} {Q : α → (Ptr → Prop) → Prop}
    (ho : Own own J B) (h : OutOk B s) (hf : ∀ v, Snap own may J D (f v) Q) :
    Snap own may J D ((getW s i).bind f) Q := by
  refine snap_bind (snap_getW ho h) ?_
  rintro v _ rfl
  exact hf _

/-- Names for the position of a slice. -/
theorem pos_nat {e : Nat} {s : Slice e} {d : Nat} {i : Int} (h : i = d) : s.off + e * i.toNat = s.off + e * d := by
  rw [h, Int.toNat_natCast]

theorem snap_rs16 {st : Bytes} {out : U32s} {H : Nat} {s : RSt} (ho : Own own J B) (hout : OutOk B out) {c d : Nat}
    (h1 : s.ctrlPos = c) (h2 : s.dataPos = d) (h3 : s.decoded = 4 * c) (hc : c + 4 ≤ H) (h : RemOk st H c d D) :
    Snap own may J D (rsBody16 st out s) (fun s' D' => SnapI st H s' D' ∧ s'.ctrlPos = c + 4) := by
  unfold rsBody16
  simp only [Prog.bind_eq, Prog.pure_eq]
  refine snap_from' ho fun data _ hd1 hd2 => ?_
  rw [pos_nat h2] at hd2
  refine snap_bind (snap_range ho) ?_
  rintro ctrls _ ⟨⟨a, b, e1, e2, e3, e4, e5⟩, rfl⟩
  obtain rfl : a = c := by omega
  refine snap_bind (snap_outRange ho hout) ?_
  rintro nums _ ⟨hn, rfl⟩
  have hb : ctrls.blk = st.blk := by rw [e5]
  have hj : jumpCtrl = 4 := rfl
  have hoff : ctrls.off = st.off + a := by rw [e5]; simp only; omega
  clear e5
  refine snap_ctrl h (by omega) hb (by omega) fun c0 D1 h => ?_
  refine snap_grp ho hn h hd1 (by omega) fun D2 h => ?_
  refine snap_size' ho ?_
  refine snap_ctrl h (by omega) hb (by omega) fun c1 D3 h => ?_
  refine snap_from' ho fun t _ ht1 ht2 => ?_
  refine snap_outFrom' ho hn fun u hu => ?_
  refine snap_grp ho hu h (ht1.trans hd1) (by omega) fun D4 h => ?_
  refine snap_size' ho ?_
  refine snap_ctrl h (by omega) hb (by omega) fun c2 D5 h => ?_
  refine snap_from' ho fun t _ ht1 ht2 => ?_
  refine snap_outFrom' ho hn fun u hu => ?_
  refine snap_grp ho hu h (ht1.trans hd1) (by omega) fun D6 h => ?_
  refine snap_size' ho ?_
  refine snap_ctrl h (by omega) hb (by omega) fun c3 D7 h => ?_
  refine snap_from' ho fun t _ ht1 ht2 => ?_
  refine snap_outFrom' ho hn fun u hu => ?_
  refine snap_grp ho hu h (ht1.trans hd1) (by omega) fun D8 h => ?_
  refine snap_size' ho (snap_ret ?_)
  refine ⟨⟨_, _, ?_, ?_, ?_, h⟩, ?_⟩ <;> simp only [hj, jump] <;> omega

theorem snap_rds16 {st : Bytes} {out : U32s} {H : Nat} {s : RSt} (ho : Own own J B) (hout : OutOk B out) {c d : Nat}
    (h1 : s.ctrlPos = c) (h2 : s.dataPos = d) (h3 : s.decoded = 4 * c) (hc : c + 4 ≤ H) (h : RemOk st H c d D) :
    Snap own may J D (rdsBody16 st out s) (fun s' D' => SnapI st H s' D' ∧ s'.ctrlPos = c + 4) := by
  unfold rdsBody16
  simp only [Prog.bind_eq, Prog.pure_eq]
  refine snap_from' ho fun data _ hd1 hd2 => ?_
  rw [pos_nat h2] at hd2
  refine snap_bind (snap_range ho) ?_
  rintro ctrls _ ⟨⟨a, b, e1, e2, e3, e4, e5⟩, rfl⟩
  obtain rfl : a = c := by omega
  refine snap_bind (snap_outRange ho hout) ?_
  rintro nums _ ⟨hn, rfl⟩
  have hb : ctrls.blk = st.blk := by rw [e5]
  have hj : jumpCtrl = 4 := rfl
  have hoff : ctrls.off = st.off + a := by rw [e5]; simp only; omega
  clear e5
  refine snap_ctrl h (by omega) hb (by omega) fun c0 D1 h => ?_
  refine snap_grpDelta ho hn h hd1 (by omega) fun D2 h => ?_
  refine snap_size' ho ?_
  refine snap_ctrl h (by omega) hb (by omega) fun c1 D3 h => ?_
  refine snap_from' ho fun t _ ht1 ht2 => ?_
  refine snap_outFrom' ho hn fun u hu => ?_
  refine snap_getW' ho hn fun p => ?_
  refine snap_grpDelta ho hu h (ht1.trans hd1) (by omega) fun D4 h => ?_
  refine snap_size' ho ?_
  refine snap_ctrl h (by omega) hb (by omega) fun c2 D5 h => ?_
  refine snap_from' ho fun t _ ht1 ht2 => ?_
  refine snap_outFrom' ho hn fun u hu => ?_
  refine snap_getW' ho hn fun p => ?_
  refine snap_grpDelta ho hu h (ht1.trans hd1) (by omega) fun D6 h => ?_
  refine snap_size' ho ?_
  refine snap_ctrl h (by omega) hb (by omega) fun c3 D7 h => ?_
  refine snap_from' ho fun t _ ht1 ht2 => ?_
  refine snap_outFrom' ho hn fun u hu => ?_
  refine snap_getW' ho hn fun p => ?_
  refine snap_grpDelta ho hu h (ht1.trans hd1) (by omega) fun D8 h => ?_
  refine snap_size' ho ?_
  refine snap_getW' ho hn fun p => snap_ret ?_
  refine ⟨⟨_, _, ?_, ?_, ?_, h⟩, ?_⟩ <;> simp only [hj, jump] <;> omega

theorem snap_rs4 {st : Bytes} {out : U32s} {H : Nat} {s : RSt} (ho : Own own J B) (hout : OutOk B out) {c d : Nat}
    (h1 : s.ctrlPos = c) (h2 : s.dataPos = d) (h3 : s.decoded = 4 * c) (hc : c < H) (h : RemOk st H c d D) :
    Snap own may J D (rsBody4 st out s) (fun s' D' => SnapI st H s' D' ∧ s'.ctrlPos = c + 1) := by
  unfold rsBody4
  simp only [Prog.bind_eq, Prog.pure_eq]
  refine snap_ctrl h hc rfl (by rw [h1, Int.toNat_natCast]) fun c0 D1 h => ?_
  refine snap_from' ho fun t _ ht1 ht2 => ?_
  rw [pos_nat h2] at ht2
  refine snap_outFrom' ho hout fun u hu => ?_
  refine snap_grp ho hu h ht1 (by omega) fun D4 h => ?_
  refine snap_size' ho (snap_ret ?_)
  refine ⟨⟨_, _, ?_, ?_, ?_, h⟩, ?_⟩ <;> simp only <;> omega

theorem snap_rds4 {st : Bytes} {out : U32s} {H : Nat} {s : RSt} (ho : Own own J B) (hout : OutOk B out) {c d : Nat}
    (h1 : s.ctrlPos = c) (h2 : s.dataPos = d) (h3 : s.decoded = 4 * c) (hc : c < H) (h : RemOk st H c d D) :
    Snap own may J D (rdsBody4 st out s) (fun s' D' => SnapI st H s' D' ∧ s'.ctrlPos = c + 1) := by
  unfold rdsBody4
  simp only [Prog.bind_eq, Prog.pure_eq]
  refine snap_ctrl h hc rfl (by rw [h1, Int.toNat_natCast]) fun c0 D1 h => ?_
  refine snap_from' ho fun t _ ht1 ht2 => ?_
  rw [pos_nat h2] at ht2
  refine snap_outFrom' ho hout fun u hu => ?_
  refine snap_grpDelta ho hu h ht1 (by omega) fun D4 h => ?_
  refine snap_size' ho ?_
  refine snap_getW' ho hout fun p => snap_ret ?_
  refine ⟨⟨_, _, ?_, ?_, ?_, h⟩, ?_⟩ <;> simp only <;> omega

/-- The two loops of the scalar readers. -/
theorem snap_sloop {st : Bytes} {H n : Nat} {b16 b4 : RSt → Prog RSt} {rest : RSt → Prog Unit} {s : RSt} (hn : n < 2 ^ 61)
    (hH : H = (n + 3) / 4) (h16 : ∀ (s : RSt) (c d : Nat) D, s.ctrlPos = c → s.dataPos = d → s.decoded = 4 * c → c + 4 ≤ H →
      RemOk st H c d D → Snap own may J D (b16 s) (fun s' D' => SnapI st H s' D' ∧ s'.ctrlPos = c + 4))
    (h4 : ∀ (s : RSt) (c d : Nat) D, s.ctrlPos = c → s.dataPos = d → s.decoded = 4 * c → c < H →
      RemOk st H c d D → Snap own may J D (b4 s) (fun s' D' => SnapI st H s' D' ∧ s'.ctrlPos = c + 1))
    (hr : ∀ s D, SnapI st H s D → s.decoded = (n / 4 * 4 : Nat) → Snap own may J D (rest s) (fun _ _ => True))
    (h : SnapI st H s D) (h0 : s.ctrlPos = 0) {fuel : Nat} :
    Snap own may J D ((loop fuel (fun s => decide (s.decoded < andNot (n : Int) (jump - 1))) b16 s).bind fun s =>
      (loop fuel (fun s => decide (s.decoded < andNot (n : Int) 3)) b4 s).bind rest) (fun _ _ => True) := by
  rw [header_jump hn]
  refine snap_bind (snap_loop (fun s D => SnapI st H s D ∧ s.ctrlPos % 4 = 0 ∧ s.ctrlPos ≤ (n / 4 : Nat)) ?_ fuel
    ⟨h, by omega, by omega⟩) ?_
  · rintro s D ⟨⟨c, d, h1, h2, h3, h⟩, hm⟩ hc
    simp only [decide_eq_true_eq] at hc
    refine snap_mono (h16 s c d D h1 h2 h3 (by omega) h) ?_
    rintro s' D' ⟨h, h'⟩
    exact ⟨h, by omega, by omega⟩
  rintro s D ⟨⟨h, -, hle⟩, -⟩
  rw [header_lowest4 hn]
  refine snap_bind (snap_loop (fun s D => SnapI st H s D ∧ s.ctrlPos ≤ (n / 4 : Nat)) ?_ fuel ⟨h, hle⟩) ?_
  · rintro s D ⟨⟨c, d, h1, h2, h3, h⟩, hle⟩ hc
    simp only [decide_eq_true_eq] at hc
    refine snap_mono (h4 s c d D h1 h2 h3 (by omega) h) ?_
    rintro s' D' ⟨h, h'⟩
    exact ⟨h, by omega⟩
  · rintro s D ⟨⟨h, hle⟩, hc⟩
    simp only [decide_eq_false_iff_not] at hc
    refine hr s D h ?_
    obtain ⟨c, d, h1, h2, h3, -⟩ := h
    omega

theorem snap_readAllScalar {n : Nat} {st : Bytes} {out : U32s} (hn : n < 2 ^ 61) (ho : Own own J B) (hout : OutOk B out)
    (hb : ∀ q : Ptr, q.blk = st.blk → D q) : Snap own may J D (readAllScalar n st out) (fun _ _ => True) := by
  unfold readAllScalar
  simp only [Prog.bind_eq, Prog.pure_eq]
  rw [header_ctrlLen hn]
  refine snap_sloop hn rfl (fun s c d D h1 h2 h3 hc h => snap_rs16 ho hout h1 h2 h3 hc h)
    (fun s c d D h1 h2 h3 hc h => snap_rs4 ho hout h1 h2 h3 hc h) ?_
    ⟨0, (n + 3) / 4, rfl, rfl, rfl, ⟨fun q hq => hb q hq.1, fun q hq _ => hb q hq, Nat.le_refl _⟩⟩ rfl
  rintro s D ⟨c, d, h1, h2, h3, h⟩ hc
  rw [header_lowest4 hn]
  split
  · rename_i hne
    have hne' : n / 4 * 4 ≠ n := fun e => hne (by rw [e])
    refine snap_from' ho fun t _ ht1 ht2 => ?_
    rw [pos_nat h2] at ht2
    refine snap_outFrom' ho hout fun u hu => ?_
    refine snap_ctrl h (by omega) rfl (by rw [h1, Int.toNat_natCast]) fun c0 D1 h => ?_
    refine snap_bind (snap_getN ho hu ?_) fun _ _ _ => snap_ret trivial
    rw [ht1, ht2, Nat.one_mul]; exact h.data
  · exact snap_ret trivial

theorem snap_readAllDeltaScalar {n : Nat} {st : Bytes} {out : U32s} {prev : U32} (hn : n < 2 ^ 61) (ho : Own own J B)
    (hout : OutOk B out) (hb : ∀ q : Ptr, q.blk = st.blk → D q) :
    Snap own may J D (readAllDeltaScalar n st out prev) (fun _ _ => True) := by
  unfold readAllDeltaScalar
  simp only [Prog.bind_eq, Prog.pure_eq]
  rw [header_ctrlLen hn]
  refine snap_sloop hn rfl (fun s c d D h1 h2 h3 hc h => snap_rds16 ho hout h1 h2 h3 hc h)
    (fun s c d D h1 h2 h3 hc h => snap_rds4 ho hout h1 h2 h3 hc h) ?_
    ⟨0, (n + 3) / 4, rfl, rfl, rfl, ⟨fun q hq => hb q hq.1, fun q hq _ => hb q hq, Nat.le_refl _⟩⟩ rfl
  rintro s D ⟨c, d, h1, h2, h3, h⟩ hc
  rw [header_lowest4 hn]
  split
  · rename_i hne
    have hne' : n / 4 * 4 ≠ n := fun e => hne (by rw [e])
    refine snap_from' ho fun t _ ht1 ht2 => ?_
    rw [pos_nat h2] at ht2
    refine snap_outFrom' ho hout fun u hu => ?_
    refine snap_ctrl h (by omega) rfl (by rw [h1, Int.toNat_natCast]) fun c0 D1 h => ?_
    refine snap_bind (snap_getNDelta ho hu ?_) fun _ _ _ => snap_ret trivial
    rw [ht1, ht2, Nat.one_mul]; exact h.data
  · exact snap_ret trivial

/-! ## The vectorised readers

Here the control bytes are among the memory that nobody changes, as they are loaded twice. -/

/-- The control bytes are never changed. -/
structure Ctrls (own : Ptr → Prop) (J : Mem → Prop) (m0 : Mem) (st : Bytes) (H : Nat) : Prop where
  own : ∀ c < H, own ⟨st.blk, st.off + c⟩
  val : ∀ m, J m → ∀ c < H, m ⟨st.blk, st.off + c⟩ = m0 ⟨st.blk, st.off + c⟩

/-- State of a loop of a vectorised reader. -/
def SnapF (st : Bytes) (s : RSt) (D : Ptr → Prop) : Prop :=
  ∃ c d : Nat, s.ctrlPos = c ∧ s.dataPos = d ∧ HasFrom st.blk (st.off + d) D

theorem snap_ctrlF {α : Type} {st t : Bytes} {H c : Nat} {m0 : Mem} {i : Int} {f : Byte → Prog α}
    {Q : α → (Ptr → Prop) → Prop} (hk : Ctrls own J m0 st H) (hc : c < H) (ht : t.blk = st.blk)
    (hi : t.off + i.toNat = st.off + c) (hf : Snap own may J D (f (m0 ⟨st.blk, st.off + c⟩)) Q) :
    Snap own may J D ((getB t i).bind f) Q := by
  refine snap_bind (snap_getBOwn fun _ _ => ?_) ?_
  · rw [ht, hi]; exact hk.own c hc
  · rintro b D' ⟨-, ⟨m, hm, e⟩, rfl⟩
    rw [ht, hi, hk.val m hm c hc] at e
    rw [← e]; exact hf

theorem snap_grpF {α : Type} {st t : Bytes} {out : U32s} {d : Nat} {a b : Byte} {f : Unit → Prog α}
    {Q : α → (Ptr → Prop) → Prop} (ho : Own own J B) (hout : OutOk B out) (h : HasFrom st.blk (st.off + d) D)
    (ht : t.blk = st.blk) (hi : t.off = st.off + d)
    (hf : ∀ D', HasFrom st.blk (st.off + (d + (gSize a + gSize b))) D' → Snap own may J D' (f ()) Q) :
    Snap own may J D ((get8uint32FastAsm t out (mk16 a b) decShufPtr ctrlLenPtr).bind f) Q := by
  refine snap_bind (snap_get8F ho hout.1 ?_) ?_
  · rw [ht, hi]; exact h.has (Nat.le_refl _)
  · intro _ D' k
    rw [ht, hi] at k
    exact hf D' (h.cut k (by omega) (by omega))

theorem snap_grpDF {α : Type} {st t : Bytes} {out : U32s} {d : Nat} {a b : Byte} {prev : U32} {f : Unit → Prog α}
    {Q : α → (Ptr → Prop) → Prop} (ho : Own own J B) (hout : OutOk B out) (h : HasFrom st.blk (st.off + d) D)
    (ht : t.blk = st.blk) (hi : t.off = st.off + d)
    (hf : ∀ D', HasFrom st.blk (st.off + (d + (gSize a + gSize b))) D' → Snap own may J D' (f ()) Q) :
    Snap own may J D ((get8uint32DeltaFastAsm t out (mk16 a b) prev decShufPtr ctrlLenPtr).bind f) Q := by
  refine snap_bind (snap_get8DF ho hout.1 ?_) ?_
  · rw [ht, hi]; exact h.has (Nat.le_refl _)
  · intro _ D' k
    rw [ht, hi] at k
    exact hf D' (h.cut k (by omega) (by omega))

theorem snap_rf32 {st : Bytes} {out : U32s} {H : Nat} {m0 : Mem} {s : RSt} (ho : Own own J B) (hout : OutOk B out)
    (hk : Ctrls own J m0 st H) {c d : Nat} (h1 : s.ctrlPos = c) (h2 : s.dataPos = d) (hc : c + 8 ≤ H)
    (h : HasFrom st.blk (st.off + d) D) : Snap own may J D (rfBody32 st out s)
      (fun s' D' => SnapF st s' D' ∧ s'.ctrlPos = c + 8 ∧ s'.decoded = s.decoded + 32) := by
  unfold rfBody32
  simp only [Prog.bind_eq, Prog.pure_eq]
  refine snap_from' ho fun data _ hd1 hd2 => ?_
  rw [pos_nat h2] at hd2
  refine snap_bind (snap_range ho) ?_
  rintro ctrls _ ⟨⟨a, b, e1, e2, e3, e4, e5⟩, rfl⟩
  obtain rfl : a = c := by omega
  refine snap_bind (snap_outRange ho hout) ?_
  rintro nums _ ⟨hn, rfl⟩
  have hb : ctrls.blk = st.blk := by rw [e5]
  have hoff : ctrls.off = st.off + a := by rw [e5]; simp only; omega
  clear e5
  refine snap_ctrlF (c := a) hk (by omega) hb (by omega) ?_
  refine snap_ctrlF (c := a + 1) hk (by omega) hb (by omega) ?_
  refine snap_grpF ho hn h hd1 (by omega) fun D2 h => ?_
  refine snap_ctrlF (c := a) hk (by omega) hb (by omega) ?_
  refine snap_size' ho ?_
  refine snap_ctrlF (c := a + 1) hk (by omega) hb (by omega) ?_
  refine snap_size' ho ?_
  refine snap_ctrlF (c := a + 2) hk (by omega) hb (by omega) ?_
  refine snap_ctrlF (c := a + 3) hk (by omega) hb (by omega) ?_
  refine snap_from' ho fun t _ ht1 ht2 => ?_
  refine snap_outFrom' ho hn fun u hu => ?_
  refine snap_grpF ho hu h (ht1.trans hd1) (by omega) fun D4 h => ?_
  refine snap_ctrlF (c := a + 2) hk (by omega) hb (by omega) ?_
  refine snap_size' ho ?_
  refine snap_ctrlF (c := a + 3) hk (by omega) hb (by omega) ?_
  refine snap_size' ho ?_
  refine snap_ctrlF (c := a + 4) hk (by omega) hb (by omega) ?_
  refine snap_ctrlF (c := a + 5) hk (by omega) hb (by omega) ?_
  refine snap_from' ho fun t _ ht1 ht2 => ?_
  refine snap_outFrom' ho hn fun u hu => ?_
  refine snap_grpF ho hu h (ht1.trans hd1) (by omega) fun D4 h => ?_
  refine snap_ctrlF (c := a + 4) hk (by omega) hb (by omega) ?_
  refine snap_size' ho ?_
  refine snap_ctrlF (c := a + 5) hk (by omega) hb (by omega) ?_
  refine snap_size' ho ?_
  refine snap_ctrlF (c := a + 6) hk (by omega) hb (by omega) ?_
  refine snap_ctrlF (c := a + 7) hk (by omega) hb (by omega) ?_
  refine snap_from' ho fun t _ ht1 ht2 => ?_
  refine snap_outFrom' ho hn fun u hu => ?_
  refine snap_grpF ho hu h (ht1.trans hd1) (by omega) fun D4 h => ?_
  refine snap_ctrlF (c := a + 6) hk (by omega) hb (by omega) ?_
  refine snap_size' ho ?_
  refine snap_ctrlF (c := a + 7) hk (by omega) hb (by omega) ?_
  refine snap_size' ho (snap_ret ?_)
  refine ⟨⟨a + 8, _, ?_, ?_, h⟩, ?_, ?_⟩ <;> simp only <;> omega

theorem snap_rdf32 {st : Bytes} {out : U32s} {H : Nat} {m0 : Mem} {s : RSt} (ho : Own own J B) (hout : OutOk B out)
    (hk : Ctrls own J m0 st H) {c d : Nat} (h1 : s.ctrlPos = c) (h2 : s.dataPos = d) (hc : c + 8 ≤ H)
    (h : HasFrom st.blk (st.off + d) D) : Snap own may J D (rdfBody32 st out s)
      (fun s' D' => SnapF st s' D' ∧ s'.ctrlPos = c + 8 ∧ s'.decoded = s.decoded + 32) := by
  unfold rdfBody32
  simp only [Prog.bind_eq, Prog.pure_eq]
  refine snap_from' ho fun data _ hd1 hd2 => ?_
  rw [pos_nat h2] at hd2
  refine snap_bind (snap_range ho) ?_
  rintro ctrls _ ⟨⟨a, b, e1, e2, e3, e4, e5⟩, rfl⟩
  obtain rfl : a = c := by omega
  refine snap_bind (snap_outRange ho hout) ?_
  rintro nums _ ⟨hn, rfl⟩
  have hb : ctrls.blk = st.blk := by rw [e5]
  have hoff : ctrls.off = st.off + a := by rw [e5]; simp only; omega
  clear e5
  refine snap_ctrlF (c := a) hk (by omega) hb (by omega) ?_
  refine snap_ctrlF (c := a + 1) hk (by omega) hb (by omega) ?_
  refine snap_grpDF ho hn h hd1 (by omega) fun D2 h => ?_
  refine snap_ctrlF (c := a) hk (by omega) hb (by omega) ?_
  refine snap_size' ho ?_
  refine snap_ctrlF (c := a + 1) hk (by omega) hb (by omega) ?_
  refine snap_size' ho ?_
  refine snap_ctrlF (c := a + 2) hk (by omega) hb (by omega) ?_
  refine snap_ctrlF (c := a + 3) hk (by omega) hb (by omega) ?_
  refine snap_from' ho fun t _ ht1 ht2 => ?_
  refine snap_outFrom' ho hn fun u hu => ?_
  refine snap_getW' ho hn fun p => ?_
  refine snap_grpDF ho hu h (ht1.trans hd1) (by omega) fun D4 h => ?_
  refine snap_ctrlF (c := a + 2) hk (by omega) hb (by omega) ?_
  refine snap_size' ho ?_
  refine snap_ctrlF (c := a + 3) hk (by omega) hb (by omega) ?_
  refine snap_size' ho ?_
  refine snap_ctrlF (c := a + 4) hk (by omega) hb (by omega) ?_
  refine snap_ctrlF (c := a + 5) hk (by omega) hb (by omega) ?_
  refine snap_from' ho fun t _ ht1 ht2 => ?_
  refine snap_outFrom' ho hn fun u hu => ?_
  refine snap_getW' ho hn fun p => ?_
  refine snap_grpDF ho hu h (ht1.trans hd1) (by omega) fun D4 h => ?_
  refine snap_ctrlF (c := a + 4) hk (by omega) hb (by omega) ?_
  refine snap_size' ho ?_
  refine snap_ctrlF (c := a + 5) hk (by omega) hb (by omega) ?_
  refine snap_size' ho ?_
  refine snap_ctrlF (c := a + 6) hk (by omega) hb (by omega) ?_
  refine snap_ctrlF (c := a + 7) hk (by omega) hb (by omega) ?_
  refine snap_from' ho fun t _ ht1 ht2 => ?_
  refine snap_outFrom' ho hn fun u hu => ?_
  refine snap_getW' ho hn fun p => ?_
  refine snap_grpDF ho hu h (ht1.trans hd1) (by omega) fun D4 h => ?_
  refine snap_ctrlF (c := a + 6) hk (by omega) hb (by omega) ?_
  refine snap_size' ho ?_
  refine snap_ctrlF (c := a + 7) hk (by omega) hb (by omega) ?_
  refine snap_size' ho ?_
  refine snap_getW' ho hn fun p => snap_ret ?_
  refine ⟨⟨a + 8, _, ?_, ?_, h⟩, ?_, ?_⟩ <;> simp only <;> omega

theorem snap_rf8 {st : Bytes} {out : U32s} {H : Nat} {m0 : Mem} {s : RSt} (ho : Own own J B) (hout : OutOk B out)
    (hk : Ctrls own J m0 st H) {c d : Nat} (h1 : s.ctrlPos = c) (h2 : s.dataPos = d) (hc : c + 2 ≤ H)
    (h : HasFrom st.blk (st.off + d) D) : Snap own may J D (rfBody8 st out s) (SnapF st) := by
  unfold rfBody8
  simp only [Prog.bind_eq, Prog.pure_eq]
  refine snap_ctrlF (c := c) hk (by omega) rfl (by omega) ?_
  refine snap_ctrlF (c := c + 1) hk (by omega) rfl (by omega) ?_
  refine snap_from' ho fun t _ ht1 ht2 => ?_
  rw [pos_nat h2] at ht2
  refine snap_outFrom' ho hout fun u hu => ?_
  refine snap_grpF ho hu h ht1 (by omega) fun D4 h => ?_
  refine snap_ctrlF (c := c) hk (by omega) rfl (by omega) ?_
  refine snap_size' ho ?_
  refine snap_ctrlF (c := c + 1) hk (by omega) rfl (by omega) ?_
  refine snap_size' ho (snap_ret ?_)
  refine ⟨c + 2, _, ?_, ?_, h⟩ <;> simp only <;> omega

theorem snap_rdf8 {st : Bytes} {out : U32s} {H : Nat} {m0 : Mem} {s : RSt} (ho : Own own J B) (hout : OutOk B out)
    (hk : Ctrls own J m0 st H) {c d : Nat} (h1 : s.ctrlPos = c) (h2 : s.dataPos = d) (hc : c + 2 ≤ H)
    (h : HasFrom st.blk (st.off + d) D) : Snap own may J D (rdfBody8 st out s) (SnapF st) := by
  unfold rdfBody8
  simp only [Prog.bind_eq, Prog.pure_eq]
  refine snap_ctrlF (c := c) hk (by omega) rfl (by omega) ?_
  refine snap_ctrlF (c := c + 1) hk (by omega) rfl (by omega) ?_
  refine snap_from' ho fun t _ ht1 ht2 => ?_
  rw [pos_nat h2] at ht2
  refine snap_outFrom' ho hout fun u hu => ?_
  refine snap_grpDF ho hu h ht1 (by omega) fun D4 h => ?_
  refine snap_ctrlF (c := c) hk (by omega) rfl (by omega) ?_
  refine snap_size' ho ?_
  refine snap_ctrlF (c := c + 1) hk (by omega) rfl (by omega) ?_
  refine snap_size' ho ?_
  refine snap_getW' ho hout fun p => snap_ret ?_
  refine ⟨c + 2, _, ?_, ?_, h⟩ <;> simp only <;> omega

theorem snap_rf1 {st : Bytes} {out : U32s} {H : Nat} {m0 : Mem} {s : RSt} {count : Int} (ho : Own own J B)
    (hout : OutOk B out) (hk : Ctrls own J m0 st H) {c d : Nat} (h1 : s.ctrlPos = c) (h2 : s.dataPos = d) (hc : c < H)
    (h : HasFrom st.blk (st.off + d) D) : Snap own may J D (rfBody1 count st out s) (SnapF st) := by
  unfold rfBody1
  simp only [Prog.bind_eq, Prog.pure_eq]
  refine snap_from' ho fun t _ ht1 ht2 => ?_
  rw [pos_nat h2] at ht2
  refine snap_outFrom' ho hout fun u hu => ?_
  refine snap_ctrlF (c := c) hk hc rfl (by omega) ?_
  refine snap_bind (snap_getN ho hu (by rw [ht1, ht2, Nat.one_mul]; exact h)) ?_
  rintro v D' ⟨hv, k⟩
  rw [ht1, ht2, Nat.one_mul] at k
  refine snap_ret ⟨c + 1, d + v.toNat, ?_, ?_, h.cut k (by omega) (by omega)⟩ <;> simp only <;> omega

theorem snap_rdf1 {st : Bytes} {out : U32s} {H : Nat} {m0 : Mem} {s : RSt} {count : Int} (ho : Own own J B)
    (hout : OutOk B out) (hk : Ctrls own J m0 st H) {c d : Nat} (h1 : s.ctrlPos = c) (h2 : s.dataPos = d) (hc : c < H)
    (h : HasFrom st.blk (st.off + d) D) : Snap own may J D (rdfBody1 count st out s) (SnapF st) := by
  unfold rdfBody1
  simp only [Prog.bind_eq, Prog.pure_eq]
  refine snap_from' ho fun t _ ht1 ht2 => ?_
  rw [pos_nat h2] at ht2
  refine snap_outFrom' ho hout fun u hu => ?_
  refine snap_ctrlF (c := c) hk hc rfl (by omega) ?_
  refine snap_bind (snap_getNDelta ho hu (by rw [ht1, ht2, Nat.one_mul]; exact h)) ?_
  rintro v D' ⟨hv, k⟩
  rw [ht1, ht2, Nat.one_mul] at k
  refine snap_getW' ho hout fun p => snap_ret ⟨c + 1, d + v.toNat, ?_, ?_, h.cut k (by omega) (by omega)⟩ <;> simp only <;> omega

/-- The three loops of the vectorised readers. -/
theorem snap_floop {st : Bytes} {H : Nat} {b32 b8 b1 : RSt → Prog RSt} {s : RSt} (hH : H < 2 ^ 61)
    (h32 : ∀ (s : RSt) (c d : Nat) D, s.ctrlPos = c → s.dataPos = d → c + 8 ≤ H → HasFrom st.blk (st.off + d) D →
      Snap own may J D (b32 s) (fun s' D' => SnapF st s' D' ∧ s'.ctrlPos = c + 8 ∧ s'.decoded = s.decoded + 32))
    (h8 : ∀ (s : RSt) (c d : Nat) D, s.ctrlPos = c → s.dataPos = d → c + 2 ≤ H → HasFrom st.blk (st.off + d) D →
      Snap own may J D (b8 s) (SnapF st))
    (hb1 : ∀ (s : RSt) (c d : Nat) D, s.ctrlPos = c → s.dataPos = d → c < H → HasFrom st.blk (st.off + d) D →
      Snap own may J D (b1 s) (SnapF st))
    (h : SnapF st s D) (h0 : s.ctrlPos = 0) (h0' : s.decoded = 0) {fuel : Nat} :
    Snap own may J D ((loop fuel (fun s => decide (s.decoded < lowest32Of (H : Int))) b32 s).bind fun s =>
      (loop fuel (fun s => decide (s.ctrlPos < (H : Int) - 4)) b8 s).bind fun s =>
      (loop fuel (fun s => decide (s.ctrlPos < (H : Int))) b1 s).bind fun _ => .ret ()) (fun _ _ => True) := by
  have hl := low32_le hH
  refine snap_bind (snap_loop (fun s D => SnapF st s D ∧ s.decoded = 4 * s.ctrlPos ∧ s.decoded % 32 = 0) ?_ fuel
    ⟨h, by omega, by omega⟩) ?_
  · rintro s D ⟨⟨c, d, h1, h2, h⟩, hm, hm'⟩ hc
    simp only [decide_eq_true_eq] at hc
    refine snap_mono (h32 s c d D h1 h2 (by omega) h) ?_
    rintro s' D' ⟨h, h', h''⟩
    exact ⟨h, by omega, by omega⟩
  rintro s D ⟨⟨h, -⟩, -⟩
  refine snap_bind (snap_loop (SnapF st) ?_ fuel h) ?_
  · rintro s D ⟨c, d, h1, h2, h⟩ hc
    simp only [decide_eq_true_eq] at hc
    exact h8 s c d D h1 h2 (by omega) h
  rintro s D ⟨h, -⟩
  refine snap_bind (snap_loop (SnapF st) ?_ fuel h) fun _ _ _ => snap_ret trivial
  rintro s D ⟨c, d, h1, h2, h⟩ hc
  simp only [decide_eq_true_eq] at hc
  exact hb1 s c d D h1 h2 (by omega) h

theorem snap_readAllFast {n : Nat} {st : Bytes} {out : U32s} {m0 : Mem} (hn : n < 2 ^ 61) (ho : Own own J B)
    (hout : OutOk B out) (hk : Ctrls own J m0 st ((n + 3) / 4)) (hb : ∀ q : Ptr, q.blk = st.blk → D q) :
    Snap own may J D (readAllFast n st out) (fun _ _ => True) := by
  unfold readAllFast
  simp only [Prog.bind_eq, Prog.pure_eq]
  rw [header_ctrlLen hn]
  exact snap_floop (by omega) (fun s c d D h1 h2 hc h => snap_rf32 ho hout hk h1 h2 hc h)
    (fun s c d D h1 h2 hc h => snap_rf8 ho hout hk h1 h2 hc h) (fun s c d D h1 h2 hc h => snap_rf1 ho hout hk h1 h2 hc h)
    ⟨0, (n + 3) / 4, rfl, rfl, fun q hq _ => hb q hq⟩ rfl rfl

theorem snap_readAllDeltaFast {n : Nat} {st : Bytes} {out : U32s} {prev : U32} {m0 : Mem} (hn : n < 2 ^ 61)
    (ho : Own own J B) (hout : OutOk B out) (hk : Ctrls own J m0 st ((n + 3) / 4)) (hb : ∀ q : Ptr, q.blk = st.blk → D q) :
    Snap own may J D (readAllDeltaFast n st out prev) (fun _ _ => True) := by
  unfold readAllDeltaFast
  simp only [Prog.bind_eq, Prog.pure_eq]
  rw [header_ctrlLen hn]
  exact snap_floop (by omega) (fun s c d D h1 h2 hc h => snap_rdf32 ho hout hk h1 h2 hc h)
    (fun s c d D h1 h2 hc h => snap_rdf8 ho hout hk h1 h2 hc h) (fun s c d D h1 h2 hc h => snap_rdf1 ho hout hk h1 h2 hc h)
    ⟨0, (n + 3) / 4, rfl, rfl, fun q hq _ => hb q hq⟩ rfl rfl

end SVB
