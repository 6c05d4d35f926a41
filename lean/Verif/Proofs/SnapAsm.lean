import Verif.Proofs.SnapBlocks

/-! # Snapshots of the vectorised block decoders

Both 16-byte loads deliver bytes that the shuffle then drops; only the bytes it keeps belong to the snapshot. -/

set_option autoImplicit false

namespace SVB
open Spec Asm

variable {own : Ptr → Prop} {may : Ptr → Byte → Prop} {J : Mem → Prop} {B : Block} {D : Ptr → Prop}

theorem run_loadN (m : Mem) (b : Block) (n : Nat) : ∀ o, ∃ l : List Byte, run (loadN ⟨b, o⟩ n) m = (.ok l, m) ∧
    l.length = n ∧ ∀ k < n, l.getD k 0 = m ⟨b, o + k⟩ := by
  induction n with
  | zero => intro o; exact ⟨[], rfl, rfl, fun k hk => absurd hk (Nat.not_lt_zero k)⟩
  | succ n ih =>
    intro o
    obtain ⟨l, h1, h2, h3⟩ := ih (o + 1)
    refine ⟨m ⟨b, o⟩ :: l, ?_, by simp [h2], fun k hk => ?_⟩
    · simp only [loadN, Prog.bind_eq, Prog.pure_eq, Ptr.add]
      rw [run_bind]
      simp only [load8, run]
      rw [run_bind, h1]
      rfl
    · cases k with
      | zero => rfl
      | succ k => rw [List.getD_cons_succ, h3 k (by omega)]; congr 2; omega

theorem run_load16 (m : Mem) (b : Block) (o : Nat) : ∃ v : Vec, run (load16 ⟨b, o⟩) m = (.ok v, m) ∧
    (∀ k < 16, v k = m ⟨b, o + k⟩) ∧ ∀ k, 16 ≤ k → v k = 0 := by
  obtain ⟨l, h1, h2, h3⟩ := run_loadN m b 16 o
  refine ⟨fun i => l.getD i 0, ?_, h3, fun k hk => ?_⟩
  · simp only [load16, Prog.bind_eq, Prog.pure_eq]
    rw [run_bind, h1]
    rfl
  · simp only [List.getD_eq_getElem?_getD, List.getElem?_eq_none (show l.length ≤ k by omega)]
    rfl

theorem can_loadN {m : Mem} {b : Block} (n : Nat) : ∀ {o : Nat} {r : Outcome (List Byte)} {m' : Mem},
    Can own may (loadN ⟨b, o⟩ n) m r m' → m' = m ∧ ∃ l : List Byte, r = .ok l ∧ l.length = n ∧
      ∀ k < n, (own ⟨b, o + k⟩ → l.getD k 0 = m ⟨b, o + k⟩) ∧ (¬ own ⟨b, o + k⟩ → may ⟨b, o + k⟩ (l.getD k 0)) := by
  induction n with
  | zero => rintro o r m' ⟨rfl, rfl⟩; exact ⟨rfl, [], rfl, rfl, fun k hk => absurd hk (Nat.not_lt_zero k)⟩
  | succ n ih =>
    intro o r m' h
    simp only [loadN, Prog.bind_eq, Prog.pure_eq, Ptr.add, load8, Prog.bind] at h
    have key : ∀ v : Byte, (own ⟨b, o⟩ → v = m ⟨b, o⟩) → (¬ own ⟨b, o⟩ → may ⟨b, o⟩ v) →
        Can own may ((loadN ⟨b, o + 1⟩ n).bind fun bs => .ret (v :: bs)) m r m' →
        m' = m ∧ ∃ l : List Byte, r = .ok l ∧ l.length = n + 1 ∧ ∀ k < n + 1,
          (own ⟨b, o + k⟩ → l.getD k 0 = m ⟨b, o + k⟩) ∧ (¬ own ⟨b, o + k⟩ → may ⟨b, o + k⟩ (l.getD k 0)) := by
      intro v h1 h2 h
      rcases can_bind h with ⟨l, m1, h3, h4⟩ | ⟨k, rfl, h3⟩
      · obtain ⟨rfl, l', e, hl, hk⟩ := ih h3
        cases e
        obtain ⟨rfl, rfl⟩ := h4
        refine ⟨rfl, v :: l, rfl, by simp [hl], fun k hk' => ?_⟩
        cases k with
        | zero => exact ⟨h1, h2⟩
        | succ k =>
          rw [List.getD_cons_succ, show o + (k + 1) = o + 1 + k by omega]
          exact hk k (by omega)
      · obtain ⟨-, l', e, -⟩ := ih h3
        cases e
    rcases h with ⟨h0, h⟩ | ⟨h0, v, hv, h⟩
    · exact key _ (fun _ => rfl) (fun hn => absurd h0 hn) h
    · exact key v (fun ho => absurd ho h0) (fun _ => hv) h

theorem can_load16 {m m' : Mem} {b : Block} {o : Nat} {r : Outcome Vec} (h : Can own may (load16 ⟨b, o⟩) m r m') :
    m' = m ∧ ∃ v : Vec, r = .ok v ∧
      ∀ k < 16, (own ⟨b, o + k⟩ → v k = m ⟨b, o + k⟩) ∧ (¬ own ⟨b, o + k⟩ → may ⟨b, o + k⟩ (v k)) := by
  simp only [load16, Prog.bind_eq, Prog.pure_eq] at h
  rcases can_bind h with ⟨l, m1, h3, h4⟩ | ⟨k, rfl, h3⟩
  · obtain ⟨rfl, l', e, hl, hk⟩ := can_loadN 16 h3
    cases e
    obtain ⟨rfl, rfl⟩ := h4
    exact ⟨rfl, _, rfl, hk⟩
  · obtain ⟨-, l', e, -⟩ := can_loadN 16 h3
    cases e

/-- A 16-byte load of which only the first `g` bytes matter. -/
theorem snap_load16 {α : Type} {b : Block} {o g : Nat} (ho : Own own J B) (hg : g ≤ 16) (hD : Has b o (o + g) D)
    {f : Vec → Prog α} {Q : α → (Ptr → Prop) → Prop}
    (hf : ∀ v, Snap own may J (fun x => D x ∧ ¬ Seg b o (o + g) x) (f v) Q)
    (heq : ∀ v w mq, TablesLoaded mq → (∀ k < g, v k = w k) → run (f v) mq = run (f w) mq) :
    Snap own may J D ((load16 ⟨b, o⟩).bind f) Q := by
  intro m r m' hT hcan
  obtain ⟨v', m1, h3, h4⟩ : ∃ a m1, Can own may (load16 ⟨b, o⟩) m (.ok a) m1 ∧ Can own may (f a) m1 r m' := by
    rcases can_bind hcan with h | ⟨k, rfl, h3⟩
    · exact h
    · obtain ⟨-, l', e, -⟩ := can_load16 h3
      cases e
  obtain ⟨rfl, v, e, hv⟩ := can_load16 h3
  cases e
  obtain ⟨hT1, σ1, D1, s1, y1, q1, r1⟩ := hf v' m1 r m' hT h4
  refine ⟨hT1, fun q => open Classical in if Seg b o (o + g) q then v' (q.off - o) else σ1 q, D1, fun x hx => (s1 x hx).1,
    fun x hx hd hd' => ?_, q1, fun mq h1 h2 => ?_⟩
  · by_cases e : Seg b o (o + g) x
    · simp only [if_pos e]
      obtain ⟨e1, e2, e3⟩ := e
      have := (hv (x.off - o) (by omega)).2
      rw [show o + (x.off - o) = x.off by omega, show (⟨b, x.off⟩ : Ptr) = x by cases x; simp only at e1 ⊢; rw [e1]] at this
      exact this hx
    · simp only [if_neg e]
      exact y1 x hx ⟨hd, e⟩ hd'
  · obtain ⟨w, e1, e2, -⟩ := run_load16 mq b o
    have hTq : TablesLoaded mq := (ho.tabs _ hT).frame fun q hq => h1 q (ho.const q hq)
    obtain ⟨mq', e, e'⟩ := r1 mq h1 fun x hx hd hd' => (h2 x hx hd.1 hd').trans (if_neg hd.2)
    refine ⟨mq', ?_, e'⟩
    rw [run_bind, e1]
    show run (f w) mq = _
    rw [← e]
    refine (heq v' w mq hTq fun k hk => ?_).symm
    rw [e2 k (by omega)]
    have hs : Seg b o (o + g) ⟨b, o + k⟩ := ⟨rfl, by simp only; omega, by simp only; omega⟩
    by_cases hx : own ⟨b, o + k⟩
    · rw [h1 _ hx]; exact (hv k (by omega)).1 hx
    · refine Eq.trans ?_ ((h2 _ hx (hD _ hs) fun hd => (s1 _ hd).2 hs).trans (if_pos hs)).symm
      show v' k = v' (o + k - o)
      rw [Nat.add_sub_cancel_left]

/-- Which bytes of the data the shuffle of a control byte keeps. -/
theorem pshufb_dec {m : Mem} (hT : TablesLoaded m) {mask v w : Vec} (c : Byte)
    (hm : ∀ k < 16, mask k = m ⟨.decShuf, 16 * c.toNat + k⟩) (hm' : ∀ k, 16 ≤ k → mask k = 0)
    (h : ∀ k < gSize c, v k = w k) : pshufb mask v = pshufb mask w := by
  have hc := c.isLt
  have hg := gSize_bounds c
  funext i
  by_cases hi : i < 16
  · have hn : i / 4 < 4 := by omega
    have hb := gOff_bound _ hc (i / 4) hn
    have ht := decShuf_table _ hc (i / 4) hn (i % 4) (by omega)
    have hmk := (hm i hi).trans (hT.decShuf _ hc i hi)
    rw [show 4 * (i / 4) + i % 4 = i by omega] at ht
    rw [ht] at hmk
    unfold pshufb
    rw [hmk]
    split
    · rename_i hlt
      have hle : gOff c.toNat (i / 4) + (code c (i / 4) + 1) ≤ gSize c := by
        unfold gSize
        have hb0 := code_lt c 0; have hb1 := code_lt c 1; have hb2 := code_lt c 2; have hb3 := code_lt c 3
        generalize i / 4 = n at hn
        unfold gOff
        have e : ∀ k, c.toNat / 4 ^ k % 4 = code c k := fun _ => rfl
        obtain rfl | rfl | rfl | rfl : n = 0 ∨ n = 1 ∨ n = 2 ∨ n = 3 := by omega
        all_goals simp only [psum, e]
        all_goals omega
      have hcd : c.toNat / 4 ^ (i / 4) % 4 = code c (i / 4) := rfl
      have h16 : gOff c.toNat (i / 4) + i % 4 < 16 := by omega
      have : (BitVec.ofNat 8 (gOff c.toNat (i / 4) + i % 4)).toNat = gOff c.toNat (i / 4) + i % 4 := by
        rw [BitVec.toNat_ofNat]; omega
      rw [this, Nat.mod_eq_of_lt h16, h _ (by omega)]
    · rfl
  · unfold pshufb
    rw [hm' i (by omega)]
    simp only [show (0 : Byte).toNat % 16 = 0 from rfl, h 0 (by omega)]

theorem snap_decShape {inn : Bytes} {out : U32s} {ctrl : U16} {F0 F1 : Vec → Vec → Vec} (ho : Own own J B) (hb : out.blk = B)
    {lo hi : Byte} (hlo : (ctrl &&& 0xff#16).setWidth 8 = lo) (hhi : (ctrl >>> 8).setWidth 8 = hi)
    (h : Has inn.blk inn.off (inn.off + (gSize lo + gSize hi)) D) :
    Snap own may J D (decShape inn out ctrl F0 F1)
      (fun _ D' => Cut inn.blk inn.off (inn.off + (gSize lo + gSize hi)) D D') := by
  have glo := gSize_bounds lo
  have ghi := gSize_bounds hi
  have l1 := lo.isLt
  have l2 := hi.isLt
  unfold decShape
  rw [addr_len, addr_lo, addr_hi, hlo, hhi]
  simp only [ctrlLenPtr, decShufPtr, Slice.ptr, Ptr.add, Nat.add_zero, Nat.zero_add]
  refine snap_bind (snap_own ho (P := boundsPanic) (Q := fun a => a.toNat = gSize lo) ?_) ?_
  · refine tri_mono (tri_load8 ((ownFp ho).tabs _ (by simp only [inTables]; omega))) ?_
    rintro _ ⟨m, hT, rfl⟩
    exact hT.ctrlLen' lo
  rintro a _ ⟨ha, rfl⟩
  rw [byte64_toNat, ha]
  refine snap_load16 ho glo.2 (h.sub (Nat.le_refl _) (by omega)) (fun v => ?_) ?_
  · refine snap_load16 (g := gSize hi) ho ghi.2 ?_ (fun w => ?_) ?_
    · exact fun q hq => ⟨h q ⟨hq.1, by have := hq.2.1; omega, by have := hq.2.2; omega⟩, fun hs => by
        have := hq.2.1; have := hs.2.2; omega⟩
    · refine snap_mono (snap_own ho (P := boundsPanic) (Q := fun _ => True) ?_) ?_
      · refine tri_bind (tri_load16 fun k hk => (ownFp ho).tabs _ (by simp only [inTables]; omega)) fun k0 _ => ?_
        refine tri_bind (tri_load16 fun k hk => (ownFp ho).tabs _ (by simp only [inTables]; omega)) fun k1 _ => ?_
        refine tri_bind (tri_store16 fun k hk => hb) fun _ _ => ?_
        refine tri_bind (tri_store16 fun k hk => hb) fun _ _ => tri_ret trivial
      · rintro _ _ ⟨-, rfl⟩ q hq hn
        refine ⟨⟨hq, fun hs => hn ⟨hs.1, hs.2.1, by have := hs.2.2; omega⟩⟩,
          fun hs => hn ⟨hs.1, by have := hs.2.1; omega, by have := hs.2.2; omega⟩⟩
    · intro v' w' mq hTq hvw
      rw [run_bind, run_bind]
      obtain ⟨k0, e0, -, -⟩ := run_load16 mq .decShuf (16 * lo.toNat)
      rw [e0]
      show run _ mq = run _ mq
      rw [run_bind, run_bind]
      obtain ⟨k1, e1, t1, t1'⟩ := run_load16 mq .decShuf (16 * hi.toNat)
      rw [e1]
      simp only
      rw [pshufb_dec hTq hi t1 t1' hvw]
  · intro v' w' mq hTq hvw
    rw [run_bind, run_bind]
    obtain ⟨w, e, -, -⟩ := run_load16 mq inn.blk (inn.off + gSize lo)
    rw [e]
    show run _ mq = run _ mq
    rw [run_bind, run_bind]
    obtain ⟨k0, e0, t0, t0'⟩ := run_load16 mq .decShuf (16 * lo.toNat)
    rw [e0]
    simp only
    rw [pshufb_dec hTq lo t0 t0' hvw]

theorem mk16_toNat (a b : Byte) : (mk16 a b).toNat = a.toNat + 256 * b.toNat := by
  have ha := a.isLt
  have hb := b.isLt
  simp only [mk16, BitVec.toNat_or, BitVec.toNat_shiftLeft, BitVec.toNat_setWidth]
  rw [Nat.mod_eq_of_lt (show a.toNat < 2 ^ 16 by omega),
    Nat.mod_eq_of_lt (show b.toNat < 2 ^ 16 by omega), Nat.shiftLeft_eq,
    Nat.mod_eq_of_lt (show b.toNat * 2 ^ 8 < 2 ^ 16 by omega), Nat.or_comm, Nat.mul_comm,
    ← Nat.two_pow_add_eq_or_of_lt (by omega)]
  omega

theorem mk16_lo (a b : Byte) : ((mk16 a b &&& 0xff#16).setWidth 8 : Byte) = a := by
  have ha := a.isLt
  apply BitVec.eq_of_toNat_eq
  rw [lo_toNat, mk16_toNat]; omega

theorem mk16_hi (a b : Byte) : ((mk16 a b >>> 8).setWidth 8 : Byte) = b := by
  have ha := a.isLt
  apply BitVec.eq_of_toNat_eq
  rw [hi_toNat, mk16_toNat]; omega

theorem snap_get8F {inn : Bytes} {out : U32s} {lo hi : Byte} (ho : Own own J B) (hb : out.blk = B)
    (h : Has inn.blk inn.off (inn.off + (gSize lo + gSize hi)) D) :
    Snap own may J D (get8uint32FastAsm inn out (mk16 lo hi) decShufPtr ctrlLenPtr)
      (fun _ D' => Cut inn.blk inn.off (inn.off + (gSize lo + gSize hi)) D D') := by
  rw [get8Fast_shape]
  exact snap_decShape ho hb (mk16_lo lo hi) (mk16_hi lo hi) h

theorem snap_get8DF {inn : Bytes} {out : U32s} {lo hi : Byte} {prev : U32} (ho : Own own J B) (hb : out.blk = B)
    (h : Has inn.blk inn.off (inn.off + (gSize lo + gSize hi)) D) :
    Snap own may J D (get8uint32DeltaFastAsm inn out (mk16 lo hi) prev decShufPtr ctrlLenPtr)
      (fun _ D' => Cut inn.blk inn.off (inn.off + (gSize lo + gSize hi)) D D') := by
  rw [get8DeltaFast_shape]
  exact snap_decShape ho hb (mk16_lo lo hi) (mk16_hi lo hi) h

end SVB
