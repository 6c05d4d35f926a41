import Verif.Proofs.WriterCommon

/-! # Specifications of the vectorised stream writers -/

set_option linter.unusedSimpArgs false

namespace SVB
open Spec Asm

local macro "ar" : tactic => `(tactic| first | omega | (simp only; omega) | (simp only))

theorem controlByteToSizeTwo_spec (c : U16) (m : Mem) (hT : TablesLoaded m) :
    wp ⟨inTables, fun _ => False, fun _ _ => False⟩
      (controlByteToSizeTwo c) m (fun s m' => s = ((gSize (lo8 c) + gSize (hi8 c) : Nat) : Int) ∧ m = m') := by
  have hlo : (c &&& 0xff#16).toNat = (lo8 c).toNat := by
    have := lo_toNat c
    unfold lo8
    simp only [BitVec.toNat_setWidth, BitVec.toNat_and, BitVec.toNat_ofNat] at *
    have : c.toNat &&& 255 % 2 ^ 16 ≤ 255 % 2 ^ 16 := Nat.and_le_right
    omega
  have hhi : (c >>> 8).toNat = (hi8 c).toNat := by
    have := hi_toNat c
    have := c.isLt
    unfold hi8
    simp only [BitVec.toNat_setWidth, BitVec.toNat_ushiftRight, Nat.shiftRight_eq_div_pow] at *
    omega
  have g0 := gSize_bounds (lo8 c)
  have g1 := gSize_bounds (hi8 c)
  unfold controlByteToSizeTwo
  simp only [Prog.bind_eq, Prog.pure_eq, hlo, hhi]
  rw [if_pos ⟨(lo8 c).isLt, (hi8 c).isLt⟩, wp_bind]
  refine wp_load8 (lo8 c).isLt ?_
  rw [wp_bind]
  refine wp_load8 (hi8 c).isLt ⟨?_, rfl⟩
  rw [BitVec.toNat_add, hT.ctrlLen', hT.ctrlLen']
  omega

/-- Two groups of four through the vector code: encode, store both control bytes, look up the size. -/
theorem step8 {β : Type} {fresh : Block} {inn : U32s} {v x : Nat → U32} {i g : Nat}
    (hf : fresh ≠ inn.blk) (hc : fresh.isConst = false) (hg : i = 4 * g) (hle : i + 8 ≤ inn.len)
    {p : Prog U16} {ctrls : Bytes} {j j' : Int} {K : Int → Prog β} {m : Mem} {Q : β → Mem → Prop}
    (hW : WI fresh inn v x m i)
    (hp : wp ⟨fun q => inSlice inn q ∨ inTables q, encW fresh (ctrlLen inn.len) v i,
      fun _ _ => False⟩ p m (fun c m' => (∀ k < 8, code16 c k + 1 = byteLen (v (i + k))) ∧
        Stored m' fresh (ctrlLen inn.len) v i (i + 8) ∧
        ZeroTail m' fresh (ctrlLen inn.len + offs v (i + 8)) (ctrlLen inn.len + offs v (i + 4) + 16)))
    (jn : Nat) (hj : j = jn) (hj' : j' = (jn + 1 : Nat)) (hb : ctrls.blk = fresh)
    (hjl : jn + 1 < ctrls.len) (ho : ctrls.off + jn = g)
    (hK : ∀ m' (sz : Nat), WI fresh inn v x m' (i + 8) → offs v i + sz = offs v (i + 8) →
      wp (wctx fresh inn) (K (sz : Int)) m' Q) :
    wp (wctx fresh inn)
      (p.bind fun c => (setB ctrls j (lo8 c)).bind fun _ => (setB ctrls j' (hi8 c)).bind fun _ =>
        (controlByteToSizeTwo c).bind K) m Q := by
  have hC : ctrlLen inn.len = (inn.len + 3) / 4 := rfl
  have b0 := offs_bounds v (show 0 ≤ i by omega)
  have b1 := offs_bounds v (show i ≤ i + 4 by omega)
  simp only [show offs v 0 = 0 from rfl] at b0
  refine wp_call hp (fun _ h => h) ?_ (fun _ _ _ h => h.elim) ?_
  · rintro q (⟨h1, h2, h3⟩ | ⟨h1, h2, h3⟩)
    · exact ⟨h1, by omega, by omega⟩
    · exact ⟨h1, by omega, by omega⟩
  rintro c m1 hf1 ⟨hcode, hst, hzt⟩
  have hlo : ∀ k < 4, code (lo8 c) k + 1 = byteLen (v (i + k)) := fun k hk => by
    rw [lo8, code16_lo c k hk]; exact hcode k (by omega)
  have hhi : ∀ k < 4, code (hi8 c) k + 1 = byteLen (v (i + 4 + k)) := fun k hk => by
    rw [hi8, code16_hi c k hk, hcode (k + 4) (by omega)]; congr 2; omega
  have hW1 := hW.toWB.frame hf hc (m' := m1)
    (fun q hq => hf1 q fun h => hq (by
      rcases h with h | h
      · exact ⟨h.1, h.2.1⟩
      · exact ⟨h.1, Nat.le_trans (by omega) h.2.1⟩)) (by omega)
  rw [wp_bind]
  refine wp_setB_ok jn hj (by omega) ⟨hb, by simp only; omega, by simp only; omega⟩ ?_
  have hW2 := hW1.setCtrl hf hc hg (by omega) (show i ≤ i + 4 by omega) (by omega)
    (fun t h1 h2 => hst t h1 (by omega)) hlo
  rw [hb, ho, wp_bind]
  refine wp_setB_ok (jn + 1) hj' hjl ⟨hb, by simp only; omega, by simp only; omega⟩ ?_
  have hst2 : Stored (m1.set ⟨fresh, g⟩ (lo8 c)) fresh (ctrlLen inn.len) v (i + 4) (i + 4 + 4) := by
    refine Stored.frame (m := m1) (fun t h1 h2 => hst t (by omega) (by omega)) fun q hq => ?_
    refine Mem.set_ne _ _ ?_
    rintro rfl
    have := hq.2.1; simp only at this; omega
  have hW3 := hW2.setCtrl (g := g + 1) hf hc (by omega) (by omega) (show i + 4 ≤ i + 4 + 4 by omega) (by omega)
    hst2 hhi
  rw [hb, show ctrls.off + (jn + 1) = g + 1 by omega]
  refine wp_call (controlByteToSizeTwo_spec c _ hW3.tables) (fun _ h => .inr h) (fun _ h => h.elim)
    (fun _ _ _ h => h.elim) ?_
  rintro _ _ - ⟨rfl, rfl⟩
  have b2 := offs_bounds v (show i + 4 ≤ i + 8 by omega)
  have hz1 : ZeroTail m1 fresh (ctrlLen inn.len + offs v (i + 8)) (ctrlLen inn.len + 4 * inn.len) := by
    intro o h1 h2
    by_cases h : o < ctrlLen inn.len + offs v (i + 4) + 16
    · exact hzt o h1 h
    · rw [hf1 _ (by rintro (⟨-, -, h3⟩ | ⟨-, -, h3⟩) <;> simp only at h3 <;> omega)]
      exact hW.tail o (by omega) h2
  refine hK _ _ ⟨hW3, (hz1.step (Nat.le_refl _) (fun _ _ => rfl) (by omega)).step (Nat.le_refl _)
    (fun _ _ => rfl) (by omega)⟩ ?_
  have e1 := gSize_of_codes hlo
  have e2 := gSize_of_codes hhi
  rw [show i + 8 = i + 4 + 4 by omega]
  omega

theorem put8_W {fresh : Block} {inn : U32s} {v x : Nat → U32} {i : Nat} {m : Mem} {nums : U32s} {data : Bytes}
    (hv : ∀ t < inn.len, v t = x t) (hW : WI fresh inn v x m i) (hle : i + 8 ≤ inn.len)
    (hn1 : nums.blk = inn.blk) (hn2 : nums.off = inn.off + 4 * i)
    (hd1 : data.blk = fresh) (hd2 : data.off = ctrlLen inn.len + offs v i) :
    wp ⟨fun q => inSlice inn q ∨ inTables q, encW fresh (ctrlLen inn.len) v i,
      fun _ _ => False⟩ (put8uint32FastAsm nums data encShufPtr ctrlLenPtr) m (fun c m' =>
        (∀ k < 8, code16 c k + 1 = byteLen (v (i + k))) ∧ Stored m' fresh (ctrlLen inn.len) v i (i + 8) ∧
        ZeroTail m' fresh (ctrlLen inn.len + offs v (i + 8)) (ctrlLen inn.len + offs v (i + 4) + 16)) := by
  subst hd1
  refine wp_conseq (put8Fast_spec v i (ctrlLen inn.len) nums data m hW.tables hd2 fun k hk => ?_)
    ?_ (fun _ h => h) (fun _ _ _ h => h) (fun _ _ _ h => h)
  · rw [hn1, hn2, show inn.off + 4 * i + 4 * k = inn.off + 4 * (i + k) by omega, hW.words _ (by omega),
      hv _ (by omega)]
  · rintro q (h | h)
    · exact .inl (seg_words hle hn1 hn2 rfl q h)
    · exact .inr h

theorem put8Delta_W {fresh : Block} {inn : U32s} {v x : Nat → U32} {prev : U32} {i : Nat} {m : Mem}
    {nums : U32s} {data : Bytes} {pr : U32}
    (hv : ∀ t < inn.len, v t = x t - pv x prev t) (hW : WI fresh inn v x m i) (hle : i + 8 ≤ inn.len)
    (hn1 : nums.blk = inn.blk) (hn2 : nums.off = inn.off + 4 * i)
    (hd1 : data.blk = fresh) (hd2 : data.off = ctrlLen inn.len + offs v i) (hpr : pr = pv x prev i) :
    wp ⟨fun q => inSlice inn q ∨ inTables q, encW fresh (ctrlLen inn.len) v i,
      fun _ _ => False⟩ (put8uint32DeltaFastAsm nums data pr encShufPtr ctrlLenPtr) m (fun c m' =>
        (∀ k < 8, code16 c k + 1 = byteLen (v (i + k))) ∧ Stored m' fresh (ctrlLen inn.len) v i (i + 8) ∧
        ZeroTail m' fresh (ctrlLen inn.len + offs v (i + 8)) (ctrlLen inn.len + offs v (i + 4) + 16)) := by
  subst hd1
  refine wp_conseq (put8DeltaFast_spec v x i (ctrlLen inn.len) nums data pr m hW.tables hd2
    (fun k hk => ?_) ?_ fun k hk => ?_)
    ?_ (fun _ h => h) (fun _ _ _ h => h) (fun _ _ _ h => h)
  · rw [hn1, hn2, show inn.off + 4 * i + 4 * k = inn.off + 4 * (i + k) by omega, hW.words _ (by omega)]
  · rw [hv _ (by omega), hpr]
  · rw [← Nat.add_assoc, hv _ (by omega), pv_succ]
  · rintro q (h | h)
    · exact .inl (seg_words hle hn1 hn2 rfl q h)
    · exact .inr h

theorem wfBody32_spec {fresh : Block} {inn : U32s} {v x : Nat → U32} {i : Nat} {m : Mem} {s : WSt}
    (hf : fresh ≠ inn.blk) (hc : fresh.isConst = false) (hcap : inn.len ≤ inn.cap) (hv : ∀ t < inn.len, v t = x t)
    (hW : WI fresh inn v x m i) (hi : i % 8 = 0) (hi32 : i + 32 ≤ inn.len) (he : s.encoded = i)
    (hd : s.dataPos = ctrlLen inn.len + offs v i) (hcp : s.ctrlPos = (i / 4 : Nat)) :
    wp (wctx fresh inn)
      (wfBody32 inn ⟨fresh, 0, ctrlLen inn.len + 4 * inn.len, ctrlLen inn.len + 4 * inn.len⟩ s) m
      (fun s' m' => WI fresh inn v x m' (i + 32) ∧ s'.encoded = (i + 32 : Nat) ∧
        s'.dataPos = ctrlLen inn.len + offs v (i + 32) ∧ s'.ctrlPos = ((i + 32) / 4 : Nat)) := by
  obtain ⟨g, hg⟩ : ∃ g, i = 4 * g := ⟨i / 4, by omega⟩
  have hC : ctrlLen inn.len = (inn.len + 3) / 4 := rfl
  have o0 := offs_bounds v (show 0 ≤ i by omega)
  simp only [show offs v 0 = 0 from rfl] at o0
  have o1 := offs_bounds v (show i ≤ i + 8 by omega)
  have o2 := offs_bounds v (show i + 8 ≤ i + 8 + 8 by omega)
  have o3 := offs_bounds v (show i + 8 + 8 ≤ i + 8 + 8 + 8 by omega)
  have o4 := offs_bounds v (show i + 8 + 8 + 8 ≤ i + 8 + 8 + 8 + 8 by omega)
  have e16 : offs v (i + 32) = offs v (i + 8 + 8 + 8 + 8) := rfl
  unfold wfBody32
  simp only [Prog.bind_eq, Prog.pure_eq]
  rw [wp_bind]; refine wp_range_ok (i / 4) (i / 4 + 8) hcp (by omega) (by omega) (by ar) ?_
  rw [wp_bind]; refine wp_range_ok i (i + 32) he (by omega) (by omega) (by omega) ?_
  rw [wp_bind]; refine wp_from_ok (ctrlLen inn.len + offs v i) (by omega) (by ar) ?_
  simp only [Nat.one_mul, Nat.zero_add]
  rw [wp_bind]; refine wp_range_ok 0 8 rfl rfl (by omega) (by ar) ?_
  refine step8 (i := i) (g := g + 0) hf hc (by omega) (by omega) hW (put8_W hv hW (by omega) rfl (by ar)
    rfl (by ar)) 0 rfl rfl rfl (by ar) (by ar) fun m1 s0 h1 e0 => ?_
  rw [wp_bind]; refine wp_range_ok 8 16 rfl rfl (by omega) (by ar) ?_
  rw [wp_bind]; refine wp_from_ok (s0) (by omega) (by ar) ?_
  refine step8 (i := i + 8) (g := g + 2) hf hc (by omega) (by omega) h1 (put8_W hv h1 (by omega) rfl (by ar)
    rfl (by ar)) 2 rfl rfl rfl (by ar) (by ar) fun m2 s1 h2 e1 => ?_
  rw [wp_bind]; refine wp_range_ok 16 24 rfl rfl (by omega) (by ar) ?_
  rw [wp_bind]; refine wp_from_ok (s0+s1) (by omega) (by ar) ?_
  refine step8 (i := i + 8 + 8) (g := g + 4) hf hc (by omega) (by omega) h2 (put8_W hv h2 (by omega) rfl (by ar)
    rfl (by ar)) 4 rfl rfl rfl (by ar) (by ar) fun m3 s2 h3 e2 => ?_
  rw [wp_bind]; refine wp_from_ok 24 rfl (by ar) ?_
  rw [wp_bind]; refine wp_from_ok (s0+s1+s2) (by omega) (by ar) ?_
  refine step8 (i := i + 8 + 8 + 8) (g := g + 6) hf hc (by omega) (by omega) h3 (put8_W hv h3 (by omega) rfl (by ar)
    rfl (by ar)) 6 rfl rfl rfl (by ar) (by ar) fun m4 s3 h4 e3 => ?_
  exact ⟨h4, by ar, by ar, by ar⟩

theorem wfBody8_spec {fresh : Block} {inn : U32s} {v x : Nat → U32} {i : Nat} {m : Mem} {s : WSt}
    (hf : fresh ≠ inn.blk) (hc : fresh.isConst = false) (hv : ∀ t < inn.len, v t = x t)
    (hW : WI fresh inn v x m i) (hi : i % 8 = 0) (hle : i + 8 ≤ inn.len) (he : s.encoded = i)
    (hd : s.dataPos = ctrlLen inn.len + offs v i) (hcp : s.ctrlPos = (i / 4 : Nat)) :
    wp (wctx fresh inn)
      (wfBody8 inn ⟨fresh, 0, ctrlLen inn.len + 4 * inn.len, ctrlLen inn.len + 4 * inn.len⟩ s) m
      (fun s' m' => WI fresh inn v x m' (i + 8) ∧ s'.encoded = (i + 8 : Nat) ∧
        s'.dataPos = ctrlLen inn.len + offs v (i + 8) ∧ s'.ctrlPos = ((i + 8) / 4 : Nat)) := by
  obtain ⟨g, hg⟩ : ∃ g, i = 4 * g := ⟨i / 4, by omega⟩
  have hC : ctrlLen inn.len = (inn.len + 3) / 4 := rfl
  have o0 := offs_bounds v (show 0 ≤ i by omega)
  simp only [show offs v 0 = 0 from rfl] at o0
  have o1 := offs_bounds v (show i ≤ i + 8 by omega)
  unfold wfBody8
  simp only [Prog.bind_eq, Prog.pure_eq]
  rw [wp_bind]; refine wp_from_ok i he (by omega) ?_
  rw [wp_bind]; refine wp_from_ok (ctrlLen inn.len + offs v i) (by omega) (by ar) ?_
  simp only [Nat.one_mul, Nat.zero_add]
  refine step8 (i := i) (g := g) hf hc (by omega) (by omega) hW (put8_W hv hW (by omega) rfl rfl
    rfl rfl) g (by omega) (by omega) rfl (by ar)
    (by ar) fun m1 s0 h1 e0 => ?_
  exact ⟨h1, by ar, by ar, by ar⟩

theorem wfBody1_spec {fresh : Block} {inn : U32s} {v x : Nat → U32} {i n : Nat} {m : Mem} {s : WSt}
    (hf : fresh ≠ inn.blk) (hc : fresh.isConst = false) (hv : ∀ t < inn.len, v t = x t)
    (hz : ∀ t, inn.len ≤ t → v t = 0)
    (hW : WI fresh inn v x m i) (hi : i % 4 = 0) (hlt : i < inn.len) (hn : n = min 4 (inn.len - i)) (he : s.encoded = i)
    (hd : s.dataPos = ctrlLen inn.len + offs v i) (hcp : s.ctrlPos = (i / 4 : Nat)) :
    wp (wctx fresh inn)
      (wfBody1 inn.len inn ⟨fresh, 0, ctrlLen inn.len + 4 * inn.len, ctrlLen inn.len + 4 * inn.len⟩ s) m
      (fun s' m' => WI fresh inn v x m' (i + n) ∧ s'.encoded = (i + n : Nat) ∧
        s'.dataPos = ctrlLen inn.len + offs v (i + n) ∧ s'.ctrlPos = (i / 4 + 1 : Nat)) := by
  obtain ⟨g, hg⟩ : ∃ g, i = 4 * g := ⟨i / 4, by omega⟩
  have hC : ctrlLen inn.len = (inn.len + 3) / 4 := rfl
  have o0 := offs_bounds v (show 0 ≤ i by omega)
  simp only [show offs v 0 = 0 from rfl] at o0
  have o1 := offs_bounds v (show i ≤ i + n by omega)
  unfold wfBody1
  simp only [Prog.bind_eq, Prog.pure_eq]
  rw [wp_bind]; refine wp_from_ok i he (by omega) ?_
  rw [wp_bind]; refine wp_from_ok (ctrlLen inn.len + offs v i) (by omega) (by ar) ?_
  simp only [Nat.one_mul, Nat.zero_add]
  have hnums : (if (inn.len : Int) - s.encoded > 4 then 4 else (inn.len : Int) - s.encoded) = (n : Int) := by
    split <;> omega
  rw [hnums]
  refine stepP (i := i) (g := g) (n := n) hf hc (by omega) hn hlt hz hW (putP_W hf hv hW (by omega) hn
      rfl rfl rfl rfl rfl rfl (by ar)) (i / 4) (by omega) rfl (by ar)
      (by ar) fun m1 sz h1 hsz => ?_
  exact ⟨h1, by ar, by ar, by ar⟩

theorem writeAllFast_spec {fresh : Block} {inn : U32s} {v x : Nat → U32} {m : Mem}
    (hT : TablesLoaded m) (hf : fresh ≠ inn.blk) (hc : fresh.isConst = false) (hcap : inn.len ≤ inn.cap)
    (hsm : inn.cap < 2 ^ 60) (hx : ∀ t < inn.len, wordAt m inn.blk (inn.off + 4 * t) = x t)
    (hv : ∀ t < inn.len, v t = x t) (hz : ∀ t, inn.len ≤ t → v t = 0) :
    wp (wctx fresh inn) (writeAllFast fresh inn) m
      (fun r m' => WI fresh inn v x m' inn.len ∧
        r = ⟨fresh, 0, ctrlLen inn.len + offs v inn.len, ctrlLen inn.len + 4 * inn.len⟩) := by
  have hC : ctrlLen inn.len = (inn.len + 3) / 4 := rfl
  have oN := offs_bounds v (show 0 ≤ inn.len by omega)
  simp only [show offs v 0 = 0 from rfl] at oN
  unfold writeAllFast
  simp only [Prog.bind_eq, Prog.pure_eq]
  rw [header_ctrlLen (by omega), header_total (by omega), header_lowest32 (by omega)]
  refine makeBytes_W (v := v) (x := x) hT hf hc hx rfl fun m0 h0 => ?_
  rw [wp_bind]
  refine wp_loop (fun (s : WSt) m' => ∃ i, WI fresh inn v x m' i ∧ i % 32 = 0 ∧ i ≤ inn.len ∧
      s.encoded = (i : Nat) ∧ s.dataPos = ctrlLen inn.len + offs v i ∧ s.ctrlPos = ((i + 3) / 4 : Nat))
    (fun s => inn.len - s.encoded.toNat) ?_ ?_ ?_ ?_ ?_
  · rintro s m1 ⟨i, hW, hi, hil, he, hd, hcp⟩ hcond
    simp only [decide_eq_true_eq] at hcond
    refine wp_mono (wfBody32_spec hf hc hcap hv hW (by omega) (by omega) he hd (by omega)) ?_
    rintro s' m2 ⟨h1, h2, h3, h4⟩
    exact ⟨⟨i + 32, h1, by omega, by omega, h2, h3, by omega⟩, by omega⟩
  · rintro s m1 ⟨i, hW, hi, hil, he, hd, hcp⟩ hcond
    simp only [decide_eq_true_eq] at hcond
    omega
  rotate_left
  · exact ⟨0, h0, by omega, by omega, rfl, by simp [show offs v 0 = 0 from rfl], by simp⟩
  · simp
  rintro s m1 ⟨i, hW, hi, hil, he, hd, hcp⟩ hcond
  simp only [decide_eq_false_iff_not] at hcond
  rw [wp_bind]
  refine wp_loop (fun (s : WSt) m' => ∃ i, WI fresh inn v x m' i ∧ i % 8 = 0 ∧ i ≤ inn.len ∧
      s.encoded = (i : Nat) ∧ s.dataPos = ctrlLen inn.len + offs v i ∧ s.ctrlPos = ((i + 3) / 4 : Nat))
    (fun s => inn.len - s.encoded.toNat) ?_ ?_ ?_ ?_ ?_
  · rintro s m1 ⟨i, hW, hi, hil, he, hd, hcp⟩ hcond
    simp only [decide_eq_true_eq] at hcond
    refine wp_mono (wfBody8_spec hf hc hv hW (by omega) (by omega) he hd (by omega)) ?_
    rintro s' m2 ⟨h1, h2, h3, h4⟩
    exact ⟨⟨i + 8, h1, by omega, by omega, h2, h3, by omega⟩, by omega⟩
  · rintro s m1 ⟨i, hW, hi, hil, he, hd, hcp⟩ hcond
    simp only [decide_eq_true_eq] at hcond
    omega
  rotate_left
  · exact ⟨i, hW, by omega, by omega, he, hd, hcp⟩
  · omega
  rintro s m1 ⟨i, hW, hi, hil, he, hd, hcp⟩ hcond
  simp only [decide_eq_false_iff_not] at hcond
  rw [wp_bind]
  refine wp_loop (fun (s : WSt) m' => ∃ i, WI fresh inn v x m' i ∧ (i % 4 = 0 ∨ i = inn.len) ∧ i ≤ inn.len ∧
      s.encoded = (i : Nat) ∧ s.dataPos = ctrlLen inn.len + offs v i ∧ s.ctrlPos = ((i + 3) / 4 : Nat))
    (fun s => inn.len - s.encoded.toNat) ?_ ?_ ?_ ?_ ?_
  · rintro s m1 ⟨i, hW, hi, hil, he, hd, hcp⟩ hcond
    simp only [decide_eq_true_eq] at hcond
    refine wp_mono (wfBody1_spec hf hc hv hz hW (by omega) (by omega) rfl he hd (by omega)) ?_
    rintro s' m2 ⟨h1, h2, h3, h4⟩
    exact ⟨⟨i + min 4 (inn.len - i), h1, by omega, by omega, h2, h3, by omega⟩, by omega⟩
  · rintro s m1 ⟨i, hW, hi, hil, he, hd, hcp⟩ hcond
    simp only [decide_eq_true_eq] at hcond
    omega
  rotate_left
  · exact ⟨i, hW, by omega, by omega, he, hd, hcp⟩
  · omega
  rintro s m1 ⟨i, hW, hi, hil, he, hd, hcp⟩ hcond
  simp only [decide_eq_false_iff_not] at hcond
  have hin : i = inn.len := by omega
  subst hin
  refine wp_range_ok 0 (ctrlLen inn.len + offs v inn.len) rfl (by omega) (by omega) (by ar) ?_
  exact ⟨hW, by simp⟩

theorem wdfBody32_spec {fresh : Block} {inn : U32s} {v x : Nat → U32} (prev : U32) {i : Nat} {m : Mem} {s : WSt}
    (hf : fresh ≠ inn.blk) (hc : fresh.isConst = false) (hcap : inn.len ≤ inn.cap) (hv : ∀ t < inn.len, v t = x t - pv x prev t)
    (hW : WI fresh inn v x m i) (hi : i % 8 = 0) (hi32 : i + 32 ≤ inn.len) (he : s.encoded = i)
    (hd : s.dataPos = ctrlLen inn.len + offs v i) (hcp : s.ctrlPos = (i / 4 : Nat))
    (hp : s.prev = pv x prev i) :
    wp (wctx fresh inn)
      (wdfBody32 inn ⟨fresh, 0, ctrlLen inn.len + 4 * inn.len, ctrlLen inn.len + 4 * inn.len⟩ s) m
      (fun s' m' => WI fresh inn v x m' (i + 32) ∧ s'.encoded = (i + 32 : Nat) ∧
        s'.dataPos = ctrlLen inn.len + offs v (i + 32) ∧ s'.ctrlPos = ((i + 32) / 4 : Nat) ∧ s'.prev = pv x prev (i + 32)) := by
  obtain ⟨g, hg⟩ : ∃ g, i = 4 * g := ⟨i / 4, by omega⟩
  have hC : ctrlLen inn.len = (inn.len + 3) / 4 := rfl
  have o0 := offs_bounds v (show 0 ≤ i by omega)
  simp only [show offs v 0 = 0 from rfl] at o0
  have o1 := offs_bounds v (show i ≤ i + 8 by omega)
  have o2 := offs_bounds v (show i + 8 ≤ i + 8 + 8 by omega)
  have o3 := offs_bounds v (show i + 8 + 8 ≤ i + 8 + 8 + 8 by omega)
  have o4 := offs_bounds v (show i + 8 + 8 + 8 ≤ i + 8 + 8 + 8 + 8 by omega)
  have e16 : offs v (i + 32) = offs v (i + 8 + 8 + 8 + 8) := rfl
  have hRW : ∀ a, a < 32 → ∀ k < 4, (wctx fresh inn).R ⟨inn.blk, inn.off + 4 * i + 4 * a + k⟩ :=
    fun a ha k hk => .inl ⟨rfl, by ar, by ar⟩
  have hw : ∀ {m' : Mem} (j : Nat), WI fresh inn v x m' j → ∀ a < 32,
      wordAt m' inn.blk (inn.off + 4 * i + 4 * a) = x (i + a) := fun j h a ha => by
    rw [← h.words (i + a) (by omega)]; congr 1; omega
  unfold wdfBody32
  simp only [Prog.bind_eq, Prog.pure_eq]
  rw [wp_bind]; refine wp_range_ok (i / 4) (i / 4 + 8) hcp (by omega) (by omega) (by ar) ?_
  rw [wp_bind]; refine wp_range_ok i (i + 32) he (by omega) (by omega) (by omega) ?_
  rw [wp_bind]; refine wp_from_ok (ctrlLen inn.len + offs v i) (by omega) (by ar) ?_
  simp only [Nat.one_mul, Nat.zero_add]
  rw [wp_bind]; refine wp_range_ok 0 8 rfl rfl (by omega) (by ar) ?_
  refine step8 (i := i) (g := g + 0) hf hc (by omega) (by omega) hW (put8Delta_W hv hW (by omega) rfl (by ar)
    rfl (by ar) hp) 0 rfl rfl rfl (by ar) (by ar) fun m1 s0 h1 e0 => ?_
  rw [wp_bind]; refine wp_range_ok 8 16 rfl rfl (by omega) (by ar) ?_
  rw [wp_bind]; refine wp_from_ok (s0) (by omega) (by ar) ?_
  rw [wp_bind]; refine wp_getW_ok 7 rfl (by ar) (hRW 7 (by omega)) ?_
  rw [hw _ h1 7 (by omega)]
  refine step8 (i := i + 8) (g := g + 2) hf hc (by omega) (by omega) h1 (put8Delta_W hv h1 (by omega) rfl (by ar)
    rfl (by ar) rfl) 2 rfl rfl rfl (by ar) (by ar) fun m2 s1 h2 e1 => ?_
  rw [wp_bind]; refine wp_range_ok 16 24 rfl rfl (by omega) (by ar) ?_
  rw [wp_bind]; refine wp_from_ok (s0+s1) (by omega) (by ar) ?_
  rw [wp_bind]; refine wp_getW_ok 15 rfl (by ar) (hRW 15 (by omega)) ?_
  rw [hw _ h2 15 (by omega)]
  refine step8 (i := i + 8 + 8) (g := g + 4) hf hc (by omega) (by omega) h2 (put8Delta_W hv h2 (by omega) rfl (by ar)
    rfl (by ar) rfl) 4 rfl rfl rfl (by ar) (by ar) fun m3 s2 h3 e2 => ?_
  rw [wp_bind]; refine wp_from_ok 24 rfl (by ar) ?_
  rw [wp_bind]; refine wp_from_ok (s0+s1+s2) (by omega) (by ar) ?_
  rw [wp_bind]; refine wp_getW_ok 23 rfl (by ar) (hRW 23 (by omega)) ?_
  rw [hw _ h3 23 (by omega)]
  refine step8 (i := i + 8 + 8 + 8) (g := g + 6) hf hc (by omega) (by omega) h3 (put8Delta_W hv h3 (by omega) rfl (by ar)
    rfl (by ar) rfl) 6 rfl rfl rfl (by ar) (by ar) fun m4 s3 h4 e3 => ?_
  rw [wp_bind]; refine wp_getW_ok 31 rfl (by ar) (hRW 31 (by omega)) ?_
  rw [hw _ h4 31 (by omega)]
  exact ⟨h4, by ar, by ar, by ar, rfl⟩

theorem wdfBody8_spec {fresh : Block} {inn : U32s} {v x : Nat → U32} (prev : U32) {i : Nat} {m : Mem} {s : WSt}
    (hf : fresh ≠ inn.blk) (hc : fresh.isConst = false) (hv : ∀ t < inn.len, v t = x t - pv x prev t)
    (hW : WI fresh inn v x m i) (hi : i % 8 = 0) (hle : i + 8 ≤ inn.len) (he : s.encoded = i)
    (hd : s.dataPos = ctrlLen inn.len + offs v i) (hcp : s.ctrlPos = (i / 4 : Nat))
    (hp : s.prev = pv x prev i) :
    wp (wctx fresh inn)
      (wdfBody8 inn ⟨fresh, 0, ctrlLen inn.len + 4 * inn.len, ctrlLen inn.len + 4 * inn.len⟩ s) m
      (fun s' m' => WI fresh inn v x m' (i + 8) ∧ s'.encoded = (i + 8 : Nat) ∧
        s'.dataPos = ctrlLen inn.len + offs v (i + 8) ∧ s'.ctrlPos = ((i + 8) / 4 : Nat) ∧ s'.prev = pv x prev (i + 8)) := by
  obtain ⟨g, hg⟩ : ∃ g, i = 4 * g := ⟨i / 4, by omega⟩
  have hC : ctrlLen inn.len = (inn.len + 3) / 4 := rfl
  have o0 := offs_bounds v (show 0 ≤ i by omega)
  simp only [show offs v 0 = 0 from rfl] at o0
  have o1 := offs_bounds v (show i ≤ i + 8 by omega)
  unfold wdfBody8
  simp only [Prog.bind_eq, Prog.pure_eq]
  rw [wp_bind]; refine wp_from_ok i he (by omega) ?_
  rw [wp_bind]; refine wp_from_ok (ctrlLen inn.len + offs v i) (by omega) (by ar) ?_
  simp only [Nat.one_mul, Nat.zero_add]
  refine step8 (i := i) (g := g) hf hc (by omega) (by omega) hW (put8Delta_W hv hW (by omega) rfl rfl
    rfl rfl hp) g (by omega) (by omega) rfl (by ar)
    (by ar) fun m1 s0 h1 e0 => ?_
  rw [wp_bind]; refine wp_getW_ok (i + 7) (by omega) (by omega)
    (fun k hk => .inl ⟨rfl, by ar, by ar⟩) ?_
  rw [h1.words _ (by omega)]
  exact ⟨h1, by ar, by ar, by ar, rfl⟩

theorem wdfBody1_spec {fresh : Block} {inn : U32s} {v x : Nat → U32} (prev : U32) {i n : Nat} {m : Mem} {s : WSt}
    (hf : fresh ≠ inn.blk) (hc : fresh.isConst = false) (hv : ∀ t < inn.len, v t = x t - pv x prev t)
    (hz : ∀ t, inn.len ≤ t → v t = 0)
    (hW : WI fresh inn v x m i) (hi : i % 4 = 0) (hlt : i < inn.len) (hn : n = min 4 (inn.len - i)) (he : s.encoded = i)
    (hd : s.dataPos = ctrlLen inn.len + offs v i) (hcp : s.ctrlPos = (i / 4 : Nat))
    (hp : s.prev = pv x prev i) :
    wp (wctx fresh inn)
      (wdfBody1 inn.len inn ⟨fresh, 0, ctrlLen inn.len + 4 * inn.len, ctrlLen inn.len + 4 * inn.len⟩ s) m
      (fun s' m' => WI fresh inn v x m' (i + n) ∧ s'.encoded = (i + n : Nat) ∧
        s'.dataPos = ctrlLen inn.len + offs v (i + n) ∧ s'.ctrlPos = (i / 4 + 1 : Nat) ∧ s'.prev = pv x prev (i + n)) := by
  obtain ⟨g, hg⟩ : ∃ g, i = 4 * g := ⟨i / 4, by omega⟩
  have hC : ctrlLen inn.len = (inn.len + 3) / 4 := rfl
  have o0 := offs_bounds v (show 0 ≤ i by omega)
  simp only [show offs v 0 = 0 from rfl] at o0
  have o1 := offs_bounds v (show i ≤ i + n by omega)
  unfold wdfBody1
  simp only [Prog.bind_eq, Prog.pure_eq]
  rw [wp_bind]; refine wp_from_ok i he (by omega) ?_
  rw [wp_bind]; refine wp_from_ok (ctrlLen inn.len + offs v i) (by omega) (by ar) ?_
  simp only [Nat.one_mul, Nat.zero_add]
  have hnums : (if (inn.len : Int) - s.encoded > 4 then 4 else (inn.len : Int) - s.encoded) = (n : Int) := by
    split <;> omega
  rw [hnums]
  refine stepP (i := i) (g := g) (n := n) hf hc (by omega) hn hlt hz hW (putPDelta_W hf hv hW (by omega) hn
      rfl rfl rfl rfl rfl rfl (by ar) hp) (i / 4) (by omega) rfl (by ar)
      (by ar) fun m1 sz h1 hsz => ?_
  rw [wp_bind]; refine wp_getW_ok (i + n - 1) (by omega) (by omega)
    (fun k hk => .inl ⟨rfl, by ar, by ar⟩) ?_
  rw [h1.words _ (by omega)]
  exact ⟨h1, by ar, by ar, by ar, by simp only [pv]; rw [if_neg (by omega)]⟩

theorem writeAllDeltaFast_spec {fresh : Block} {inn : U32s} {v x : Nat → U32} (prev : U32) {m : Mem}
    (hT : TablesLoaded m) (hf : fresh ≠ inn.blk) (hc : fresh.isConst = false) (hcap : inn.len ≤ inn.cap)
    (hsm : inn.cap < 2 ^ 60) (hx : ∀ t < inn.len, wordAt m inn.blk (inn.off + 4 * t) = x t)
    (hv : ∀ t < inn.len, v t = x t - pv x prev t) (hz : ∀ t, inn.len ≤ t → v t = 0) :
    wp (wctx fresh inn) (writeAllDeltaFast fresh inn prev) m
      (fun r m' => WI fresh inn v x m' inn.len ∧
        r = ⟨fresh, 0, ctrlLen inn.len + offs v inn.len, ctrlLen inn.len + 4 * inn.len⟩) := by
  have hC : ctrlLen inn.len = (inn.len + 3) / 4 := rfl
  have oN := offs_bounds v (show 0 ≤ inn.len by omega)
  simp only [show offs v 0 = 0 from rfl] at oN
  unfold writeAllDeltaFast
  simp only [Prog.bind_eq, Prog.pure_eq]
  rw [header_ctrlLen (by omega), header_total (by omega), header_lowest32 (by omega)]
  refine makeBytes_W (v := v) (x := x) hT hf hc hx rfl fun m0 h0 => ?_
  rw [wp_bind]
  refine wp_loop (fun (s : WSt) m' => ∃ i, WI fresh inn v x m' i ∧ i % 32 = 0 ∧ i ≤ inn.len ∧
      s.prev = pv x prev i ∧ s.encoded = (i : Nat) ∧ s.dataPos = ctrlLen inn.len + offs v i ∧ s.ctrlPos = ((i + 3) / 4 : Nat))
    (fun s => inn.len - s.encoded.toNat) ?_ ?_ ?_ ?_ ?_
  · rintro s m1 ⟨i, hW, hi, hil, hp, he, hd, hcp⟩ hcond
    simp only [decide_eq_true_eq] at hcond
    refine wp_mono (wdfBody32_spec prev hf hc hcap hv hW (by omega) (by omega) he hd (by omega) hp) ?_
    rintro s' m2 ⟨h1, h2, h3, h4, h5⟩
    exact ⟨⟨i + 32, h1, by omega, by omega, h5, h2, h3, by omega⟩, by omega⟩
  · rintro s m1 ⟨i, hW, hi, hil, hp, he, hd, hcp⟩ hcond
    simp only [decide_eq_true_eq] at hcond
    omega
  rotate_left
  · exact ⟨0, h0, by omega, by omega, rfl, rfl, by simp [show offs v 0 = 0 from rfl], by simp⟩
  · simp
  rintro s m1 ⟨i, hW, hi, hil, hp, he, hd, hcp⟩ hcond
  simp only [decide_eq_false_iff_not] at hcond
  rw [wp_bind]
  refine wp_loop (fun (s : WSt) m' => ∃ i, WI fresh inn v x m' i ∧ i % 8 = 0 ∧ i ≤ inn.len ∧
      s.prev = pv x prev i ∧ s.encoded = (i : Nat) ∧ s.dataPos = ctrlLen inn.len + offs v i ∧ s.ctrlPos = ((i + 3) / 4 : Nat))
    (fun s => inn.len - s.encoded.toNat) ?_ ?_ ?_ ?_ ?_
  · rintro s m1 ⟨i, hW, hi, hil, hp, he, hd, hcp⟩ hcond
    simp only [decide_eq_true_eq] at hcond
    refine wp_mono (wdfBody8_spec prev hf hc hv hW (by omega) (by omega) he hd (by omega) hp) ?_
    rintro s' m2 ⟨h1, h2, h3, h4, h5⟩
    exact ⟨⟨i + 8, h1, by omega, by omega, h5, h2, h3, by omega⟩, by omega⟩
  · rintro s m1 ⟨i, hW, hi, hil, hp, he, hd, hcp⟩ hcond
    simp only [decide_eq_true_eq] at hcond
    omega
  rotate_left
  · exact ⟨i, hW, by omega, by omega, hp, he, hd, hcp⟩
  · omega
  rintro s m1 ⟨i, hW, hi, hil, hp, he, hd, hcp⟩ hcond
  simp only [decide_eq_false_iff_not] at hcond
  rw [wp_bind]
  refine wp_loop (fun (s : WSt) m' => ∃ i, WI fresh inn v x m' i ∧ (i % 4 = 0 ∨ i = inn.len) ∧ i ≤ inn.len ∧
      s.prev = pv x prev i ∧ s.encoded = (i : Nat) ∧ s.dataPos = ctrlLen inn.len + offs v i ∧ s.ctrlPos = ((i + 3) / 4 : Nat))
    (fun s => inn.len - s.encoded.toNat) ?_ ?_ ?_ ?_ ?_
  · rintro s m1 ⟨i, hW, hi, hil, hp, he, hd, hcp⟩ hcond
    simp only [decide_eq_true_eq] at hcond
    refine wp_mono (wdfBody1_spec prev hf hc hv hz hW (by omega) (by omega) rfl he hd (by omega) hp) ?_
    rintro s' m2 ⟨h1, h2, h3, h4, h5⟩
    exact ⟨⟨i + min 4 (inn.len - i), h1, by omega, by omega, h5, h2, h3, by omega⟩, by omega⟩
  · rintro s m1 ⟨i, hW, hi, hil, hp, he, hd, hcp⟩ hcond
    simp only [decide_eq_true_eq] at hcond
    omega
  rotate_left
  · exact ⟨i, hW, by omega, by omega, hp, he, hd, hcp⟩
  · omega
  rintro s m1 ⟨i, hW, hi, hil, hp, he, hd, hcp⟩ hcond
  simp only [decide_eq_false_iff_not] at hcond
  have hin : i = inn.len := by omega
  subst hin
  refine wp_range_ok 0 (ctrlLen inn.len + offs v inn.len) rfl (by omega) (by omega) (by ar) ?_
  exact ⟨hW, by simp⟩

end SVB
