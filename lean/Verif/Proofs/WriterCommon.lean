import Verif.Proofs.Arith
import Verif.Proofs.AsmEnc

/-! # Writers: invariant and the steps that keep it -/

set_option linter.unusedSimpArgs false

namespace SVB
open Spec Asm

/-- What a writer has established after `i` numbers: `x` is the input, `v` the numbers to encode
(`x` itself or the differences), zero beyond the end. -/
structure WB (fresh : Block) (inn : U32s) (v x : Nat → U32) (m : Mem) (i : Nat) : Prop where
  tables : TablesLoaded m
  words : ∀ t < inn.len, wordAt m inn.blk (inn.off + 4 * t) = x t
  codes : ∀ g, 4 * g < i → ∀ k < 4, code (m ⟨fresh, g⟩) k + 1 = byteLen (v (4 * g + k))
  stored : Stored m fresh (ctrlLen inn.len) v 0 i

/-- The same, and the rest of the buffer is still zero. -/
structure WI (fresh : Block) (inn : U32s) (v x : Nat → U32) (m : Mem) (i : Nat) : Prop
    extends WB fresh inn v x m i where
  tail : ZeroTail m fresh (ctrlLen inn.len + offs v i) (ctrlLen inn.len + 4 * inn.len)

/-- Footprint of a writer: reads the input, the tables, and writes the fresh buffer; no panics. -/
def wctx (fresh : Block) (inn : U32s) : Ctx :=
  ⟨fun q => inSlice inn q ∨ inTables q, Seg fresh 0 (ctrlLen inn.len + 4 * inn.len), fun _ _ => False⟩

theorem WB.frame {fresh : Block} {inn : U32s} {v x : Nat → U32} {m m' : Mem} {i : Nat}
    (h : WB fresh inn v x m i) (hf : fresh ≠ inn.blk) (hc : fresh.isConst = false)
    (hfr : ∀ q, ¬ (q.blk = fresh ∧ ctrlLen inn.len + offs v i ≤ q.off) → m' q = m q)
    (hi : i ≤ inn.len) : WB fresh inn v x m' i := by
  refine ⟨h.tables.frame fun q hq => hfr q fun h => ?_, fun t ht => ?_, fun g hg k hk => ?_, ?_⟩
  · rw [h.1, hc] at hq; exact absurd hq (by decide)
  · rw [← h.words t ht]
    exact wordAt_congr fun k _ => hfr _ fun h => hf h.1.symm
  · rw [← h.codes g hg k hk, hfr]
    rintro ⟨-, h2⟩
    simp only [ctrlLen] at h2; omega
  · refine h.stored.frame fun q hq => hfr q fun h => ?_
    have := hq.2.2; have := h.2; omega

/-- Setting the control byte of the next group. -/
theorem WB.setCtrl {fresh : Block} {inn : U32s} {v x : Nat → U32} {m : Mem} {i j g : Nat} {c : Byte}
    (h : WB fresh inn v x m i) (hf : fresh ≠ inn.blk) (hc : fresh.isConst = false)
    (hg : i = 4 * g) (hgl : g < ctrlLen inn.len) (hij : i ≤ j) (hj : j ≤ i + 4)
    (hs : Stored m fresh (ctrlLen inn.len) v i j)
    (hcode : ∀ k < 4, code c k + 1 = byteLen (v (i + k))) :
    WB fresh inn v x (m.set ⟨fresh, g⟩ c) j := by
  have hne : ∀ q : Ptr, q ≠ ⟨fresh, g⟩ → m.set ⟨fresh, g⟩ c q = m q := fun q hq => by
    simp [Mem.set, hq]
  refine ⟨h.tables.frame fun q hq => hne q ?_, fun t ht => ?_, fun g' hg' k hk => ?_, ?_⟩
  · rintro rfl; simp only at hq; rw [hc] at hq; exact absurd hq (by decide)
  · rw [← h.words t ht]
    refine wordAt_congr fun k _ => hne _ ?_
    intro e; injection e with e1 _; exact hf e1.symm
  · by_cases e : g' = g
    · subst e
      rw [show m.set ⟨fresh, g'⟩ c ⟨fresh, g'⟩ = c by simp [Mem.set], hcode k hk, hg]
    · rw [hne _ (by intro h; injection h with _ h; exact e h)]
      exact h.codes g' (by omega) k hk
  · have := h.stored.append hs
    refine this.frame fun q hq => hne q ?_
    rintro rfl
    have := hq.2.1; simp only at this; omega

/-- Encoding more data and storing a control byte keeps the rest zero. -/
theorem ZeroTail.step {m m' : Mem} {b : Block} {e a a' g : Nat} {c : Byte} (h : ZeroTail m b a e)
    (ha : a ≤ a') (hfr : ∀ o, a' ≤ o → m' ⟨b, o⟩ = m ⟨b, o⟩) (hg : g < a') :
    ZeroTail (m'.set ⟨b, g⟩ c) b a' e := by
  intro o h1 h2
  rw [Mem.set_ne _ _ (by intro e; injection e; omega), hfr o h1]
  exact h o (by omega) h2

theorem seg_words {inn : U32s} {i k : Nat} (h : i + k ≤ inn.len) {b : Block} {o e : Nat} (hb : b = inn.blk)
    (ho : o = inn.off + 4 * i) (he : e = o + 4 * k) : ∀ q, Seg b o e q → inSlice inn q := by
  subst hb
  rintro q ⟨h1, h2, h3⟩
  exact ⟨h1, by omega, by omega⟩

/-- One group of four: encode, store the control byte, look up its size. -/
theorem step4 {β : Type} {fresh : Block} {inn : U32s} {v x : Nat → U32} {i g : Nat}
    (hf : fresh ≠ inn.blk) (hc : fresh.isConst = false) (hg : i = 4 * g) (hi4 : i + 4 ≤ inn.len)
    {p : Prog Byte} {ctrls : Bytes} {j : Int} {K : Int → Prog β} {m : Mem} {Q : β → Mem → Prop}
    (hW : WI fresh inn v x m i)
    (hp : wp ⟨inSlice inn, Seg fresh (ctrlLen inn.len + offs v i) (ctrlLen inn.len + offs v (i + 4)),
      fun _ _ => False⟩ p m (fun c m' => (∀ k < 4, code c k + 1 = byteLen (v (i + k))) ∧
        Stored m' fresh (ctrlLen inn.len) v i (i + 4)))
    (jn : Nat) (hj : j = jn) (hb : ctrls.blk = fresh) (hjl : jn < ctrls.len) (ho : ctrls.off + jn = g)
    (hK : ∀ m' (sz : Nat), WI fresh inn v x m' (i + 4) → offs v i + sz = offs v (i + 4) →
      wp (wctx fresh inn) (K (sz : Int)) m' Q) :
    wp (wctx fresh inn)
      (p.bind fun c => (setB ctrls j c).bind fun _ => (controlByteToSize c).bind K) m Q := by
  have hC : ctrlLen inn.len = (inn.len + 3) / 4 := rfl
  have b0 := offs_bounds v (show 0 ≤ i + 4 by omega)
  have b1 := offs_bounds v (show i ≤ i + 4 by omega)
  simp only [show offs v 0 = 0 from rfl] at b0
  refine wp_call hp (fun _ h => .inl h) ?_ (fun _ _ _ h => h.elim) ?_
  · rintro q ⟨h1, h2, h3⟩
    exact ⟨h1, by omega, by omega⟩
  rintro c m1 hf1 ⟨hcode, hst⟩
  have hW1 := hW.toWB.frame hf hc (m' := m1)
    (fun q hq => hf1 q fun h => hq ⟨h.1, h.2.1⟩) (by omega)
  rw [wp_bind]
  refine wp_setB_ok jn hj hjl ⟨hb, by simp only; omega, by simp only; omega⟩ ?_
  have hW2 := hW1.setCtrl hf hc hg (by omega) (show i ≤ i + 4 by omega) (by omega) hst hcode
  rw [hb, ho]
  refine wp_call (controlByteToSize_spec c _ hW2.tables) (fun _ h => .inr h) (fun _ h => h.elim)
    (fun _ _ _ h => h.elim) ?_
  rintro _ _ - ⟨rfl, rfl⟩
  refine hK _ _ ⟨hW2, hW.tail.step (by omega) (fun o h => ?_) (by omega)⟩ (gSize_of_codes hcode).symm
  exact hf1 _ fun hq => absurd hq.2.2 (by simp only; omega)

/-- The last, possibly shorter, group: encode, look up the size, store the control byte. -/
theorem stepP {β : Type} {fresh : Block} {inn : U32s} {v x : Nat → U32} {i g n : Nat}
    (hf : fresh ≠ inn.blk) (hc : fresh.isConst = false) (hg : i = 4 * g) (hn : n = min 4 (inn.len - i))
    (hi : i < inn.len) (hz : ∀ t, inn.len ≤ t → v t = 0)
    {p : Prog Byte} {ctrls : Bytes} {j : Int} {K : Int → Prog β} {m : Mem} {Q : β → Mem → Prop}
    (hW : WI fresh inn v x m i)
    (hp : wp ⟨inSlice inn, Seg fresh (ctrlLen inn.len + offs v i) (ctrlLen inn.len + offs v (i + n)),
      fun _ _ => False⟩ p m (fun c m' => (∀ k < 4, code c k + 1 = if k < n then byteLen (v (i + k)) else 1) ∧
        Stored m' fresh (ctrlLen inn.len) v i (i + n)))
    (jn : Nat) (hj : j = jn) (hb : ctrls.blk = fresh) (hjl : jn < ctrls.len) (ho : ctrls.off + jn = g)
    (hK : ∀ m' (sz : Int), WI fresh inn v x m' (i + n) →
      (offs v i : Int) + (sz - (4 - (n : Int))) = offs v (i + n) → wp (wctx fresh inn) (K sz) m' Q) :
    wp (wctx fresh inn)
      (p.bind fun c => (controlByteToSize c).bind fun sz => (setB ctrls j c).bind fun _ => K sz) m Q := by
  have hC : ctrlLen inn.len = (inn.len + 3) / 4 := rfl
  have b0 := offs_bounds v (show 0 ≤ i + n by omega)
  have b1 := offs_bounds v (show i ≤ i + n by omega)
  simp only [show offs v 0 = 0 from rfl] at b0
  refine wp_call hp (fun _ h => .inl h) ?_ (fun _ _ _ h => h.elim) ?_
  · rintro q ⟨h1, h2, h3⟩
    exact ⟨h1, by omega, by omega⟩
  rintro c m1 hf1 ⟨hcode, hst⟩
  have hcode' : ∀ k < 4, code c k + 1 = byteLen (v (i + k)) := by
    intro k hk
    rw [hcode k hk]
    split
    · rfl
    · rw [hz (i + k) (by omega), byteLen_zero]
  have hW1 := hW.toWB.frame hf hc (m' := m1)
    (fun q hq => hf1 q fun h => hq ⟨h.1, h.2.1⟩) (by omega)
  refine wp_call (controlByteToSize_spec c _ hW1.tables) (fun _ h => .inr h) (fun _ h => h.elim)
    (fun _ _ _ h => h.elim) ?_
  rintro _ _ - ⟨rfl, rfl⟩
  rw [wp_bind]
  refine wp_setB_ok jn hj hjl ⟨hb, by simp only; omega, by simp only; omega⟩ ?_
  have hW2 := hW1.setCtrl hf hc hg (by omega) (show i ≤ i + n by omega) (by omega) hst hcode'
  rw [hb, ho]
  refine hK _ _ ⟨hW2, hW.tail.step (by omega) (fun o h => ?_) (by omega)⟩ ?_
  · exact hf1 _ fun hq => absurd hq.2.2 (by simp only; omega)
  have h4 := gSize_of_codes hcode'
  have hrest : offs v (i + 4) = offs v (i + n) + (4 - n) := by
    have hones : ∀ k, offs v (i + n + k) = offs v (i + n) + k ∨ i + n < inn.len := by
      intro k
      by_cases h : inn.len ≤ i + n
      · left
        induction k with
        | zero => rfl
        | succ k ih => rw [← Nat.add_assoc, offs_one, ih, hz _ (by omega), byteLen_zero]; omega
      · right; omega
    by_cases h : n = 4
    · subst h; omega
    · have := hones (4 - n)
      rw [show i + n + (4 - n) = i + 4 by omega] at this
      omega
  omega

theorem put4_W {fresh : Block} {inn : U32s} {v x : Nat → U32} {i : Nat} {m : Mem} {nums : U32s} {data : Bytes}
    (hv : ∀ t < inn.len, v t = x t) (hW : WI fresh inn v x m i) (hi4 : i + 4 ≤ inn.len)
    (hn1 : nums.blk = inn.blk) (hn2 : nums.off = inn.off + 4 * i) (hn3 : 4 ≤ nums.len)
    (hd1 : data.blk = fresh) (hd2 : data.off = ctrlLen inn.len + offs v i)
    (hd3 : data.off + data.len = ctrlLen inn.len + 4 * inn.len) :
    wp ⟨inSlice inn, Seg fresh (ctrlLen inn.len + offs v i) (ctrlLen inn.len + offs v (i + 4)),
      fun _ _ => False⟩ (put4uint32Scalar nums data) m (fun c m' =>
        (∀ k < 4, code c k + 1 = byteLen (v (i + k))) ∧ Stored m' fresh (ctrlLen inn.len) v i (i + 4)) := by
  have b0 := offs_bounds v (show 0 ≤ i + 4 by omega)
  simp only [show offs v 0 = 0 from rfl] at b0
  subst hd1
  refine wp_conseq (put4_spec v i (ctrlLen inn.len) nums data m hd2 fun _ k hk => ?_)
    (seg_words hi4 hn1 hn2 rfl) (fun _ h => h) ?_ ?_
  · rw [hn1, hn2, show inn.off + 4 * i + 4 * k = inn.off + 4 * (i + k) by omega, hW.words _ (by omega),
      hv _ (by omega)]
  · rintro k m' - ⟨-, h⟩; omega
  · rintro c m' - ⟨-, -, h3, h4⟩; exact ⟨h3, h4⟩

/-- Predecessor of input `t`. -/
def pv (x : Nat → U32) (prev : U32) (t : Nat) : U32 := if t = 0 then prev else x (t - 1)

theorem pv_succ (x : Nat → U32) (prev : U32) (t : Nat) : pv x prev (t + 1) = x t := rfl

theorem put4Delta_W {fresh : Block} {inn : U32s} {v x : Nat → U32} {prev : U32} {i : Nat} {m : Mem}
    {nums : U32s} {data : Bytes} {pr : U32}
    (hv : ∀ t < inn.len, v t = x t - pv x prev t) (hW : WI fresh inn v x m i) (hi4 : i + 4 ≤ inn.len)
    (hn1 : nums.blk = inn.blk) (hn2 : nums.off = inn.off + 4 * i) (hn3 : 4 ≤ nums.len)
    (hd1 : data.blk = fresh) (hd2 : data.off = ctrlLen inn.len + offs v i)
    (hd3 : data.off + data.len = ctrlLen inn.len + 4 * inn.len) (hpr : pr = pv x prev i) :
    wp ⟨inSlice inn, Seg fresh (ctrlLen inn.len + offs v i) (ctrlLen inn.len + offs v (i + 4)),
      fun _ _ => False⟩ (put4uint32DeltaScalar nums data pr) m (fun c m' =>
        (∀ k < 4, code c k + 1 = byteLen (v (i + k))) ∧ Stored m' fresh (ctrlLen inn.len) v i (i + 4)) := by
  have b0 := offs_bounds v (show 0 ≤ i + 4 by omega)
  simp only [show offs v 0 = 0 from rfl] at b0
  subst hd1
  refine wp_conseq (put4Delta_spec v i (ctrlLen inn.len) nums data pr m hd2 (fun _ => ?_) fun _ k hk => ?_)
    (seg_words hi4 hn1 hn2 rfl) (fun _ h => h) ?_ ?_
  · rw [hn1, hn2, hW.words _ (by omega), hv _ (by omega), hpr]
  · rw [hn1, hn2, show inn.off + 4 * i + 4 * k = inn.off + 4 * (i + k) by omega,
      show inn.off + 4 * i + 4 * (k + 1) = inn.off + 4 * (i + k + 1) by omega,
      hW.words _ (by omega), hW.words _ (by omega), ← Nat.add_assoc, hv _ (by omega), pv_succ]
  · rintro k m' - ⟨-, h⟩; omega
  · rintro c m' - ⟨-, -, h3, h4⟩; exact ⟨h3, h4⟩

theorem putP_W {fresh : Block} {inn : U32s} {v x : Nat → U32} {i n : Nat} {m : Mem} {nums : U32s}
    {data : Bytes} {cnt : Int} (hf : fresh ≠ inn.blk)
    (hv : ∀ t < inn.len, v t = x t) (hW : WI fresh inn v x m i) (hi : i ≤ inn.len)
    (hn : n = min 4 (inn.len - i)) (hcnt : cnt = n)
    (hn1 : nums.blk = inn.blk) (hn2 : nums.off = inn.off + 4 * i) (hn3 : nums.len = inn.len - i)
    (hd1 : data.blk = fresh) (hd2 : data.off = ctrlLen inn.len + offs v i)
    (hd3 : data.off + data.len = ctrlLen inn.len + 4 * inn.len) :
    wp ⟨inSlice inn, Seg fresh (ctrlLen inn.len + offs v i) (ctrlLen inn.len + offs v (i + n)),
      fun _ _ => False⟩ (putUint32Scalar nums data cnt) m (fun c m' =>
        (∀ k < 4, code c k + 1 = if k < n then byteLen (v (i + k)) else 1) ∧
        Stored m' fresh (ctrlLen inn.len) v i (i + n)) := by
  have b0 := offs_bounds v (show 0 ≤ i + n by omega)
  simp only [show offs v 0 = 0 from rfl] at b0
  subst hd1
  refine wp_conseq (putUint32_spec v i (ctrlLen inn.len) nums data cnt m n (by omega) hd2 ?_ ?_)
    (seg_words (by omega) hn1 hn2 rfl) (fun _ h => h) ?_ ?_
  · rintro q h h'; exact hf (by rw [← h'.1, h.1, hn1])
  · intro k hk hk'
    rw [hn1, hn2, show inn.off + 4 * i + 4 * k = inn.off + 4 * (i + k) by omega, hW.words _ (by omega),
      hv _ (by omega)]
  · rintro k m' - ⟨-, h⟩; omega
  · rintro c m' - ⟨-, -, h3, h4⟩; exact ⟨h3, h4⟩

theorem putPDelta_W {fresh : Block} {inn : U32s} {v x : Nat → U32} {prev : U32} {i n : Nat} {m : Mem}
    {nums : U32s} {data : Bytes} {cnt : Int} {pr : U32} (hf : fresh ≠ inn.blk)
    (hv : ∀ t < inn.len, v t = x t - pv x prev t) (hW : WI fresh inn v x m i) (hi : i ≤ inn.len)
    (hn : n = min 4 (inn.len - i)) (hcnt : cnt = n)
    (hn1 : nums.blk = inn.blk) (hn2 : nums.off = inn.off + 4 * i) (hn3 : nums.len = inn.len - i)
    (hd1 : data.blk = fresh) (hd2 : data.off = ctrlLen inn.len + offs v i)
    (hd3 : data.off + data.len = ctrlLen inn.len + 4 * inn.len) (hpr : pr = pv x prev i) :
    wp ⟨inSlice inn, Seg fresh (ctrlLen inn.len + offs v i) (ctrlLen inn.len + offs v (i + n)),
      fun _ _ => False⟩ (putUint32DeltaScalar nums data cnt pr) m (fun c m' =>
        (∀ k < 4, code c k + 1 = if k < n then byteLen (v (i + k)) else 1) ∧
        Stored m' fresh (ctrlLen inn.len) v i (i + n)) := by
  have b0 := offs_bounds v (show 0 ≤ i + n by omega)
  simp only [show offs v 0 = 0 from rfl] at b0
  subst hd1
  refine wp_conseq (putUint32Delta_spec v i (ctrlLen inn.len) nums data cnt pr m n (by omega) hd2 ?_ ?_ ?_)
    (seg_words (by omega) hn1 hn2 rfl) (fun _ h => h) ?_ ?_
  · rintro q h h'; exact hf (by rw [← h'.1, h.1, hn1])
  · intro h
    rw [hn1, hn2, hW.words _ (by omega), hv _ (by omega), hpr]
  · intro k hk hk'
    rw [hn1, hn2, show inn.off + 4 * i + 4 * k = inn.off + 4 * (i + k) by omega,
      show inn.off + 4 * i + 4 * (k + 1) = inn.off + 4 * (i + k + 1) by omega,
      hW.words _ (by omega), hW.words _ (by omega), ← Nat.add_assoc, hv _ (by omega), pv_succ]
  · rintro k m' - ⟨-, h⟩; omega
  · rintro c m' - ⟨-, -, h3, h4⟩; exact ⟨h3, h4⟩

/-! ## `make` -/

theorem zeroFill_spec (b : Block) (o n : Nat) (m : Mem) :
    wp ⟨fun _ => False, Seg b o (o + n), fun _ _ => False⟩ (zeroFill ⟨b, o⟩ n) m
      (fun _ m' => ZeroTail m' b o (o + n)) := by
  induction n generalizing o m with
  | zero => intro o _ _; omega
  | succ n ih =>
    simp only [zeroFill, Prog.bind_eq]
    rw [wp_bind]
    refine wp_store8 ⟨rfl, by simp only; omega, by simp only; omega⟩ ?_
    refine wp_conseq (ih (o + 1) _) (fun _ h => h) ?_ (fun _ _ _ h => h) ?_
    · rintro q ⟨h1, h2, h3⟩; exact ⟨h1, by omega, by omega⟩
    · intro _ m' hfr hz p h1 h2
      by_cases e : p = o
      · subst e
        rw [hfr _ fun h => absurd h.2.1 (by simp only; omega)]
        simp [Mem.set]
      · exact hz p (by omega) (by omega)

theorem makeBytes_W {fresh : Block} {inn : U32s} {v x : Nat → U32} {m : Mem}
    (hT : TablesLoaded m) (hf : fresh ≠ inn.blk) (hc : fresh.isConst = false)
    (hx : ∀ t < inn.len, wordAt m inn.blk (inn.off + 4 * t) = x t) {k : Int}
    (hk : k = ((ctrlLen inn.len + 4 * inn.len : Nat) : Int)) {β : Type} {K : Bytes → Prog β}
    {Q : β → Mem → Prop}
    (hK : ∀ m', WI fresh inn v x m' 0 → wp (wctx fresh inn)
      (K ⟨fresh, 0, ctrlLen inn.len + 4 * inn.len, ctrlLen inn.len + 4 * inn.len⟩) m' Q) :
    wp (wctx fresh inn) ((makeBytes fresh k).bind K) m Q := by
  subst hk
  unfold makeBytes
  rw [if_pos (by omega)]
  simp only [Prog.bind_eq, Prog.pure_eq, Prog.bind_assoc, Prog.ret_bind, Int.toNat_natCast]
  refine wp_call (zeroFill_spec fresh 0 _ m) (fun _ h => h.elim) ?_ (fun _ _ _ h => h) ?_
  · rintro q ⟨h1, h2, h3⟩; exact ⟨h1, by omega, by omega⟩
  rintro _ m1 hf1 hz
  refine hK m1 ⟨⟨hT.frame fun q hq => hf1 q fun h => ?_, fun t ht => ?_, fun g hg => by omega,
    Stored.nil _ _ _ _ _⟩, fun o _ h2 => hz o (Nat.zero_le _) (by omega)⟩
  · rw [h.1, hc] at hq; exact absurd hq (by decide)
  · rw [← hx t ht]
    exact wordAt_congr fun k _ => hf1 _ fun h => hf h.1.symm

end SVB
