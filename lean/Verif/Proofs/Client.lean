import Verif.Model.Client
import Verif.Proofs.Results
import Verif.Proofs.Blocks

/-! # Callers of the block functions: one block at a time -/

set_option autoImplicit false

namespace SVB
open Spec Asm

local macro "ar" : tactic => `(tactic| first | omega | (simp only; omega) | (simp only))

/-! ## One after the other -/

theorem wp_blocks {σ : Type} {c : Ctx} {step : σ → Portion → Prog σ} {n : Nat} (P : σ → Mem → Nat → Prop)
    (hstep : ∀ s m i b, P s m i → 0 < n - i → b.takes (n - i) ≤ n - i →
      wp c (step s b) m (fun s' m' => P s' m' (i + b.takes (n - i)))) :
    ∀ (bs : List Portion) (s : σ) (m : Mem) (i : Nat), i ≤ n → Covers bs (n - i) → P s m i →
      wp c (blocks step bs s) m (fun s' m' => P s' m' n)
  | [], s, m, i, hi, hc, hP => by
    have : i = n := by have : n - i = 0 := hc; omega
    subst this; exact hP
  | b :: bs, s, m, i, hi, hc, hP => by
    obtain ⟨h1, h2, h3⟩ := hc
    simp only [blocks, Prog.bind_eq]
    rw [wp_bind]
    refine wp_mono (hstep s m i b hP h1 h2) fun s' m' h => ?_
    refine wp_blocks P hstep bs s' m' _ (by omega) ?_ h
    rw [show n - (i + b.takes (n - i)) = n - i - b.takes (n - i) by omega]
    exact h3

/-! ## Encoding -/

section
variable {fresh : Block} {inn : U32s} {v x : Nat → U32} {i : Nat} {m : Mem}

theorem put8_WF (f : Fn) {nums : U32s} {data : Bytes} (hf : fresh ≠ inn.blk) (hc : fresh.isConst = false)
    (hv : ∀ t < inn.len, v t = x t) (hW : WI fresh inn v x m i) (hle : i + 8 ≤ inn.len)
    (hn1 : nums.blk = inn.blk) (hn2 : nums.off = inn.off + 4 * i) (hn3 : 8 ≤ nums.len)
    (hd1 : data.blk = fresh) (hd2 : data.off = ctrlLen inn.len + offs v i)
    (hd3 : data.off + data.len = ctrlLen inn.len + 4 * inn.len) :
    wp ⟨fun q => inSlice inn q ∨ inTables q, encW fresh (ctrlLen inn.len) v i,
      fun _ _ => False⟩ (f.put8 nums data) m (fun c m' =>
        (∀ k < 8, code16 c k + 1 = byteLen (v (i + k))) ∧ Stored m' fresh (ctrlLen inn.len) v i (i + 8) ∧
        ZeroTail m' fresh (ctrlLen inn.len + offs v (i + 8)) (ctrlLen inn.len + offs v (i + 4) + 16)) := by
  have hfast := put8_W (data := data) hv hW hle hn1 hn2 hd1 hd2
  have hs : wp ⟨fun q => inSlice inn q ∨ inTables q, encW fresh (ctrlLen inn.len) v i,
      fun _ _ => False⟩ (put8uint32Scalar nums data) m (fun c m' =>
        (∀ k < 8, code16 c k + 1 = byteLen (v (i + k))) ∧ Stored m' fresh (ctrlLen inn.len) v i (i + 8) ∧
        ZeroTail m' fresh (ctrlLen inn.len + offs v (i + 8)) (ctrlLen inn.len + offs v (i + 4) + 16)) := by
    have b0 := offs_bounds v (show 0 ≤ i + 4 by omega)
    have b1 := offs_bounds v (show i + 4 ≤ i + 8 by omega)
    have b2 := offs_bounds v (show i ≤ i + 4 by omega)
    simp only [show offs v 0 = 0 from rfl] at b0
    subst hd1
    refine wp_conseq (put8_spec v i (ctrlLen inn.len) nums data m hW.tables hc hd2 ?_ fun k hk _ => ?_) ?_ ?_ ?_ ?_
    · rintro q h h'; exact hf (by rw [← h'.1, h.1, hn1])
    · rw [hn1, hn2, show inn.off + 4 * i + 4 * k = inn.off + 4 * (i + k) by omega, hW.words _ (by omega),
        hv _ (by omega)]
    · rintro q (h | h)
      · exact .inl (seg_words hle hn1 hn2 rfl q h)
      · exact .inr h
    · rintro q ⟨h1, h2, h3⟩
      by_cases h : q.off < ctrlLen inn.len + offs v i + 16
      · exact .inl ⟨h1, h2, h⟩
      · exact .inr ⟨h1, by omega, by omega⟩
    · rintro k m' - ⟨-, h⟩; omega
    · rintro c m' hfr ⟨-, -, h3, h4⟩
      refine ⟨h3, h4, fun o h1 h2 => ?_⟩
      rw [hfr _ fun h => absurd h.2.2 (by simp only; omega)]
      exact hW.tail o (by omega) (by omega)
  cases f with
  | scalar => exact hs
  | fast => exact hfast
  | auto c =>
    rcases put8uint32_cases c nums data with e | e <;> simp only [Fn.put8, e]
    · exact hfast
    · exact hs

theorem put8Delta_WF (f : Fn) {prev : U32} {nums : U32s} {data : Bytes} {pr : U32} (hf : fresh ≠ inn.blk)
    (hc : fresh.isConst = false)
    (hv : ∀ t < inn.len, v t = x t - pv x prev t) (hW : WI fresh inn v x m i) (hle : i + 8 ≤ inn.len)
    (hn1 : nums.blk = inn.blk) (hn2 : nums.off = inn.off + 4 * i) (hn3 : 8 ≤ nums.len)
    (hd1 : data.blk = fresh) (hd2 : data.off = ctrlLen inn.len + offs v i)
    (hd3 : data.off + data.len = ctrlLen inn.len + 4 * inn.len) (hpr : pr = pv x prev i) :
    wp ⟨fun q => inSlice inn q ∨ inTables q, encW fresh (ctrlLen inn.len) v i,
      fun _ _ => False⟩ (f.put8Delta nums data pr) m (fun c m' =>
        (∀ k < 8, code16 c k + 1 = byteLen (v (i + k))) ∧ Stored m' fresh (ctrlLen inn.len) v i (i + 8) ∧
        ZeroTail m' fresh (ctrlLen inn.len + offs v (i + 8)) (ctrlLen inn.len + offs v (i + 4) + 16)) := by
  have hfast := put8Delta_W (data := data) hv hW hle hn1 hn2 hd1 hd2 hpr
  have hs : wp ⟨fun q => inSlice inn q ∨ inTables q, encW fresh (ctrlLen inn.len) v i,
      fun _ _ => False⟩ (put8uint32DeltaScalar nums data pr) m (fun c m' =>
        (∀ k < 8, code16 c k + 1 = byteLen (v (i + k))) ∧ Stored m' fresh (ctrlLen inn.len) v i (i + 8) ∧
        ZeroTail m' fresh (ctrlLen inn.len + offs v (i + 8)) (ctrlLen inn.len + offs v (i + 4) + 16)) := by
    have b0 := offs_bounds v (show 0 ≤ i + 4 by omega)
    have b1 := offs_bounds v (show i + 4 ≤ i + 8 by omega)
    have b2 := offs_bounds v (show i ≤ i + 4 by omega)
    simp only [show offs v 0 = 0 from rfl] at b0
    subst hd1
    refine wp_conseq (put8Delta_spec v i (ctrlLen inn.len) nums data pr m hW.tables hc hd2 ?_ (fun _ => ?_)
      fun k hk _ => ?_) ?_ ?_ ?_ ?_
    · rintro q h h'; exact hf (by rw [← h'.1, h.1, hn1])
    · rw [hn1, hn2, hW.words _ (by omega), hv _ (by omega), hpr]
    · rw [hn1, hn2, show inn.off + 4 * i + 4 * k = inn.off + 4 * (i + k) by omega,
        show inn.off + 4 * i + 4 * (k + 1) = inn.off + 4 * (i + k + 1) by omega,
        hW.words _ (by omega), hW.words _ (by omega), ← Nat.add_assoc, hv _ (by omega), pv_succ]
    · rintro q (h | h)
      · exact .inl (seg_words hle hn1 hn2 rfl q h)
      · exact .inr h
    · rintro q ⟨h1, h2, h3⟩
      by_cases h : q.off < ctrlLen inn.len + offs v i + 16
      · exact .inl ⟨h1, h2, h⟩
      · exact .inr ⟨h1, by omega, by omega⟩
    · rintro k m' - ⟨-, h⟩; omega
    · rintro c m' hfr ⟨-, -, h3, h4⟩
      refine ⟨h3, h4, fun o h1 h2 => ?_⟩
      rw [hfr _ fun h => absurd h.2.2 (by simp only; omega)]
      exact hW.tail o (by omega) (by omega)
  cases f with
  | scalar => exact hs
  | fast => exact hfast
  | auto c =>
    rcases put8uint32Delta_cases c nums data pr with e | e <;> simp only [Fn.put8Delta, e]
    · exact hfast
    · exact hs

/-- After `i` numbers. -/
def WP (fresh : Block) (inn : U32s) (v x : Nat → U32) (s : WSt) (m : Mem) (i : Nat) : Prop :=
  WI fresh inn v x m i ∧ (i % 4 = 0 ∨ i = inn.len) ∧ i ≤ inn.len ∧ s.encoded = (i : Nat) ∧
    s.dataPos = ctrlLen inn.len + offs v i ∧ s.ctrlPos = ((i + 3) / 4 : Nat)

theorem putPortion_spec {s : WSt} (hf : fresh ≠ inn.blk) (hc : fresh.isConst = false)
    (hv : ∀ t < inn.len, v t = x t) (hz : ∀ t, inn.len ≤ t → v t = 0) (b : Portion)
    (hP : WP fresh inn v x s m i) (h0 : 0 < inn.len - i) (ht : b.takes (inn.len - i) ≤ inn.len - i) :
    wp (wctx fresh inn)
      (putPortion inn ⟨fresh, 0, ctrlLen inn.len + 4 * inn.len, ctrlLen inn.len + 4 * inn.len⟩ s b) m
      (fun s' m' => WP fresh inn v x s' m' (i + b.takes (inn.len - i))) := by
  obtain ⟨hW, hi, hil, he, hd, hcp⟩ := hP
  obtain ⟨g, hg⟩ : ∃ g, i = 4 * g := ⟨i / 4, by omega⟩
  have hC : ctrlLen inn.len = (inn.len + 3) / 4 := rfl
  have o0 := offs_bounds v (show 0 ≤ i by omega)
  simp only [show offs v 0 = 0 from rfl] at o0
  cases b with
  | eight f =>
    simp only [Portion.takes] at ht ⊢
    have o1 := offs_bounds v (show i ≤ i + 8 by omega)
    unfold putPortion
    simp only [Prog.bind_eq, Prog.pure_eq]
    rw [wp_bind]; refine wp_from_ok i he (by omega) ?_
    rw [wp_bind]; refine wp_from_ok (ctrlLen inn.len + offs v i) (by omega) (by ar) ?_
    simp only [Nat.one_mul, Nat.zero_add]
    refine step8 (i := i) (g := g) hf hc (by omega) (by omega) hW (put8_WF f hf hc hv hW (by omega) rfl rfl
      (by ar) rfl rfl (by ar)) g (by omega) (by omega) rfl (by ar)
      (by ar) fun m1 s0 h1 e0 => ?_
    exact ⟨h1, by omega, by omega, by ar, by ar, by ar⟩
  | four =>
    simp only [Portion.takes] at ht ⊢
    refine wp_mono (wsBody4_spec hf hc hv hW (by omega) (by omega) he hd (by omega)) ?_
    rintro s' m' ⟨h1, h2, h3, h4⟩
    exact ⟨h1, by omega, by omega, h2, h3, by omega⟩
  | rest =>
    simp only [Portion.takes] at ht ⊢
    refine wp_mono (wfBody1_spec hf hc hv hz hW (by omega) (by omega) rfl he hd (by omega)) ?_
    rintro s' m' ⟨h1, h2, h3, h4⟩
    exact ⟨h1, by omega, by omega, h2, h3, by omega⟩

theorem putPortionDelta_spec {s : WSt} {prev : U32} (hf : fresh ≠ inn.blk) (hc : fresh.isConst = false)
    (hv : ∀ t < inn.len, v t = x t - pv x prev t) (hz : ∀ t, inn.len ≤ t → v t = 0) (b : Portion)
    (hP : WP fresh inn v x s m i ∧ s.prev = pv x prev i) (h0 : 0 < inn.len - i)
    (ht : b.takes (inn.len - i) ≤ inn.len - i) :
    wp (wctx fresh inn)
      (putPortionDelta inn ⟨fresh, 0, ctrlLen inn.len + 4 * inn.len, ctrlLen inn.len + 4 * inn.len⟩ s b) m
      (fun s' m' => WP fresh inn v x s' m' (i + b.takes (inn.len - i)) ∧
        s'.prev = pv x prev (i + b.takes (inn.len - i))) := by
  obtain ⟨⟨hW, hi, hil, he, hd, hcp⟩, hp⟩ := hP
  obtain ⟨g, hg⟩ : ∃ g, i = 4 * g := ⟨i / 4, by omega⟩
  have hC : ctrlLen inn.len = (inn.len + 3) / 4 := rfl
  have o0 := offs_bounds v (show 0 ≤ i by omega)
  simp only [show offs v 0 = 0 from rfl] at o0
  cases b with
  | eight f =>
    simp only [Portion.takes] at ht ⊢
    have o1 := offs_bounds v (show i ≤ i + 8 by omega)
    unfold putPortionDelta
    simp only [Prog.bind_eq, Prog.pure_eq]
    rw [wp_bind]; refine wp_from_ok i he (by omega) ?_
    rw [wp_bind]; refine wp_from_ok (ctrlLen inn.len + offs v i) (by omega) (by ar) ?_
    simp only [Nat.one_mul, Nat.zero_add]
    refine step8 (i := i) (g := g) hf hc (by omega) (by omega) hW (put8Delta_WF f hf hc hv hW (by omega) rfl rfl
      (by ar) rfl rfl (by ar) hp) g (by omega) (by omega) rfl (by ar)
      (by ar) fun m1 s0 h1 e0 => ?_
    rw [wp_bind]; refine wp_getW_ok (i + 7) (by omega) (by omega)
      (fun k hk => .inl ⟨rfl, by ar, by ar⟩) ?_
    rw [h1.words _ (by omega)]
    exact ⟨⟨h1, by omega, by omega, by ar, by ar, by ar⟩, rfl⟩
  | four =>
    simp only [Portion.takes] at ht ⊢
    have o1 := offs_bounds v (show i ≤ i + 4 by omega)
    unfold putPortionDelta
    simp only [Prog.bind_eq, Prog.pure_eq]
    rw [wp_bind]; refine wp_from_ok i he (by omega) ?_
    rw [wp_bind]; refine wp_from_ok (ctrlLen inn.len + offs v i) (by omega) (by ar) ?_
    simp only [Nat.one_mul, Nat.zero_add]
    refine step4 (i := i) (g := g) hf hc (by omega) (by omega) hW (put4Delta_W hv hW (by omega) rfl rfl
      (by ar) rfl rfl (by ar) hp) g (by omega) rfl (by ar)
      (by ar) fun m1 s0 h1 e0 => ?_
    rw [wp_bind]; refine wp_getW_ok (i + 3) (by omega) (by omega)
      (fun k hk => .inl ⟨rfl, by ar, by ar⟩) ?_
    rw [h1.words _ (by omega)]
    exact ⟨⟨h1, by omega, by omega, by ar, by ar, by ar⟩, rfl⟩
  | rest =>
    simp only [Portion.takes] at ht ⊢
    generalize hn : min 4 (inn.len - i) = n at *
    have o1 := offs_bounds v (show i ≤ i + n by omega)
    unfold putPortionDelta
    simp only [Prog.bind_eq, Prog.pure_eq]
    rw [wp_bind]; refine wp_from_ok i he (by omega) ?_
    rw [wp_bind]; refine wp_from_ok (ctrlLen inn.len + offs v i) (by omega) (by ar) ?_
    simp only [Nat.one_mul, Nat.zero_add]
    have hnums : (if (inn.len : Int) - s.encoded > 4 then 4 else (inn.len : Int) - s.encoded) = (n : Int) := by
      split <;> omega
    rw [hnums]
    refine stepP (i := i) (g := g) (n := n) hf hc (by omega) hn.symm (by omega) hz hW (putPDelta_W hf hv hW (by omega) hn.symm
        rfl rfl rfl rfl rfl rfl (by ar) hp) (i / 4) (by omega) rfl (by ar)
        (by ar) fun m1 sz h1 hsz => ?_
    rw [wp_bind]; refine wp_getW_ok (i + n - 1) (by omega) (by omega)
      (fun k hk => .inl ⟨rfl, by ar, by ar⟩) ?_
    rw [h1.words _ (by omega)]
    refine ⟨⟨h1, by omega, by omega, by ar, by ar, by ar⟩, ?_⟩
    show _ = pv x prev (i + n)
    rw [show i + n = (i + n - 1) + 1 by omega, pv_succ, show i + n - 1 + 1 - 1 = i + n - 1 by omega]

end

theorem goDiv_ctrlLen (n : Nat) : goDiv ((n : Int) + 3) 4 = (ctrlLen n : Int) := by
  unfold goDiv ctrlLen
  rw [show ((n : Int) + 3) = ((n + 3 : Nat) : Int) by omega]
  exact (Int.ofNat_tdiv _ _).symm

theorem encodeBy_spec {fresh : Block} {inn : U32s} {v x : Nat → U32} {m : Mem} {bs : List Portion}
    (hb : Covers bs inn.len)
    (hT : TablesLoaded m) (hf : fresh ≠ inn.blk) (hc : fresh.isConst = false)
    (hx : ∀ t < inn.len, wordAt m inn.blk (inn.off + 4 * t) = x t)
    (hv : ∀ t < inn.len, v t = x t) (hz : ∀ t, inn.len ≤ t → v t = 0) :
    wp (wctx fresh inn) (encodeBy bs fresh inn) m
      (fun r m' => WI fresh inn v x m' inn.len ∧
        r = ⟨fresh, 0, ctrlLen inn.len + offs v inn.len, ctrlLen inn.len + 4 * inn.len⟩) := by
  have oN := offs_bounds v (show 0 ≤ inn.len by omega)
  simp only [show offs v 0 = 0 from rfl] at oN
  unfold encodeBy
  simp only [Prog.bind_eq]
  rw [goDiv_ctrlLen]
  refine makeBytes_W (v := v) (x := x) hT hf hc hx (by omega) fun m0 h0 => ?_
  rw [wp_bind]
  refine wp_mono (wp_blocks (n := inn.len) (WP fresh inn v x)
    (fun s m i b hP h0 ht => putPortion_spec hf hc hv hz b hP h0 ht) bs _ m0 0 (by omega) hb
    ⟨h0, by omega, by omega, rfl, by simp [show offs v 0 = 0 from rfl], by simp⟩) ?_
  rintro s m1 ⟨hW, -, -, he, hd, hcp⟩
  refine wp_range_ok 0 (ctrlLen inn.len + offs v inn.len) rfl (by omega) (by omega) (by ar) ?_
  exact ⟨hW, by simp⟩

theorem encodeDeltaBy_spec {fresh : Block} {inn : U32s} {v x : Nat → U32} {m : Mem} {bs : List Portion} (prev : U32)
    (hb : Covers bs inn.len)
    (hT : TablesLoaded m) (hf : fresh ≠ inn.blk) (hc : fresh.isConst = false)
    (hx : ∀ t < inn.len, wordAt m inn.blk (inn.off + 4 * t) = x t)
    (hv : ∀ t < inn.len, v t = x t - pv x prev t) (hz : ∀ t, inn.len ≤ t → v t = 0) :
    wp (wctx fresh inn) (encodeDeltaBy bs fresh inn prev) m
      (fun r m' => WI fresh inn v x m' inn.len ∧
        r = ⟨fresh, 0, ctrlLen inn.len + offs v inn.len, ctrlLen inn.len + 4 * inn.len⟩) := by
  have oN := offs_bounds v (show 0 ≤ inn.len by omega)
  simp only [show offs v 0 = 0 from rfl] at oN
  unfold encodeDeltaBy
  simp only [Prog.bind_eq]
  rw [goDiv_ctrlLen]
  refine makeBytes_W (v := v) (x := x) hT hf hc hx (by omega) fun m0 h0 => ?_
  rw [wp_bind]
  refine wp_mono (wp_blocks (n := inn.len) (fun s m i => WP fresh inn v x s m i ∧ s.prev = pv x prev i)
    (fun s m i b hP h0 ht => putPortionDelta_spec hf hc hv hz b hP h0 ht) bs _ m0 0 (by omega) hb
    ⟨⟨h0, by omega, by omega, rfl, by simp [show offs v 0 = 0 from rfl], by simp⟩, rfl⟩) ?_
  rintro s m1 ⟨⟨hW, -, -, he, hd, hcp⟩, -⟩
  refine wp_range_ok 0 (ctrlLen inn.len + offs v inn.len) rfl (by omega) (by omega) (by ar) ?_
  exact ⟨hW, by simp⟩

theorem encodeBy_result {bs : List Portion} {fresh : Block} {inn : U32s} {m : Mem} (hb : Covers bs inn.len)
    (h : WriterPre fresh inn m) : WriteResult (encodeBy bs fresh inn) fresh inn (wordsOf m inn) m := by
  have hl := wordsOf_length m inn
  exact writeResult_of_wp hl (encodeBy_spec (v := fn (wordsOf m inn)) (x := fn (wordsOf m inn)) hb h.tables
    h.fresh_ne h.fresh_heap (words_of m inn) (fun _ _ => rfl) (fn_zero hl))

theorem encodeDeltaBy_result {bs : List Portion} {fresh : Block} {inn : U32s} {m : Mem} (prev : U32)
    (hb : Covers bs inn.len) (h : WriterPre fresh inn m) :
    WriteResult (encodeDeltaBy bs fresh inn prev) fresh inn (delta prev (wordsOf m inn)) m := by
  have hl' := wordsOf_length m inn
  have hl : (delta prev (wordsOf m inn)).length = inn.len := by rw [delta_length, hl']
  have hv : ∀ t < inn.len, fn (delta prev (wordsOf m inn)) t =
      fn (wordsOf m inn) t - pv (fn (wordsOf m inn)) prev t := fun t ht =>
    delta_fn prev _ t (by rw [hl']; exact ht)
  exact writeResult_of_wp hl (encodeDeltaBy_spec (x := fn (wordsOf m inn)) prev hb h.tables
      h.fresh_ne h.fresh_heap (words_of m inn) hv (fn_zero hl))

/-! ## Decoding -/

section
variable {st : Bytes} {out : U32s} {n : Nat} {m0 m : Mem} {y : Nat → U32} {i : Nat}

/-- What decoding a complete stream may touch: it stores into `out[0:n]` and does not panic. -/
def dctx (out : U32s) (n : Nat) : Ctx :=
  ⟨fun _ => True, Seg out.blk out.off (out.off + 4 * n), fun _ _ => False⟩

/-- The stream is long enough. -/
def Full (st : Bytes) (n : Nat) (m0 : Mem) : Prop := rB st n + psum (rsz st m0) n ≤ st.off + st.len

theorem Full.le (h : Full st n m0) {j : Nat} (hj : j ≤ n) : rB st n + psum (rsz st m0) j ≤ st.off + st.len := by
  have := psum_mono (f := rsz st m0) hj
  unfold Full at h
  omega

theorem wp_full {α : Type} {X : Nat → Prop} {Z : Ptr → Prop} {p : Prog α} {Q : α → Mem → Prop} (h : Full st n m0)
    (hp : wp (rctxP st out n m0 y X Z) p m Q) : wp (dctx out n) p m Q :=
  wp_conseq hp (fun _ _ => trivial) (fun _ h => h) (fun _ _ _ hk => hk.1.2 h) fun _ _ _ h => h

/-- The decoder of eight numbers, any variant. -/
theorem get8_RF (f : Fn) {nums : U32s} {data : Bytes} {g : Nat} {c0 c1 : Byte} (hF : Full st n m0)
    (hy : RHyp st out n m0) (hdj : Disjoint st out)
    (hI : RI st out n m0 (rd st n m0) m i) (hi : i = 4 * g) (hin : i + 8 ≤ n)
    (h0 : c0 = m0 ⟨st.blk, st.off + g⟩) (h1 : c1 = m0 ⟨st.blk, st.off + (g + 1)⟩)
    (hn1 : nums.blk = out.blk) (hn2 : nums.off = out.off + 4 * i) (hn3 : nums.len = out.len - i)
    (hd1 : data.blk = st.blk) (hd2 : data.off = rB st n + psum (rsz st m0) i)
    (hd3 : data.off + data.len = st.off + st.len) :
    wp ⟨fun _ => True, Seg out.blk (out.off + 4 * i) (out.off + 4 * (i + 8)), fun _ _ => False⟩
      (f.get8 data nums (mk16 c0 c1)) m
      (fun _ m' => ∀ k < 8, wordAt m' out.blk (out.off + 4 * (i + k)) = rd st n m0 (i + k)) := by
  have hlen := hy.len
  have hfast : wp ⟨fun _ => True, Seg out.blk (out.off + 4 * i) (out.off + 4 * (i + 8)), fun _ _ => False⟩
      (get8uint32Fast data nums (mk16 c0 c1)) m
      (fun _ m' => ∀ k < 8, wordAt m' out.blk (out.off + 4 * (i + k)) = rd st n m0 (i + k)) := by
    refine wp_conseq (get8Fast_spec (rsz st m0) (rd st n m0) i (rB st n) (st.off + st.len) data nums _ m
      (hI.tables hy) (code16_mk16 hi h0 h1) hd2 (hd1 ▸ hI.declim hy i (i + 8))) (fun _ _ => trivial) ?_
      (fun _ _ _ h => h) ?_
    · rintro q ⟨h1, h2, h3⟩; exact ⟨by rw [h1, hn1], by omega, by omega⟩
    · rintro _ m' - h k hk
      rw [← h k hk (hF.le (by omega)), hn1, hn2]; congr 1; omega
  have hs : wp ⟨fun _ => True, Seg out.blk (out.off + 4 * i) (out.off + 4 * (i + 8)), fun _ _ => False⟩
      (get8uint32Scalar data nums (mk16 c0 c1)) m
      (fun _ m' => ∀ k < 8, wordAt m' out.blk (out.off + 4 * (i + k)) = rd st n m0 (i + k)) := by
    have hle := hF.le (j := i + 8) (by omega)
    refine wp_conseq (get8_spec (rsz st m0) (rd st n m0) i (rB st n) data nums _ m
      (hI.tables hy) (by rw [hn1]; exact hy.hout) (code16_mk16 hi h0 h1) hd2
      (by rw [hd3, hd1]; exact hI.declim hy i (i + 8)) ?_) (fun _ _ => trivial) ?_ ?_ ?_
    · rintro q ⟨a1, a2, a3⟩ ⟨b1, b2, b3⟩
      have hB : rB st n = st.off + ctrlLen n := rfl
      rcases hdj with h | h | h
      · exact h (by rw [← hd1, ← hn1, ← a1, ← b1])
      · omega
      · omega
    · rintro q ⟨h1, h2, h3⟩; exact ⟨by rw [h1, hn1], by omega, by omega⟩
    · rintro k m' - ⟨-, h⟩; omega
    · rintro _ m' - ⟨-, -, h⟩ k hk
      rw [← h k hk, hn1, hn2]; congr 1; omega
  cases f with
  | scalar => exact hs
  | fast => exact hfast
  | auto c =>
    rcases get8uint32_cases c data nums (mk16 c0 c1) with e | e <;> simp only [Fn.get8, e]
    · exact hfast
    · exact hs

theorem get8Delta_RF (f : Fn) {prev : U32} {nums : U32s} {data : Bytes} {g : Nat} {c0 c1 : Byte} {pr : U32}
    (hF : Full st n m0)
    (hy : RHyp st out n m0) (hdj : Disjoint st out)
    (hI : RI st out n m0 (ysum (rd st n m0) prev) m i) (hi : i = 4 * g) (hin : i + 8 ≤ n)
    (h0 : c0 = m0 ⟨st.blk, st.off + g⟩) (h1 : c1 = m0 ⟨st.blk, st.off + (g + 1)⟩)
    (hn1 : nums.blk = out.blk) (hn2 : nums.off = out.off + 4 * i) (hn3 : nums.len = out.len - i)
    (hd1 : data.blk = st.blk) (hd2 : data.off = rB st n + psum (rsz st m0) i)
    (hd3 : data.off + data.len = st.off + st.len) (hpr : pr = pv (ysum (rd st n m0) prev) prev i) :
    wp ⟨fun _ => True, Seg out.blk (out.off + 4 * i) (out.off + 4 * (i + 8)), fun _ _ => False⟩
      (f.get8Delta data nums (mk16 c0 c1) pr) m
      (fun _ m' => ∀ k < 8, wordAt m' out.blk (out.off + 4 * (i + k)) = ysum (rd st n m0) prev (i + k)) := by
  have hlen := hy.len
  have hfast : wp ⟨fun _ => True, Seg out.blk (out.off + 4 * i) (out.off + 4 * (i + 8)), fun _ _ => False⟩
      (get8uint32DeltaFast data nums (mk16 c0 c1) pr) m
      (fun _ m' => ∀ k < 8, wordAt m' out.blk (out.off + 4 * (i + k)) = ysum (rd st n m0) prev (i + k)) := by
    refine wp_conseq (get8DeltaFast_spec (rsz st m0) (rd st n m0) (ysum (rd st n m0) prev) i (rB st n)
      (st.off + st.len) data nums _ pr m
      (hI.tables hy) (code16_mk16 hi h0 h1) hd2 (hd1 ▸ hI.declim hy i (i + 8))
      (fun _ => by rw [hpr]; exact ysum_pv _ _ _) (fun _ _ => rfl)) (fun _ _ => trivial) ?_
      (fun _ _ _ h => h) ?_
    · rintro q ⟨h1, h2, h3⟩; exact ⟨by rw [h1, hn1], by omega, by omega⟩
    · rintro _ m' - h k hk
      rw [← h k hk (hF.le (by omega)), hn1, hn2]; congr 1; omega
  have hs : wp ⟨fun _ => True, Seg out.blk (out.off + 4 * i) (out.off + 4 * (i + 8)), fun _ _ => False⟩
      (get8uint32DeltaScalar data nums (mk16 c0 c1) pr) m
      (fun _ m' => ∀ k < 8, wordAt m' out.blk (out.off + 4 * (i + k)) = ysum (rd st n m0) prev (i + k)) := by
    have hle := hF.le (j := i + 8) (by omega)
    refine wp_conseq (get8Delta_spec (rsz st m0) (rd st n m0) (ysum (rd st n m0) prev) i (rB st n) data nums _ pr m
      (hI.tables hy) (by rw [hn1]; exact hy.hout) (code16_mk16 hi h0 h1) hd2
      (by rw [hd3, hd1]; exact hI.declim hy i (i + 8)) ?_ (by rw [hpr]; exact ysum_pv _ _ _) (fun _ _ => rfl))
      (fun _ _ => trivial) ?_ ?_ ?_
    · rintro q ⟨a1, a2, a3⟩ ⟨b1, b2, b3⟩
      have hB : rB st n = st.off + ctrlLen n := rfl
      rcases hdj with h | h | h
      · exact h (by rw [← hd1, ← hn1, ← a1, ← b1])
      · omega
      · omega
    · rintro q ⟨h1, h2, h3⟩; exact ⟨by rw [h1, hn1], by omega, by omega⟩
    · rintro k m' - ⟨-, h⟩; omega
    · rintro _ m' - ⟨-, -, h⟩ k hk
      rw [← h k hk, hn1, hn2]; congr 1; omega
  cases f with
  | scalar => exact hs
  | fast => exact hfast
  | auto c =>
    rcases get8uint32Delta_cases c data nums (mk16 c0 c1) pr with e | e <;> simp only [Fn.get8Delta, e]
    · exact hfast
    · exact hs

/-- After the decoder of eight numbers: the size look-up. -/
theorem stepRF {β : Type} {p : Prog Unit} {c0 c1 : Byte} {g : Nat} {K : Int → Prog β} {Q : β → Mem → Prop}
    (hy : RHyp st out n m0) (hi : i = 4 * g) (hin : i + 8 ≤ n) (hI : RI st out n m0 y m i)
    (h0 : c0 = m0 ⟨st.blk, st.off + g⟩) (h1 : c1 = m0 ⟨st.blk, st.off + (g + 1)⟩)
    (hp : wp ⟨fun _ => True, Seg out.blk (out.off + 4 * i) (out.off + 4 * (i + 8)), fun _ _ => False⟩ p m
      (fun _ m' => ∀ k < 8, wordAt m' out.blk (out.off + 4 * (i + k)) = y (i + k)))
    (hK : ∀ m' (sz : Nat), RI st out n m0 y m' (i + 8) → psum (rsz st m0) i + sz = psum (rsz st m0) (i + 8) →
      wp (dctx out n) (K (sz : Int)) m' Q) :
    wp (dctx out n) (p.bind fun _ => (controlByteToSizeTwo (mk16 c0 c1)).bind K) m Q := by
  refine wp_call hp (fun _ h => trivial) ?_ (fun _ _ _ h => h.elim) ?_
  · rintro q ⟨h1, h2, h3⟩; exact ⟨h1, by omega, by omega⟩
  rintro _ m1 hf1 hw
  have hI1 : RI st out n m0 y m1 (i + 8) := hI.extend (by omega) hf1 fun t ht _ => hw t ht
  refine wp_call (controlByteToSizeTwo_spec (mk16 c0 c1) _ (hI1.tables hy)) (fun _ _ => trivial) (fun _ h => h.elim)
    (fun _ _ _ h => h.elim) ?_
  rintro _ _ - ⟨rfl, rfl⟩
  refine hK _ _ hI1 ?_
  have e := code16_mk16 (st := st) (m0 := m0) hi h0 h1
  have hlo : Sizes (lo8 (mk16 c0 c1)) (rsz st m0) i :=
    ⟨fun k hk => by rw [← e k (by omega)]; exact congrArg (· + 1) (code16_lo _ k hk)⟩
  have hhi : Sizes (hi8 (mk16 c0 c1)) (rsz st m0) (i + 4) :=
    ⟨fun k hk => by
      rw [show i + 4 + k = i + (k + 4) by omega, ← e (k + 4) (by omega)]
      exact congrArg (· + 1) (code16_hi _ k hk)⟩
  have t1 := hlo.total
  have t2 := hhi.total
  rw [show i + 8 = i + 4 + 4 by omega]
  omega

/-- After `i` numbers. -/
def RP (st : Bytes) (out : U32s) (n : Nat) (m0 : Mem) (y : Nat → U32) (s : RSt) (m : Mem) (i : Nat) : Prop :=
  RI st out n m0 y m i ∧ (i % 4 = 0 ∨ i = n) ∧ i ≤ n ∧ s.decoded = (i : Nat) ∧
    s.dataPos = ctrlLen n + psum (rsz st m0) i ∧ s.ctrlPos = ((i + 3) / 4 : Nat)

theorem getPortion_spec {s : RSt} (hF : Full st n m0) (hy : RHyp st out n m0) (hdj : Disjoint st out) (b : Portion)
    (hP : RP st out n m0 (rd st n m0) s m i) (h0 : 0 < n - i) (ht : b.takes (n - i) ≤ n - i) :
    wp (dctx out n) (getPortion n st out s b) m
      (fun s' m' => RP st out n m0 (rd st n m0) s' m' (i + b.takes (n - i))) := by
  obtain ⟨hI, hi, hil, he, hd, hcp⟩ := hP
  obtain ⟨g, hg⟩ : ∃ g, i = 4 * g := ⟨i / 4, by omega⟩
  have hC : ctrlLen n = (n + 3) / 4 := rfl
  have hB : rB st n = st.off + ctrlLen n := rfl
  have hlen := hy.len
  have hle := hF.le (j := i) (by omega)
  have hS : ∀ j ≤ n, ¬ Short st n m0 j := fun j hj hs => hs (hF.le hj)
  cases b with
  | eight f =>
    simp only [Portion.takes] at ht ⊢
    unfold getPortion
    simp only [Prog.bind_eq, Prog.pure_eq]
    rw [wp_bind]; refine wp_getB ?_ (fun h => by omega)
    intro b hb hbl
    obtain rfl : b = g := by omega
    refine ⟨trivial, ?_⟩
    rw [wp_bind]; refine wp_getB ?_ (fun h => by omega)
    intro b' hb' hbl'
    obtain rfl : b' = b + 1 := by omega
    refine ⟨trivial, ?_⟩
    rw [wp_bind]; refine wp_from_ok (ctrlLen n + psum (rsz st m0) i) (by omega) (by ar) ?_
    rw [wp_bind]; refine wp_from_ok i he (by omega) ?_
    simp only [Nat.one_mul]
    refine stepRF (i := i) (g := b) hy hg (by omega) hI (hI.ctrl hy (by ar) (by omega)) (hI.ctrl hy (by ar) (by omega))
      (get8_RF f hF hy hdj hI hg (by omega) (hI.ctrl hy (by ar) (by omega)) (hI.ctrl hy (by ar) (by omega)) rfl (by ar) (by ar)
        rfl (by ar) (by ar)) fun m1 sz h1 e => ?_
    exact ⟨h1, by omega, by omega, by ar, by ar, by ar⟩
  | four =>
    simp only [Portion.takes] at ht ⊢
    refine wp_mono (wp_full hF (rsBody4_spec (Z := fun _ => True) hy hI (by omega) (by omega) he hd (by omega)
      (.inr (hS i (by omega))))) ?_
    rintro s' m' ⟨h1, -, h2, h3, h4⟩
    exact ⟨h1, by omega, by omega, h2, h3, by omega⟩
  | rest =>
    simp only [Portion.takes] at ht ⊢
    generalize hk : min 4 (n - i) = k at *
    have hnums : (if (n : Int) - s.decoded > 4 then 4 else (n : Int) - s.decoded) = (k : Int) := by
      split <;> omega
    unfold getPortion
    simp only [Prog.bind_eq, Prog.pure_eq]
    rw [hnums]
    rw [wp_bind]; refine wp_getB ?_ (fun h => by omega)
    intro b hb hbl
    obtain rfl : b = g := by omega
    refine ⟨trivial, ?_⟩
    rw [wp_bind]; refine wp_from_ok (ctrlLen n + psum (rsz st m0) i) (by omega) (by ar) ?_
    rw [wp_bind]; refine wp_from_ok i he (by omega) ?_
    simp only [Nat.one_mul]
    rw [wp_bind]
    refine wp_mono (wp_full hF (getP_R (X := fun _ => True) (Z := fun _ => True) (g := b) hy hI hg hk.symm hil rfl
      (hI.ctrl hy (by ar) (by omega)) rfl (by ar) (by ar) rfl (by ar) (by ar) (fun _ _ _ _ => trivial))) ?_
    rintro r m' ⟨h1, h2, h3⟩
    exact ⟨h1, by omega, by omega, by ar, by ar, by ar⟩

theorem getPortionDelta_spec {s : RSt} {prev : U32} (hF : Full st n m0) (hy : RHyp st out n m0) (hdj : Disjoint st out)
    (b : Portion)
    (hP : RP st out n m0 (ysum (rd st n m0) prev) s m i ∧ s.prev = pv (ysum (rd st n m0) prev) prev i)
    (h0 : 0 < n - i) (ht : b.takes (n - i) ≤ n - i) :
    wp (dctx out n) (getPortionDelta n st out s b) m
      (fun s' m' => RP st out n m0 (ysum (rd st n m0) prev) s' m' (i + b.takes (n - i)) ∧
        s'.prev = pv (ysum (rd st n m0) prev) prev (i + b.takes (n - i))) := by
  obtain ⟨⟨hI, hi, hil, he, hd, hcp⟩, hp⟩ := hP
  obtain ⟨g, hg⟩ : ∃ g, i = 4 * g := ⟨i / 4, by omega⟩
  have hC : ctrlLen n = (n + 3) / 4 := rfl
  have hB : rB st n = st.off + ctrlLen n := rfl
  have hlen := hy.len
  have hle := hF.le (j := i) (by omega)
  have hS : ∀ j ≤ n, ¬ Short st n m0 j := fun j hj hs => hs (hF.le hj)
  cases b with
  | eight f =>
    simp only [Portion.takes] at ht ⊢
    unfold getPortionDelta
    simp only [Prog.bind_eq, Prog.pure_eq]
    rw [wp_bind]; refine wp_getB ?_ (fun h => by omega)
    intro b hb hbl
    obtain rfl : b = g := by omega
    refine ⟨trivial, ?_⟩
    rw [wp_bind]; refine wp_getB ?_ (fun h => by omega)
    intro b' hb' hbl'
    obtain rfl : b' = b + 1 := by omega
    refine ⟨trivial, ?_⟩
    rw [wp_bind]; refine wp_from_ok (ctrlLen n + psum (rsz st m0) i) (by omega) (by ar) ?_
    rw [wp_bind]; refine wp_from_ok i he (by omega) ?_
    simp only [Nat.one_mul]
    refine stepRF (i := i) (g := b) hy hg (by omega) hI (hI.ctrl hy (by ar) (by omega)) (hI.ctrl hy (by ar) (by omega))
      (get8Delta_RF f hF hy hdj hI hg (by omega) (hI.ctrl hy (by ar) (by omega)) (hI.ctrl hy (by ar) (by omega)) rfl (by ar)
        (by ar) rfl (by ar) (by ar) hp) fun m1 sz h1 e => ?_
    rw [wp_bind]; refine wp_getW_ok (i + 7) (by omega) (by omega) (fun k hk => trivial) ?_
    exact ⟨⟨h1, by omega, by omega, by ar, by ar, by ar⟩, (h1.words (i + 7) (by omega) (hF.le (by omega))).trans rfl⟩
  | four =>
    simp only [Portion.takes] at ht ⊢
    refine wp_mono (wp_full hF (rdsBody4_spec (Z := fun _ => True) prev hy (fun _ _ => trivial) hI (by omega) (by omega)
      he hd (by omega) hp (.inr (hS i (by omega))))) ?_
    rintro s' m' ⟨h1, -, h2, h3, h4, h5⟩
    exact ⟨⟨h1, by omega, by omega, h2, h3, by omega⟩, h5⟩
  | rest =>
    simp only [Portion.takes] at ht ⊢
    generalize hk : min 4 (n - i) = k at *
    have hnums : (if (n : Int) - s.decoded > 4 then 4 else (n : Int) - s.decoded) = (k : Int) := by
      split <;> omega
    unfold getPortionDelta
    simp only [Prog.bind_eq, Prog.pure_eq]
    rw [hnums]
    rw [wp_bind]; refine wp_getB ?_ (fun h => by omega)
    intro b hb hbl
    obtain rfl : b = g := by omega
    refine ⟨trivial, ?_⟩
    rw [wp_bind]; refine wp_from_ok (ctrlLen n + psum (rsz st m0) i) (by omega) (by ar) ?_
    rw [wp_bind]; refine wp_from_ok i he (by omega) ?_
    simp only [Nat.one_mul]
    rw [wp_bind]
    refine wp_mono (wp_full hF (getPDelta_R (X := fun _ => True) (Z := fun _ => True) (g := b) hy hI hg hk.symm hil rfl
      (hI.ctrl hy (by ar) (by omega)) rfl (by ar) (by ar) rfl (by ar) (by ar) hp (fun _ _ _ _ => trivial))) ?_
    rintro r m' ⟨h1, h2, h3⟩
    rw [wp_bind]; refine wp_getW_ok (i + k - 1) (by omega) (by omega) (fun k hk => trivial) ?_
    refine ⟨⟨h1, by omega, by omega, by ar, by ar, by ar⟩, ?_⟩
    rw [h1.words (i + k - 1) (by omega) (hF.le (by omega))]
    show _ = pv _ prev (i + k)
    rw [show i + k = (i + k - 1) + 1 by omega, pv_succ, show i + k - 1 + 1 - 1 = i + k - 1 by omega]

theorem decodeBy_spec {bs : List Portion} (hb : Covers bs n) (hF : Full st n m0) (hy : RHyp st out n m0)
    (hdj : Disjoint st out) :
    wp (dctx out n) (decodeBy bs n st out) m0 (fun _ m' => RI st out n m0 (rd st n m0) m' n) := by
  unfold decodeBy
  simp only [Prog.bind_eq]
  rw [goDiv_ctrlLen, wp_bind]
  refine wp_mono (wp_blocks (n := n) (RP st out n m0 (rd st n m0))
    (fun s m i b hP h0 ht => getPortion_spec hF hy hdj b hP h0 ht) bs _ m0 0 (by omega) hb
    ⟨RI.start _ _ _ _ _, by omega, by omega, rfl, by simp, by simp⟩) ?_
  rintro s m1 ⟨hI, -⟩
  exact hI

theorem decodeDeltaBy_spec {bs : List Portion} (prev : U32) (hb : Covers bs n) (hF : Full st n m0) (hy : RHyp st out n m0)
    (hdj : Disjoint st out) :
    wp (dctx out n) (decodeDeltaBy bs n st out prev) m0
      (fun _ m' => RI st out n m0 (ysum (rd st n m0) prev) m' n) := by
  unfold decodeDeltaBy
  simp only [Prog.bind_eq]
  rw [goDiv_ctrlLen, wp_bind]
  refine wp_mono (wp_blocks (n := n)
    (fun s m i => RP st out n m0 (ysum (rd st n m0) prev) s m i ∧ s.prev = pv (ysum (rd st n m0) prev) prev i)
    (fun s m i b hP h0 ht => getPortionDelta_spec hF hy hdj b hP h0 ht) bs _ m0 0 (by omega) hb
    ⟨⟨RI.start _ _ _ _ _, by omega, by omega, rfl, by simp, by simp⟩, rfl⟩) ?_
  rintro s m1 ⟨⟨hI, -⟩, -⟩
  exact hI

end

theorem decode_result {p : Prog Unit} {st : Bytes} {out : U32s} {n : Nat} {m : Mem} {y : Nat → U32}
    (hF : Full st n m) (h : wp (dctx out n) p m (fun _ m' => RI st out n m y m' n)) :
    ∃ m', run p m = (.ok (), m') ∧ wordsN m' out n = (List.range n).map y ∧ ∀ q, ¬ inFirst out n q → m' q = m q := by
  obtain ⟨⟨⟩, m', hr, hI, hf, -⟩ := run_of_wp h (fun _ _ h => h)
  exact ⟨m', hr, wordsN_eq fun t ht => hI.words t ht (hF.le (by omega)), hf⟩

theorem decodeBy_result {bs : List Portion} {n : Nat} {st : Bytes} {out : U32s} {m : Mem} {xs : List U32}
    (hb : Covers bs n) (h : ReaderPre n st out m) (hx : decode n (bytesOf m st) = some xs) :
    ∃ m', run (decodeBy bs n st out) m = (.ok (), m') ∧ wordsN m' out n = xs ∧ ∀ q, ¬ inFirst out n q → m' q = m q := by
  rw [decode_eq] at hx
  split at hx
  next hF =>
    cases hx
    exact decode_result hF (decodeBy_spec hb hF h.rhyp h.disj)
  next => cases hx

theorem decodeDeltaBy_result {bs : List Portion} {n : Nat} {st : Bytes} {out : U32s} {m : Mem} {xs : List U32} (prev : U32)
    (hb : Covers bs n) (h : ReaderPre n st out m) (hx : decodeDelta prev n (bytesOf m st) = some xs) :
    ∃ m', run (decodeDeltaBy bs n st out prev) m = (.ok (), m') ∧ wordsN m' out n = xs ∧
      ∀ q, ¬ inFirst out n q → m' q = m q := by
  rw [decodeDelta_eq] at hx
  split at hx
  next hF =>
    cases hx
    exact decode_result hF (decodeDeltaBy_spec prev hb hF h.rhyp h.disj)
  next => cases hx

end SVB
