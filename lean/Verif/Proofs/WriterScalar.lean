import Verif.Proofs.WriterCommon

/-! # Specifications of the scalar stream writers -/

set_option linter.unusedSimpArgs false

namespace SVB
open Spec Asm

local macro "ar" : tactic => `(tactic| first | omega | (simp only; omega) | (simp only))

theorem wsBody16_spec {fresh : Block} {inn : U32s} {v x : Nat → U32} {i : Nat} {m : Mem} {s : WSt}
    (hf : fresh ≠ inn.blk) (hc : fresh.isConst = false) (hcap : inn.len ≤ inn.cap) (hv : ∀ t < inn.len, v t = x t)
    (hW : WI fresh inn v x m i) (hi : i % 16 = 0) (hi16 : i + 16 ≤ inn.len) (he : s.encoded = i)
    (hd : s.dataPos = ctrlLen inn.len + offs v i) (hcp : s.ctrlPos = (i / 4 : Nat)) :
    wp (wctx fresh inn)
      (wsBody16 inn ⟨fresh, 0, ctrlLen inn.len + 4 * inn.len, ctrlLen inn.len + 4 * inn.len⟩ s) m
      (fun s' m' => WI fresh inn v x m' (i + 16) ∧ s'.encoded = (i + 16 : Nat) ∧
        s'.dataPos = ctrlLen inn.len + offs v (i + 16) ∧ s'.ctrlPos = ((i + 16) / 4 : Nat)) := by
  obtain ⟨g, hg⟩ : ∃ g, i = 4 * g := ⟨i / 4, by omega⟩
  have hC : ctrlLen inn.len = (inn.len + 3) / 4 := rfl
  have o1 := offs_bounds v (show i ≤ i + 4 by omega)
  have o2 := offs_bounds v (show i + 4 ≤ i + 4 + 4 by omega)
  have o3 := offs_bounds v (show i + 4 + 4 ≤ i + 4 + 4 + 4 by omega)
  have o4 := offs_bounds v (show i + 4 + 4 + 4 ≤ i + 4 + 4 + 4 + 4 by omega)
  have o0 := offs_bounds v (show 0 ≤ i by omega)
  simp only [show offs v 0 = 0 from rfl] at o0
  have e16 : offs v (i + 16) = offs v (i + 4 + 4 + 4 + 4) := rfl
  unfold wsBody16
  simp only [Prog.bind_eq, Prog.pure_eq, jump_val, jumpCtrl_val]
  rw [wp_bind]; refine wp_range_ok i (i + 16) he (by omega) (by omega) (by omega) ?_
  rw [wp_bind]; refine wp_from_ok (ctrlLen inn.len + offs v i) (by omega) (by ar) ?_
  rw [wp_bind]; refine wp_range_ok (i / 4) (i / 4 + 4) hcp (by omega) (by omega) (by ar) ?_
  simp only [Nat.one_mul, Nat.zero_add]
  refine step4 (i := i) (g := g + 0) hf hc (by omega) (by omega) hW (put4_W hv hW (by omega) rfl (by ar)
    (by ar) rfl (by ar) (by ar)) 0 rfl rfl (by ar)
    (by ar) fun m1 s0 h1 e0 => ?_
  rw [wp_bind]; refine wp_from_ok 4 rfl (by ar) ?_
  rw [wp_bind]; refine wp_from_ok (s0) (by omega) (by ar) ?_
  refine step4 (i := i + 4) (g := g + 1) hf hc (by omega) (by omega) h1 (put4_W hv h1 (by omega) rfl (by ar)
    (by ar) rfl (by ar) (by ar)) 1 rfl rfl (by ar)
    (by ar) fun m2 s1 h2 e1 => ?_
  rw [wp_bind]; refine wp_from_ok 8 rfl (by ar) ?_
  rw [wp_bind]; refine wp_from_ok (s0+s1) (by omega) (by ar) ?_
  refine step4 (i := i + 4 + 4) (g := g + 2) hf hc (by omega) (by omega) h2 (put4_W hv h2 (by omega) rfl (by ar)
    (by ar) rfl (by ar) (by ar)) 2 rfl rfl (by ar)
    (by ar) fun m3 s2 h3 e2 => ?_
  rw [wp_bind]; refine wp_from_ok 12 rfl (by ar) ?_
  rw [wp_bind]; refine wp_from_ok (s0+s1+s2) (by omega) (by ar) ?_
  refine step4 (i := i + 4 + 4 + 4) (g := g + 3) hf hc (by omega) (by omega) h3 (put4_W hv h3 (by omega) rfl (by ar)
    (by ar) rfl (by ar) (by ar)) 3 rfl rfl (by ar)
    (by ar) fun m4 s3 h4 e3 => ?_
  exact ⟨h4, by ar, by ar, by ar⟩

theorem wsBody4_spec {fresh : Block} {inn : U32s} {v x : Nat → U32} {i : Nat} {m : Mem} {s : WSt}
    (hf : fresh ≠ inn.blk) (hc : fresh.isConst = false) (hv : ∀ t < inn.len, v t = x t)
    (hW : WI fresh inn v x m i) (hi : i % 4 = 0) (hi4 : i + 4 ≤ inn.len) (he : s.encoded = i)
    (hd : s.dataPos = ctrlLen inn.len + offs v i) (hcp : s.ctrlPos = (i / 4 : Nat)) :
    wp (wctx fresh inn)
      (wsBody4 inn ⟨fresh, 0, ctrlLen inn.len + 4 * inn.len, ctrlLen inn.len + 4 * inn.len⟩ s) m
      (fun s' m' => WI fresh inn v x m' (i + 4) ∧ s'.encoded = (i + 4 : Nat) ∧
        s'.dataPos = ctrlLen inn.len + offs v (i + 4) ∧ s'.ctrlPos = ((i + 4) / 4 : Nat)) := by
  obtain ⟨g, hg⟩ : ∃ g, i = 4 * g := ⟨i / 4, by omega⟩
  have hC : ctrlLen inn.len = (inn.len + 3) / 4 := rfl
  have o1 := offs_bounds v (show i ≤ i + 4 by omega)
  have o0 := offs_bounds v (show 0 ≤ i by omega)
  simp only [show offs v 0 = 0 from rfl] at o0
  unfold wsBody4
  simp only [Prog.bind_eq, Prog.pure_eq]
  rw [wp_bind]; refine wp_from_ok i he (by omega) ?_
  rw [wp_bind]; refine wp_from_ok (ctrlLen inn.len + offs v i) (by omega) (by ar) ?_
  simp only [Nat.one_mul, Nat.zero_add]
  refine step4 (i := i) (g := g) hf hc (by omega) (by omega) hW (put4_W hv hW (by omega) rfl rfl
    (by ar) rfl rfl (by ar)) g (by omega) rfl (by ar)
    (by ar) fun m1 s0 h1 e0 => ?_
  exact ⟨h1, by ar, by ar, by ar⟩

theorem writeAllScalar_spec {fresh : Block} {inn : U32s} {v x : Nat → U32} {m : Mem}
    (hT : TablesLoaded m) (hf : fresh ≠ inn.blk) (hc : fresh.isConst = false) (hcap : inn.len ≤ inn.cap)
    (hsm : inn.cap < 2 ^ 60) (hx : ∀ t < inn.len, wordAt m inn.blk (inn.off + 4 * t) = x t)
    (hv : ∀ t < inn.len, v t = x t) (hz : ∀ t, inn.len ≤ t → v t = 0) :
    wp (wctx fresh inn) (writeAllScalar fresh inn) m
      (fun r m' => WI fresh inn v x m' inn.len ∧
        r = ⟨fresh, 0, ctrlLen inn.len + offs v inn.len, ctrlLen inn.len + 4 * inn.len⟩) := by
  have hC : ctrlLen inn.len = (inn.len + 3) / 4 := rfl
  have oN := offs_bounds v (show 0 ≤ inn.len by omega)
  simp only [show offs v 0 = 0 from rfl] at oN
  unfold writeAllScalar
  simp only [Prog.bind_eq, Prog.pure_eq]
  rw [header_ctrlLen (by omega), header_total (by omega), header_jump (by omega), header_lowest4 (by omega)]
  refine makeBytes_W (v := v) (x := x) hT hf hc hx rfl fun m0 h0 => ?_
  rw [wp_bind]
  refine wp_loop (fun (s : WSt) m' => ∃ i, WI fresh inn v x m' i ∧ i % 16 = 0 ∧ i ≤ inn.len / 16 * 16 ∧
      s.encoded = (i : Nat) ∧ s.dataPos = ctrlLen inn.len + offs v i ∧ s.ctrlPos = (i / 4 : Nat))
    (fun s => inn.len - s.encoded.toNat) ?_ ?_ ?_ ?_ ?_
  · rintro s m1 ⟨i, hW, hi, hil, he, hd, hcp⟩ hcond
    simp only [decide_eq_true_eq] at hcond
    refine wp_mono (wsBody16_spec hf hc hcap hv hW hi (by omega) he hd hcp) ?_
    rintro s' m2 ⟨h1, h2, h3, h4⟩
    exact ⟨⟨i + 16, h1, by omega, by omega, h2, h3, h4⟩, by omega⟩
  · rintro s m1 ⟨i, hW, hi, hil, he, hd, hcp⟩ hcond
    simp only [decide_eq_true_eq] at hcond
    omega
  rotate_left
  · exact ⟨0, h0, by omega, by omega, rfl, by simp [show offs v 0 = 0 from rfl], by simp⟩
  · simp
  rintro s m1 ⟨i, hW, hi, hil, he, hd, hcp⟩ hcond
  simp only [decide_eq_false_iff_not] at hcond
  rw [wp_bind]
  refine wp_loop (fun (s : WSt) m' => ∃ i, WI fresh inn v x m' i ∧ i % 4 = 0 ∧ i ≤ inn.len / 4 * 4 ∧
      s.encoded = (i : Nat) ∧ s.dataPos = ctrlLen inn.len + offs v i ∧ s.ctrlPos = (i / 4 : Nat))
    (fun s => inn.len - s.encoded.toNat) ?_ ?_ ?_ ?_ ?_
  · rintro s m1 ⟨i, hW, hi, hil, he, hd, hcp⟩ hcond
    simp only [decide_eq_true_eq] at hcond
    refine wp_mono (wsBody4_spec hf hc hv hW hi (by omega) he hd hcp) ?_
    rintro s' m2 ⟨h1, h2, h3, h4⟩
    exact ⟨⟨i + 4, h1, by omega, by omega, h2, h3, h4⟩, by omega⟩
  · rintro s m1 ⟨i, hW, hi, hil, he, hd, hcp⟩ hcond
    simp only [decide_eq_true_eq] at hcond
    omega
  rotate_left
  · exact ⟨i, hW, by omega, by omega, he, hd, hcp⟩
  · omega
  rintro s m1 ⟨i, hW, hi, hil, he, hd, hcp⟩ hcond
  simp only [decide_eq_false_iff_not] at hcond
  have oi := offs_bounds v (show 0 ≤ i by omega)
  simp only [show offs v 0 = 0 from rfl] at oi
  split
  · rename_i hne
    have hlt : i < inn.len := by omega
    obtain ⟨n, hn⟩ : ∃ n, n = min 4 (inn.len - i) := ⟨_, rfl⟩
    have oin := offs_bounds v (show i ≤ i + n by omega)
    rw [wp_bind]; refine wp_from_ok i he (by omega) ?_
    rw [wp_bind]; refine wp_from_ok (ctrlLen inn.len + offs v i) (by omega) (by ar) ?_
    simp only [Nat.one_mul, Nat.zero_add]
    refine stepP (i := i) (g := i / 4) (n := n) hf hc (by omega) hn hlt hz hW (putP_W hf hv hW (by omega) hn
      (by omega) rfl rfl rfl rfl rfl (by ar)) (i / 4) (by omega) rfl (by ar)
      (by ar) fun m2 sz h2 hsz => ?_
    have hin : i + n = inn.len := by omega
    rw [hin] at h2 hsz
    refine wp_range_ok 0 (ctrlLen inn.len + offs v inn.len) rfl (by omega) (by omega) (by ar) ?_
    exact ⟨h2, by simp⟩
  · rename_i heq
    have hin : i = inn.len := by omega
    subst hin
    refine wp_range_ok 0 (ctrlLen inn.len + offs v inn.len) rfl (by omega) (by omega) (by ar) ?_
    exact ⟨hW, by simp⟩

theorem wdsBody16_spec {fresh : Block} {inn : U32s} {v x : Nat → U32} (prev : U32) {i : Nat} {m : Mem} {s : WSt}
    (hf : fresh ≠ inn.blk) (hc : fresh.isConst = false) (hcap : inn.len ≤ inn.cap) (hv : ∀ t < inn.len, v t = x t - pv x prev t)
    (hW : WI fresh inn v x m i) (hi : i % 16 = 0) (hi16 : i + 16 ≤ inn.len) (he : s.encoded = i)
    (hd : s.dataPos = ctrlLen inn.len + offs v i) (hcp : s.ctrlPos = (i / 4 : Nat))
    (hp : s.prev = pv x prev i) :
    wp (wctx fresh inn)
      (wdsBody16 inn ⟨fresh, 0, ctrlLen inn.len + 4 * inn.len, ctrlLen inn.len + 4 * inn.len⟩ s) m
      (fun s' m' => WI fresh inn v x m' (i + 16) ∧ s'.encoded = (i + 16 : Nat) ∧
        s'.dataPos = ctrlLen inn.len + offs v (i + 16) ∧ s'.ctrlPos = ((i + 16) / 4 : Nat) ∧ s'.prev = pv x prev (i + 16)) := by
  obtain ⟨g, hg⟩ : ∃ g, i = 4 * g := ⟨i / 4, by omega⟩
  have hC : ctrlLen inn.len = (inn.len + 3) / 4 := rfl
  have o1 := offs_bounds v (show i ≤ i + 4 by omega)
  have o2 := offs_bounds v (show i + 4 ≤ i + 4 + 4 by omega)
  have o3 := offs_bounds v (show i + 4 + 4 ≤ i + 4 + 4 + 4 by omega)
  have o4 := offs_bounds v (show i + 4 + 4 + 4 ≤ i + 4 + 4 + 4 + 4 by omega)
  have o0 := offs_bounds v (show 0 ≤ i by omega)
  simp only [show offs v 0 = 0 from rfl] at o0
  have e16 : offs v (i + 16) = offs v (i + 4 + 4 + 4 + 4) := rfl
  have hRW : ∀ a, a < 16 → ∀ k < 4, (wctx fresh inn).R ⟨inn.blk, inn.off + 4 * i + 4 * a + k⟩ :=
    fun a ha k hk => .inl ⟨rfl, by ar, by ar⟩
  have hw : ∀ {m' : Mem} (j : Nat), WI fresh inn v x m' j → ∀ a < 16,
      wordAt m' inn.blk (inn.off + 4 * i + 4 * a) = x (i + a) := fun j h a ha => by
    rw [← h.words (i + a) (by omega)]; congr 1; omega
  unfold wdsBody16
  simp only [Prog.bind_eq, Prog.pure_eq, jump_val, jumpCtrl_val]
  rw [wp_bind]; refine wp_range_ok i (i + 16) he (by omega) (by omega) (by omega) ?_
  rw [wp_bind]; refine wp_from_ok (ctrlLen inn.len + offs v i) (by omega) (by ar) ?_
  rw [wp_bind]; refine wp_range_ok (i / 4) (i / 4 + 4) hcp (by omega) (by omega) (by ar) ?_
  simp only [Nat.one_mul, Nat.zero_add]
  refine step4 (i := i) (g := g + 0) hf hc (by omega) (by omega) hW (put4Delta_W hv hW (by omega) rfl (by ar)
    (by ar) rfl (by ar) (by ar) hp) 0 rfl rfl (by ar)
    (by ar) fun m1 s0 h1 e0 => ?_
  rw [wp_bind]; refine wp_from_ok 4 rfl (by ar) ?_
  rw [wp_bind]; refine wp_from_ok (s0) (by omega) (by ar) ?_
  rw [wp_bind]; refine wp_getW_ok 3 rfl (by ar) (hRW 3 (by omega)) ?_
  rw [hw _ h1 3 (by omega)]
  refine step4 (i := i + 4) (g := g + 1) hf hc (by omega) (by omega) h1 (put4Delta_W hv h1 (by omega) rfl (by ar)
    (by ar) rfl (by ar) (by ar) rfl) 1 rfl rfl (by ar)
    (by ar) fun m2 s1 h2 e1 => ?_
  rw [wp_bind]; refine wp_from_ok 8 rfl (by ar) ?_
  rw [wp_bind]; refine wp_from_ok (s0+s1) (by omega) (by ar) ?_
  rw [wp_bind]; refine wp_getW_ok 7 rfl (by ar) (hRW 7 (by omega)) ?_
  rw [hw _ h2 7 (by omega)]
  refine step4 (i := i + 4 + 4) (g := g + 2) hf hc (by omega) (by omega) h2 (put4Delta_W hv h2 (by omega) rfl (by ar)
    (by ar) rfl (by ar) (by ar) rfl) 2 rfl rfl (by ar)
    (by ar) fun m3 s2 h3 e2 => ?_
  rw [wp_bind]; refine wp_from_ok 12 rfl (by ar) ?_
  rw [wp_bind]; refine wp_from_ok (s0+s1+s2) (by omega) (by ar) ?_
  rw [wp_bind]; refine wp_getW_ok 11 rfl (by ar) (hRW 11 (by omega)) ?_
  rw [hw _ h3 11 (by omega)]
  refine step4 (i := i + 4 + 4 + 4) (g := g + 3) hf hc (by omega) (by omega) h3 (put4Delta_W hv h3 (by omega) rfl (by ar)
    (by ar) rfl (by ar) (by ar) rfl) 3 rfl rfl (by ar)
    (by ar) fun m4 s3 h4 e3 => ?_
  rw [wp_bind]; refine wp_getW_ok 15 rfl (by ar) (hRW 15 (by omega)) ?_
  rw [hw _ h4 15 (by omega)]
  exact ⟨h4, by ar, by ar, by ar, rfl⟩

theorem wdsBody4_spec {fresh : Block} {inn : U32s} {v x : Nat → U32} (prev : U32) {i : Nat} {m : Mem} {s : WSt}
    (hf : fresh ≠ inn.blk) (hc : fresh.isConst = false) (hv : ∀ t < inn.len, v t = x t - pv x prev t)
    (hW : WI fresh inn v x m i) (hi : i % 4 = 0) (hi4 : i + 4 ≤ inn.len) (he : s.encoded = i)
    (hd : s.dataPos = ctrlLen inn.len + offs v i) (hcp : s.ctrlPos = (i / 4 : Nat))
    (hp : s.prev = pv x prev i) :
    wp (wctx fresh inn)
      (wdsBody4 inn ⟨fresh, 0, ctrlLen inn.len + 4 * inn.len, ctrlLen inn.len + 4 * inn.len⟩ s) m
      (fun s' m' => WI fresh inn v x m' (i + 4) ∧ s'.encoded = (i + 4 : Nat) ∧
        s'.dataPos = ctrlLen inn.len + offs v (i + 4) ∧ s'.ctrlPos = ((i + 4) / 4 : Nat) ∧ s'.prev = pv x prev (i + 4)) := by
  obtain ⟨g, hg⟩ : ∃ g, i = 4 * g := ⟨i / 4, by omega⟩
  have hC : ctrlLen inn.len = (inn.len + 3) / 4 := rfl
  have o1 := offs_bounds v (show i ≤ i + 4 by omega)
  have o0 := offs_bounds v (show 0 ≤ i by omega)
  simp only [show offs v 0 = 0 from rfl] at o0
  unfold wdsBody4
  simp only [Prog.bind_eq, Prog.pure_eq]
  rw [wp_bind]; refine wp_from_ok i he (by omega) ?_
  rw [wp_bind]; refine wp_from_ok (ctrlLen inn.len + offs v i) (by omega) (by ar) ?_
  simp only [Nat.one_mul, Nat.zero_add]
  refine step4 (i := i) (g := g) hf hc (by omega) (by omega) hW (put4Delta_W hv hW (by omega) rfl rfl
    (by ar) rfl rfl (by ar) hp) g (by omega) rfl (by ar)
    (by ar) fun m1 s0 h1 e0 => ?_
  rw [wp_bind]; refine wp_getW_ok (i + 3) (by omega) (by omega)
    (fun k hk => .inl ⟨rfl, by ar, by ar⟩) ?_
  rw [h1.words _ (by omega)]
  exact ⟨h1, by ar, by ar, by ar, rfl⟩

theorem writeAllDeltaScalar_spec {fresh : Block} {inn : U32s} {v x : Nat → U32} (prev : U32) {m : Mem}
    (hT : TablesLoaded m) (hf : fresh ≠ inn.blk) (hc : fresh.isConst = false) (hcap : inn.len ≤ inn.cap)
    (hsm : inn.cap < 2 ^ 60) (hx : ∀ t < inn.len, wordAt m inn.blk (inn.off + 4 * t) = x t)
    (hv : ∀ t < inn.len, v t = x t - pv x prev t) (hz : ∀ t, inn.len ≤ t → v t = 0) :
    wp (wctx fresh inn) (writeAllDeltaScalar fresh inn prev) m
      (fun r m' => WI fresh inn v x m' inn.len ∧
        r = ⟨fresh, 0, ctrlLen inn.len + offs v inn.len, ctrlLen inn.len + 4 * inn.len⟩) := by
  have hC : ctrlLen inn.len = (inn.len + 3) / 4 := rfl
  have oN := offs_bounds v (show 0 ≤ inn.len by omega)
  simp only [show offs v 0 = 0 from rfl] at oN
  unfold writeAllDeltaScalar
  simp only [Prog.bind_eq, Prog.pure_eq]
  rw [header_ctrlLen (by omega), header_total (by omega), header_jump (by omega), header_lowest4 (by omega)]
  refine makeBytes_W (v := v) (x := x) hT hf hc hx rfl fun m0 h0 => ?_
  rw [wp_bind]
  refine wp_loop (fun (s : WSt) m' => ∃ i, WI fresh inn v x m' i ∧ i % 16 = 0 ∧ i ≤ inn.len / 16 * 16 ∧
      s.prev = pv x prev i ∧ s.encoded = (i : Nat) ∧ s.dataPos = ctrlLen inn.len + offs v i ∧ s.ctrlPos = (i / 4 : Nat))
    (fun s => inn.len - s.encoded.toNat) ?_ ?_ ?_ ?_ ?_
  · rintro s m1 ⟨i, hW, hi, hil, hp, he, hd, hcp⟩ hcond
    simp only [decide_eq_true_eq] at hcond
    refine wp_mono (wdsBody16_spec prev hf hc hcap hv hW hi (by omega) he hd hcp hp) ?_
    rintro s' m2 ⟨h1, h2, h3, h4, h5⟩
    exact ⟨⟨i + 16, h1, by omega, by omega, h5, h2, h3, h4⟩, by omega⟩
  · rintro s m1 ⟨i, hW, hi, hil, hp, he, hd, hcp⟩ hcond
    simp only [decide_eq_true_eq] at hcond
    omega
  rotate_left
  · exact ⟨0, h0, by omega, by omega, rfl, rfl, by simp [show offs v 0 = 0 from rfl], by simp⟩
  · simp
  rintro s m1 ⟨i, hW, hi, hil, hp, he, hd, hcp⟩ hcond
  simp only [decide_eq_false_iff_not] at hcond
  rw [wp_bind]
  refine wp_loop (fun (s : WSt) m' => ∃ i, WI fresh inn v x m' i ∧ i % 4 = 0 ∧ i ≤ inn.len / 4 * 4 ∧
      s.prev = pv x prev i ∧ s.encoded = (i : Nat) ∧ s.dataPos = ctrlLen inn.len + offs v i ∧ s.ctrlPos = (i / 4 : Nat))
    (fun s => inn.len - s.encoded.toNat) ?_ ?_ ?_ ?_ ?_
  · rintro s m1 ⟨i, hW, hi, hil, hp, he, hd, hcp⟩ hcond
    simp only [decide_eq_true_eq] at hcond
    refine wp_mono (wdsBody4_spec prev hf hc hv hW hi (by omega) he hd hcp hp) ?_
    rintro s' m2 ⟨h1, h2, h3, h4, h5⟩
    exact ⟨⟨i + 4, h1, by omega, by omega, h5, h2, h3, h4⟩, by omega⟩
  · rintro s m1 ⟨i, hW, hi, hil, hp, he, hd, hcp⟩ hcond
    simp only [decide_eq_true_eq] at hcond
    omega
  rotate_left
  · exact ⟨i, hW, by omega, by omega, hp, he, hd, hcp⟩
  · omega
  rintro s m1 ⟨i, hW, hi, hil, hp, he, hd, hcp⟩ hcond
  simp only [decide_eq_false_iff_not] at hcond
  have oi := offs_bounds v (show 0 ≤ i by omega)
  simp only [show offs v 0 = 0 from rfl] at oi
  split
  · rename_i hne
    have hlt : i < inn.len := by omega
    obtain ⟨n, hn⟩ : ∃ n, n = min 4 (inn.len - i) := ⟨_, rfl⟩
    have oin := offs_bounds v (show i ≤ i + n by omega)
    rw [wp_bind]; refine wp_from_ok i he (by omega) ?_
    rw [wp_bind]; refine wp_from_ok (ctrlLen inn.len + offs v i) (by omega) (by ar) ?_
    simp only [Nat.one_mul, Nat.zero_add]
    refine stepP (i := i) (g := i / 4) (n := n) hf hc (by omega) hn hlt hz hW (putPDelta_W hf hv hW (by omega) hn
      (by omega) rfl rfl rfl rfl rfl (by ar) hp) (i / 4) (by omega) rfl (by ar)
      (by ar) fun m2 sz h2 hsz => ?_
    have hin : i + n = inn.len := by omega
    rw [hin] at h2 hsz
    refine wp_range_ok 0 (ctrlLen inn.len + offs v inn.len) rfl (by omega) (by omega) (by ar) ?_
    exact ⟨h2, by simp⟩
  · rename_i heq
    have hin : i = inn.len := by omega
    subst hin
    refine wp_range_ok 0 (ctrlLen inn.len + offs v inn.len) rfl (by omega) (by omega) (by ar) ?_
    exact ⟨hW, by simp⟩

end SVB
