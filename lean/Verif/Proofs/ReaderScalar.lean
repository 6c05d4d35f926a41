import Verif.Proofs.ReaderCommon

/-! # Specifications of the scalar stream readers -/

set_option linter.unusedSimpArgs false

namespace SVB
open Spec Asm

local macro "ar" : tactic => `(tactic| first | omega | (simp only; omega) | (simp only))

theorem rsBody16_spec {st : Bytes} {out : U32s} {n : Nat} {m0 m : Mem} {i : Nat} {Z : Ptr → Prop} {s : RSt}
    (hy : RHyp st out n m0) (hI : RI st out n m0 (rd st n m0) m i) (hi : i % 16 = 0) (hin : i + 16 ≤ n)
    (he : s.decoded = i) (hd : s.dataPos = ctrlLen n + psum (rsz st m0) i) (hcp : s.ctrlPos = (i / 4 : Nat))
    (hle : i = 0 ∨ ¬ Short st n m0 i) :
    wp (rctxP st out n m0 (rd st n m0) (XG st n m0) Z) (rsBody16 st out s) m
      (fun s' m' => RI st out n m0 (rd st n m0) m' (i + 16) ∧ rB st n + psum (rsz st m0) (i + 16) ≤ st.off + st.len ∧
        s'.decoded = (i + 16 : Nat) ∧
        s'.dataPos = ctrlLen n + psum (rsz st m0) (i + 16) ∧ s'.ctrlPos = ((i + 16) / 4 : Nat)) := by
  obtain ⟨g, hg⟩ : ∃ g, i = 4 * g := ⟨i / 4, by omega⟩
  have hC : ctrlLen n = (n + 3) / 4 := rfl
  have hB : rB st n = st.off + ctrlLen n := rfl
  have hlen := hy.len
  have hcap := hy.cap
  have hscap := hy.scap
  have hmono : ∀ j ≤ n, psum (rsz st m0) j ≤ psum (rsz st m0) n := fun j hj => psum_mono hj
  have e16 : psum (rsz st m0) (i + 16) = psum (rsz st m0) (i + 4 + 4 + 4 + 4) := rfl
  unfold rsBody16
  simp only [Prog.bind_eq, Prog.pure_eq, jump_val, jumpCtrl_val]
  rw [wp_bind]
  refine wp_from ?_ (fun h => epanic hI (xG_of hle (by omega) (by omega) (j := i) (by omega) (by omega)) (j := i) (by omega) (.inr rfl) (by omega))
  intro a ha hal
  obtain rfl : a = ctrlLen n + psum (rsz st m0) i := by omega
  rw [wp_bind]; refine wp_range_ok (i / 4) (i / 4 + 4) hcp (by omega) (by omega) (by omega) ?_
  rw [wp_bind]; refine wp_range_ok i (i + 16) he (by omega) (by omega) (by omega) ?_
  simp only [Nat.one_mul]
  rw [wp_bind]; refine wp_getB_ok 0 rfl (by ar) (.inl ⟨rfl, by ar, by ar⟩) ?_
  refine stepR4 (i := i) (g := g + 0) hy (by omega) (by omega) hI (hI.ctrl hy (by ar) (by omega)) (get4_R (g := g + 0) hy hI (by omega) (by omega)
    (hI.ctrl hy (by ar) (by omega)) rfl (by ar) (by ar) rfl (by ar) (by ar) hle) fun m1 s0 h1 e0 l0 => ?_
  rw [wp_bind]; refine wp_getB_ok 1 rfl (by ar) (.inl ⟨rfl, by ar, by ar⟩) ?_
  rw [wp_bind]; refine wp_from_ok (s0) (by omega) (by ar) ?_
  rw [wp_bind]; refine wp_from_ok 4 rfl (by ar) ?_
  refine stepR4 (i := i + 4) (g := g + 1) hy (by omega) (by omega) h1 (h1.ctrl hy (by ar) (by omega)) (get4_R (g := g + 1) hy h1 (by omega) (by omega)
    (h1.ctrl hy (by ar) (by omega)) rfl (by ar) (by ar) rfl (by ar) (by ar) (.inr fun h => h (by omega))) fun m2 s1 h2 e1 l1 => ?_
  rw [wp_bind]; refine wp_getB_ok 2 rfl (by ar) (.inl ⟨rfl, by ar, by ar⟩) ?_
  rw [wp_bind]; refine wp_from_ok (s0+s1) (by omega) (by ar) ?_
  rw [wp_bind]; refine wp_from_ok 8 rfl (by ar) ?_
  refine stepR4 (i := i + 4 + 4) (g := g + 2) hy (by omega) (by omega) h2 (h2.ctrl hy (by ar) (by omega)) (get4_R (g := g + 2) hy h2 (by omega) (by omega)
    (h2.ctrl hy (by ar) (by omega)) rfl (by ar) (by ar) rfl (by ar) (by ar) (.inr fun h => h (by omega))) fun m3 s2 h3 e2 l2 => ?_
  rw [wp_bind]; refine wp_getB_ok 3 rfl (by ar) (.inl ⟨rfl, by ar, by ar⟩) ?_
  rw [wp_bind]; refine wp_from_ok (s0+s1+s2) (by omega) (by ar) ?_
  rw [wp_bind]; refine wp_from_ok 12 rfl (by ar) ?_
  refine stepR4 (i := i + 4 + 4 + 4) (g := g + 3) hy (by omega) (by omega) h3 (h3.ctrl hy (by ar) (by omega)) (get4_R (g := g + 3) hy h3 (by omega) (by omega)
    (h3.ctrl hy (by ar) (by omega)) rfl (by ar) (by ar) rfl (by ar) (by ar) (.inr fun h => h (by omega))) fun m4 s3 h4 e3 l3 => ?_
  exact ⟨h4, by omega, by ar, by ar, by ar⟩

theorem rsBody4_spec {st : Bytes} {out : U32s} {n : Nat} {m0 m : Mem} {i : Nat} {Z : Ptr → Prop} {s : RSt}
    (hy : RHyp st out n m0) (hI : RI st out n m0 (rd st n m0) m i) (hi : i % 4 = 0) (hin : i + 4 ≤ n)
    (he : s.decoded = i) (hd : s.dataPos = ctrlLen n + psum (rsz st m0) i) (hcp : s.ctrlPos = (i / 4 : Nat))
    (hle : i = 0 ∨ ¬ Short st n m0 i) :
    wp (rctxP st out n m0 (rd st n m0) (XG st n m0) Z) (rsBody4 st out s) m
      (fun s' m' => RI st out n m0 (rd st n m0) m' (i + 4) ∧ rB st n + psum (rsz st m0) (i + 4) ≤ st.off + st.len ∧
        s'.decoded = (i + 4 : Nat) ∧
        s'.dataPos = ctrlLen n + psum (rsz st m0) (i + 4) ∧ s'.ctrlPos = ((i + 4) / 4 : Nat)) := by
  obtain ⟨g, hg⟩ : ∃ g, i = 4 * g := ⟨i / 4, by omega⟩
  have hC : ctrlLen n = (n + 3) / 4 := rfl
  have hB : rB st n = st.off + ctrlLen n := rfl
  have hlen := hy.len
  have hcap := hy.cap
  have hscap := hy.scap
  have hmono : ∀ j ≤ n, psum (rsz st m0) j ≤ psum (rsz st m0) n := fun j hj => psum_mono hj
  unfold rsBody4
  simp only [Prog.bind_eq, Prog.pure_eq]
  rw [wp_bind]
  refine wp_getB ?_ (fun h => epanic hI (xG_of hle (by omega) (by omega) (j := i) (by omega) (by omega)) (j := i) (by omega) (.inl rfl) (by omega))
  intro b hb hbl
  obtain rfl : b = g := by omega
  refine ⟨.inl ⟨rfl, by ar, by ar⟩, ?_⟩
  rw [wp_bind]
  refine wp_from ?_ (fun h => epanic hI (xG_of hle (by omega) (by omega) (j := i) (by omega) (by omega)) (j := i) (by omega) (.inr rfl) (by omega))
  intro a ha hal
  obtain rfl : a = ctrlLen n + psum (rsz st m0) i := by omega
  rw [wp_bind]; refine wp_from_ok i he (by omega) ?_
  simp only [Nat.one_mul]
  refine stepR4 (i := i) (g := b) hy (by omega) (by omega) hI (hI.ctrl hy (by ar) (by omega)) (get4_R (g := b) hy hI (by omega) (by omega)
    (hI.ctrl hy (by ar) (by omega)) rfl (by ar) (by ar) rfl (by ar) (by ar) hle) fun m1 s0 h1 e0 l0 => ?_
  exact ⟨h1, by omega, by ar, by ar, by ar⟩

theorem readAllScalar_specP {st : Bytes} {out : U32s} {n : Nat} {m0 : Mem} {Z : Ptr → Prop}
    (hy : RHyp st out n m0) :
    wp (rctxP st out n m0 (rd st n m0) (XG st n m0) Z) (readAllScalar n st out) m0
      (fun _ m' => RI st out n m0 (rd st n m0) m' n ∧ rB st n + psum (rsz st m0) n ≤ st.off + st.len) := by
  have hC : ctrlLen n = (n + 3) / 4 := rfl
  have hB : rB st n = st.off + ctrlLen n := rfl
  have hlen := hy.len
  have hcap := hy.cap
  have hscap := hy.scap
  have hsm := hy.small
  have hp0 : psum (rsz st m0) 0 = 0 := rfl
  unfold readAllScalar
  simp only [Prog.bind_eq, Prog.pure_eq]
  rw [header_ctrlLen (by omega), header_jump (by omega), header_lowest4 (by omega), Int.toNat_natCast]
  rw [wp_bind]
  refine wp_loop (fun (s : RSt) m' => ∃ i, RI st out n m0 (rd st n m0) m' i ∧ i % 16 = 0 ∧ i ≤ n / 16 * 16 ∧
      (i = 0 ∨ rB st n + psum (rsz st m0) i ≤ st.off + st.len) ∧
      s.decoded = (i : Nat) ∧ s.dataPos = ctrlLen n + psum (rsz st m0) i ∧ s.ctrlPos = (i / 4 : Nat))
    (fun s => n - s.decoded.toNat) ?_ ?_ ?_ ?_ ?_
  · rintro s m1 ⟨i, hI, hi, hil, hle, he, hd, hcp⟩ hcond
    simp only [decide_eq_true_eq] at hcond
    refine wp_mono (rsBody16_spec hy hI hi (by omega) he hd hcp (hle.imp_right fun h h' => h' h)) ?_
    rintro s' m2 ⟨h1, h2, h3, h4, h5⟩
    exact ⟨⟨i + 16, h1, by omega, by omega, .inr h2, h3, h4, h5⟩, by omega⟩
  · rintro s m1 ⟨i, hI, hi, hil, hle, he, hd, hcp⟩ hcond
    simp only [decide_eq_true_eq] at hcond
    omega
  rotate_left
  · exact ⟨0, RI.start st out n m0 _, by omega, by omega, .inl rfl, rfl, by simp, by simp⟩
  · omega
  rintro s m1 ⟨i, hI, hi, hil, hle, he, hd, hcp⟩ hcond
  simp only [decide_eq_false_iff_not] at hcond
  rw [wp_bind]
  refine wp_loop (fun (s : RSt) m' => ∃ i, RI st out n m0 (rd st n m0) m' i ∧ i % 4 = 0 ∧ i ≤ n / 4 * 4 ∧
      (i = 0 ∨ rB st n + psum (rsz st m0) i ≤ st.off + st.len) ∧
      s.decoded = (i : Nat) ∧ s.dataPos = ctrlLen n + psum (rsz st m0) i ∧ s.ctrlPos = (i / 4 : Nat))
    (fun s => n - s.decoded.toNat) ?_ ?_ ?_ ?_ ?_
  · rintro s m1 ⟨i, hI, hi, hil, hle, he, hd, hcp⟩ hcond
    simp only [decide_eq_true_eq] at hcond
    refine wp_mono (rsBody4_spec hy hI hi (by omega) he hd hcp (hle.imp_right fun h h' => h' h)) ?_
    rintro s' m2 ⟨h1, h2, h3, h4, h5⟩
    exact ⟨⟨i + 4, h1, by omega, by omega, .inr h2, h3, h4, h5⟩, by omega⟩
  · rintro s m1 ⟨i, hI, hi, hil, hle, he, hd, hcp⟩ hcond
    simp only [decide_eq_true_eq] at hcond
    omega
  rotate_left
  · exact ⟨i, hI, by omega, by omega, hle, he, hd, hcp⟩
  · omega
  rintro s m1 ⟨i, hI, hi, hil, hle, he, hd, hcp⟩ hcond
  simp only [decide_eq_false_iff_not] at hcond
  split
  · rename_i hne
    have hlt : i < n := by omega
    have hle' : i = 0 ∨ ¬ Short st n m0 i := hle.imp_right fun h h' => h' h
    rw [wp_bind]
    refine wp_from ?_ (fun h => epanic hI (xG_tail hle' (by omega) (by omega) (j := i) (by omega) (by omega)) (j := i) (by omega) (.inr rfl) (by omega))
    intro a ha hal
    obtain rfl : a = ctrlLen n + psum (rsz st m0) i := by omega
    rw [wp_bind]; refine wp_from_ok i he (by omega) ?_
    rw [wp_bind]; refine wp_getB_ok (i / 4) hcp (by omega) (.inl ⟨rfl, by ar, by ar⟩) ?_
    simp only [Nat.one_mul]
    rw [wp_bind]
    refine wp_mono (getP_R (g := i / 4) (k := n - i) hy hI (by omega) (by omega) (by omega)
      (by rw [int64_eq (by omega) (by omega)]; omega) (hI.ctrl hy rfl (by omega))
      rfl rfl (by ar) rfl (by ar) (by ar)
      fun j hj h1 h2 => xG_tail (.inr h1) (by omega) (by omega) (Nat.le_refl _) h2) ?_
    rintro r m' ⟨h1, -, h2⟩
    rw [show i + (n - i) = n by omega] at h1 h2
    exact ⟨h1, h2⟩
  · have hin : i = n := by omega
    subst hin
    refine ⟨hI, ?_⟩
    rcases hle with h | h
    · have := congrArg (psum (rsz st m0)) h; omega
    · exact h

theorem readAllScalar_spec {st : Bytes} {out : U32s} {n : Nat} {m0 : Mem} {Z : Ptr → Prop}
    (hy : RHyp st out n m0) :
    wp (rctx st out n m0 Z) (readAllScalar n st out) m0
      (fun _ m' => RI st out n m0 (rd st n m0) m' n ∧ rB st n + psum (rsz st m0) n ≤ st.off + st.len) :=
  rctxP_weaken (readAllScalar_specP hy)

theorem rdsBody16_spec {st : Bytes} {out : U32s} {n : Nat} {m0 m : Mem} {i : Nat} {Z : Ptr → Prop} {s : RSt} (prev : U32)
    (hy : RHyp st out n m0)
    (hZ : ∀ q, Seg out.blk out.off (out.off + 4 * n) q → Z q) (hI : RI st out n m0 (ysum (rd st n m0) prev) m i) (hi : i % 16 = 0) (hin : i + 16 ≤ n)
    (he : s.decoded = i) (hd : s.dataPos = ctrlLen n + psum (rsz st m0) i) (hcp : s.ctrlPos = (i / 4 : Nat))
    (hp : s.prev = pv (ysum (rd st n m0) prev) prev i) (hle : i = 0 ∨ ¬ Short st n m0 i) :
    wp (rctxP st out n m0 (ysum (rd st n m0) prev) (X1 st n m0) Z) (rdsBody16 st out s) m
      (fun s' m' => RI st out n m0 (ysum (rd st n m0) prev) m' (i + 16) ∧ rB st n + psum (rsz st m0) (i + 16) ≤ st.off + st.len ∧
        s'.decoded = (i + 16 : Nat) ∧
        s'.dataPos = ctrlLen n + psum (rsz st m0) (i + 16) ∧ s'.ctrlPos = ((i + 16) / 4 : Nat) ∧ s'.prev = pv (ysum (rd st n m0) prev) prev (i + 16)) := by
  obtain ⟨g, hg⟩ : ∃ g, i = 4 * g := ⟨i / 4, by omega⟩
  have hC : ctrlLen n = (n + 3) / 4 := rfl
  have hB : rB st n = st.off + ctrlLen n := rfl
  have hlen := hy.len
  have hcap := hy.cap
  have hscap := hy.scap
  have hmono : ∀ j ≤ n, psum (rsz st m0) j ≤ psum (rsz st m0) n := fun j hj => psum_mono hj
  have e16 : psum (rsz st m0) (i + 16) = psum (rsz st m0) (i + 4 + 4 + 4 + 4) := rfl
  have hRW : ∀ a, a < 16 → ∀ k < 4, (rctxP st out n m0 (ysum (rd st n m0) prev) (X1 st n m0) Z).R ⟨out.blk, out.off + 4 * i + 4 * a + k⟩ :=
    fun a ha k hk => .inr (.inr (hZ _ ⟨rfl, by ar, by ar⟩))
  have hw : ∀ {m' : Mem} (j : Nat), RI st out n m0 (ysum (rd st n m0) prev) m' j → ∀ a, i + a < j →
      rB st n + psum (rsz st m0) (i + a + 1) ≤ st.off + st.len →
      wordAt m' out.blk (out.off + 4 * i + 4 * a) = ysum (rd st n m0) prev (i + a) := fun j h a ha hle => by
    rw [← h.words (i + a) (by omega) hle]; congr 1; omega
  unfold rdsBody16
  simp only [Prog.bind_eq, Prog.pure_eq, jump_val, jumpCtrl_val]
  rw [wp_bind]
  refine wp_from ?_ (fun h => epanic hI (x1_of hle (by omega) (j := i) (by omega) (by omega)) (j := i) (by omega) (.inr rfl) (by omega))
  intro a ha hal
  obtain rfl : a = ctrlLen n + psum (rsz st m0) i := by omega
  rw [wp_bind]; refine wp_range_ok (i / 4) (i / 4 + 4) hcp (by omega) (by omega) (by omega) ?_
  rw [wp_bind]; refine wp_range_ok i (i + 16) he (by omega) (by omega) (by omega) ?_
  simp only [Nat.one_mul]
  rw [wp_bind]; refine wp_getB_ok 0 rfl (by ar) (.inl ⟨rfl, by ar, by ar⟩) ?_
  refine stepR4 (i := i) (g := g + 0) hy (by omega) (by omega) hI (hI.ctrl hy (by ar) (by omega)) (get4Delta_R (g := g + 0) hy hZ hI (by omega) (by omega)
    (hI.ctrl hy (by ar) (by omega)) rfl (by ar) (by ar) rfl (by ar) (by ar) hp) fun m1 s0 h1 e0 l0 => ?_
  rw [wp_bind]; refine wp_getB_ok 1 rfl (by ar) (.inl ⟨rfl, by ar, by ar⟩) ?_
  rw [wp_bind]; refine wp_from_ok (s0) (by omega) (by ar) ?_
  rw [wp_bind]; refine wp_from_ok 4 rfl (by ar) ?_
  rw [wp_bind]; refine wp_getW_ok 3 rfl (by ar) (hRW 3 (by omega)) ?_
  rw [hw _ h1 3 (by omega) (by omega)]
  refine stepR4 (i := i + 4) (g := g + 1) hy (by omega) (by omega) h1 (h1.ctrl hy (by ar) (by omega)) (get4Delta_R (g := g + 1) hy hZ h1 (by omega) (by omega)
    (h1.ctrl hy (by ar) (by omega)) rfl (by ar) (by ar) rfl (by ar) (by ar) rfl) fun m2 s1 h2 e1 l1 => ?_
  rw [wp_bind]; refine wp_getB_ok 2 rfl (by ar) (.inl ⟨rfl, by ar, by ar⟩) ?_
  rw [wp_bind]; refine wp_from_ok (s0+s1) (by omega) (by ar) ?_
  rw [wp_bind]; refine wp_from_ok 8 rfl (by ar) ?_
  rw [wp_bind]; refine wp_getW_ok 7 rfl (by ar) (hRW 7 (by omega)) ?_
  rw [hw _ h2 7 (by omega) (by omega)]
  refine stepR4 (i := i + 4 + 4) (g := g + 2) hy (by omega) (by omega) h2 (h2.ctrl hy (by ar) (by omega)) (get4Delta_R (g := g + 2) hy hZ h2 (by omega) (by omega)
    (h2.ctrl hy (by ar) (by omega)) rfl (by ar) (by ar) rfl (by ar) (by ar) rfl) fun m3 s2 h3 e2 l2 => ?_
  rw [wp_bind]; refine wp_getB_ok 3 rfl (by ar) (.inl ⟨rfl, by ar, by ar⟩) ?_
  rw [wp_bind]; refine wp_from_ok (s0+s1+s2) (by omega) (by ar) ?_
  rw [wp_bind]; refine wp_from_ok 12 rfl (by ar) ?_
  rw [wp_bind]; refine wp_getW_ok 11 rfl (by ar) (hRW 11 (by omega)) ?_
  rw [hw _ h3 11 (by omega) (by omega)]
  refine stepR4 (i := i + 4 + 4 + 4) (g := g + 3) hy (by omega) (by omega) h3 (h3.ctrl hy (by ar) (by omega)) (get4Delta_R (g := g + 3) hy hZ h3 (by omega) (by omega)
    (h3.ctrl hy (by ar) (by omega)) rfl (by ar) (by ar) rfl (by ar) (by ar) rfl) fun m4 s3 h4 e3 l3 => ?_
  rw [wp_bind]; refine wp_getW_ok 15 rfl (by ar) (hRW 15 (by omega)) ?_
  rw [hw _ h4 15 (by omega) (by omega)]
  exact ⟨h4, by omega, by ar, by ar, by ar, rfl⟩

theorem rdsBody4_spec {st : Bytes} {out : U32s} {n : Nat} {m0 m : Mem} {i : Nat} {Z : Ptr → Prop} {s : RSt} (prev : U32)
    (hy : RHyp st out n m0)
    (hZ : ∀ q, Seg out.blk out.off (out.off + 4 * n) q → Z q) (hI : RI st out n m0 (ysum (rd st n m0) prev) m i) (hi : i % 4 = 0) (hin : i + 4 ≤ n)
    (he : s.decoded = i) (hd : s.dataPos = ctrlLen n + psum (rsz st m0) i) (hcp : s.ctrlPos = (i / 4 : Nat))
    (hp : s.prev = pv (ysum (rd st n m0) prev) prev i) (hle : i = 0 ∨ ¬ Short st n m0 i) :
    wp (rctxP st out n m0 (ysum (rd st n m0) prev) (X1 st n m0) Z) (rdsBody4 st out s) m
      (fun s' m' => RI st out n m0 (ysum (rd st n m0) prev) m' (i + 4) ∧ rB st n + psum (rsz st m0) (i + 4) ≤ st.off + st.len ∧
        s'.decoded = (i + 4 : Nat) ∧
        s'.dataPos = ctrlLen n + psum (rsz st m0) (i + 4) ∧ s'.ctrlPos = ((i + 4) / 4 : Nat) ∧ s'.prev = pv (ysum (rd st n m0) prev) prev (i + 4)) := by
  obtain ⟨g, hg⟩ : ∃ g, i = 4 * g := ⟨i / 4, by omega⟩
  have hC : ctrlLen n = (n + 3) / 4 := rfl
  have hB : rB st n = st.off + ctrlLen n := rfl
  have hlen := hy.len
  have hcap := hy.cap
  have hscap := hy.scap
  have hmono : ∀ j ≤ n, psum (rsz st m0) j ≤ psum (rsz st m0) n := fun j hj => psum_mono hj
  unfold rdsBody4
  simp only [Prog.bind_eq, Prog.pure_eq]
  rw [wp_bind]
  refine wp_getB ?_ (fun h => epanic hI (x1_of hle (by omega) (j := i) (by omega) (by omega)) (j := i) (by omega) (.inl rfl) (by omega))
  intro b hb hbl
  obtain rfl : b = g := by omega
  refine ⟨.inl ⟨rfl, by ar, by ar⟩, ?_⟩
  rw [wp_bind]
  refine wp_from ?_ (fun h => epanic hI (x1_of hle (by omega) (j := i) (by omega) (by omega)) (j := i) (by omega) (.inr rfl) (by omega))
  intro a ha hal
  obtain rfl : a = ctrlLen n + psum (rsz st m0) i := by omega
  rw [wp_bind]; refine wp_from_ok i he (by omega) ?_
  simp only [Nat.one_mul]
  refine stepR4 (i := i) (g := b) hy (by omega) (by omega) hI (hI.ctrl hy (by ar) (by omega)) (get4Delta_R (g := b) hy hZ hI (by omega) (by omega)
    (hI.ctrl hy (by ar) (by omega)) rfl (by ar) (by ar) rfl (by ar) (by ar) hp) fun m1 s0 h1 e0 l0 => ?_
  rw [wp_bind]; refine wp_getW_ok (i + 3) (by omega) (by omega)
    (fun k hk => .inr (.inr (hZ _ ⟨rfl, by ar, by ar⟩))) ?_
  rw [h1.words _ (by omega) (by omega)]
  exact ⟨h1, by omega, by ar, by ar, by ar, rfl⟩

theorem readAllDeltaScalar_specP {st : Bytes} {out : U32s} {n : Nat} {m0 : Mem} {Z : Ptr → Prop} (prev : U32)
    (hy : RHyp st out n m0)
    (hZ : ∀ q, Seg out.blk out.off (out.off + 4 * n) q → Z q) :
    wp (rctxP st out n m0 (ysum (rd st n m0) prev) (X1 st n m0) Z) (readAllDeltaScalar n st out prev) m0
      (fun _ m' => RI st out n m0 (ysum (rd st n m0) prev) m' n ∧ rB st n + psum (rsz st m0) n ≤ st.off + st.len) := by
  have hC : ctrlLen n = (n + 3) / 4 := rfl
  have hB : rB st n = st.off + ctrlLen n := rfl
  have hlen := hy.len
  have hcap := hy.cap
  have hscap := hy.scap
  have hsm := hy.small
  have hp0 : psum (rsz st m0) 0 = 0 := rfl
  unfold readAllDeltaScalar
  simp only [Prog.bind_eq, Prog.pure_eq]
  rw [header_ctrlLen (by omega), header_jump (by omega), header_lowest4 (by omega), Int.toNat_natCast]
  rw [wp_bind]
  refine wp_loop (fun (s : RSt) m' => ∃ i, RI st out n m0 (ysum (rd st n m0) prev) m' i ∧ i % 16 = 0 ∧ i ≤ n / 16 * 16 ∧
      (i = 0 ∨ rB st n + psum (rsz st m0) i ≤ st.off + st.len) ∧
      s.prev = pv (ysum (rd st n m0) prev) prev i ∧ s.decoded = (i : Nat) ∧ s.dataPos = ctrlLen n + psum (rsz st m0) i ∧ s.ctrlPos = (i / 4 : Nat))
    (fun s => n - s.decoded.toNat) ?_ ?_ ?_ ?_ ?_
  · rintro s m1 ⟨i, hI, hi, hil, hle, hp, he, hd, hcp⟩ hcond
    simp only [decide_eq_true_eq] at hcond
    refine wp_mono (rdsBody16_spec prev hy hZ hI hi (by omega) he hd hcp hp (hle.imp_right fun h h' => h' h)) ?_
    rintro s' m2 ⟨h1, h2, h3, h4, h5, h6⟩
    exact ⟨⟨i + 16, h1, by omega, by omega, .inr h2, h6, h3, h4, h5⟩, by omega⟩
  · rintro s m1 ⟨i, hI, hi, hil, hle, hp, he, hd, hcp⟩ hcond
    simp only [decide_eq_true_eq] at hcond
    omega
  rotate_left
  · exact ⟨0, RI.start st out n m0 _, by omega, by omega, .inl rfl, rfl, rfl, by simp, by simp⟩
  · omega
  rintro s m1 ⟨i, hI, hi, hil, hle, hp, he, hd, hcp⟩ hcond
  simp only [decide_eq_false_iff_not] at hcond
  rw [wp_bind]
  refine wp_loop (fun (s : RSt) m' => ∃ i, RI st out n m0 (ysum (rd st n m0) prev) m' i ∧ i % 4 = 0 ∧ i ≤ n / 4 * 4 ∧
      (i = 0 ∨ rB st n + psum (rsz st m0) i ≤ st.off + st.len) ∧
      s.prev = pv (ysum (rd st n m0) prev) prev i ∧ s.decoded = (i : Nat) ∧ s.dataPos = ctrlLen n + psum (rsz st m0) i ∧ s.ctrlPos = (i / 4 : Nat))
    (fun s => n - s.decoded.toNat) ?_ ?_ ?_ ?_ ?_
  · rintro s m1 ⟨i, hI, hi, hil, hle, hp, he, hd, hcp⟩ hcond
    simp only [decide_eq_true_eq] at hcond
    refine wp_mono (rdsBody4_spec prev hy hZ hI hi (by omega) he hd hcp hp (hle.imp_right fun h h' => h' h)) ?_
    rintro s' m2 ⟨h1, h2, h3, h4, h5, h6⟩
    exact ⟨⟨i + 4, h1, by omega, by omega, .inr h2, h6, h3, h4, h5⟩, by omega⟩
  · rintro s m1 ⟨i, hI, hi, hil, hle, hp, he, hd, hcp⟩ hcond
    simp only [decide_eq_true_eq] at hcond
    omega
  rotate_left
  · exact ⟨i, hI, by omega, by omega, hle, hp, he, hd, hcp⟩
  · omega
  rintro s m1 ⟨i, hI, hi, hil, hle, hp, he, hd, hcp⟩ hcond
  simp only [decide_eq_false_iff_not] at hcond
  split
  · rename_i hne
    have hlt : i < n := by omega
    have hle' : i = 0 ∨ ¬ Short st n m0 i := hle.imp_right fun h h' => h' h
    rw [wp_bind]
    refine wp_from ?_ (fun h => epanic hI (x1_of hle' (by omega) (j := i) (by omega) (by omega)) (j := i) (by omega) (.inr rfl) (by omega))
    intro a ha hal
    obtain rfl : a = ctrlLen n + psum (rsz st m0) i := by omega
    rw [wp_bind]; refine wp_from_ok i he (by omega) ?_
    rw [wp_bind]; refine wp_getB_ok (i / 4) hcp (by omega) (.inl ⟨rfl, by ar, by ar⟩) ?_
    simp only [Nat.one_mul]
    rw [wp_bind]
    refine wp_mono (getPDelta_R (g := i / 4) (k := n - i) hy hI (by omega) (by omega) (by omega)
      (by rw [int64_eq (by omega) (by omega)]; omega) (hI.ctrl hy rfl (by omega))
      rfl rfl (by ar) rfl (by ar) (by ar) hp
      fun j hj h1 h2 => x1_of (.inr h1) (by omega) (Nat.le_refl _) h2) ?_
    rintro r m' ⟨h1, -, h2⟩
    rw [show i + (n - i) = n by omega] at h1 h2
    exact ⟨h1, h2⟩
  · have hin : i = n := by omega
    subst hin
    refine ⟨hI, ?_⟩
    rcases hle with h | h
    · have := congrArg (psum (rsz st m0)) h; omega
    · exact h

theorem readAllDeltaScalar_spec {st : Bytes} {out : U32s} {n : Nat} {m0 : Mem} {Z : Ptr → Prop} (prev : U32)
    (hy : RHyp st out n m0)
    (hZ : ∀ q, Seg out.blk out.off (out.off + 4 * n) q → Z q) :
    wp (rctx st out n m0 Z) (readAllDeltaScalar n st out prev) m0
      (fun _ m' => RI st out n m0 (ysum (rd st n m0) prev) m' n ∧ rB st n + psum (rsz st m0) n ≤ st.off + st.len) :=
  rctxP_weaken (readAllDeltaScalar_specP prev hy hZ)

end SVB
