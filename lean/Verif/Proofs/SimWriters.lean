import Verif.Proofs.SimLoops

/-! # The writers on an input that changes -/

set_option autoImplicit false
set_option linter.unusedSimpArgs false

namespace SVB
open Spec Asm

variable {fresh : Block} {inn : U32s} {may : Ptr → Byte → Prop}

/-- Equal results, and a number for each index. -/
def Fin (inn : U32s) (a b : Bytes) (ws : List U32) : Prop := a = b ∧ ws.length = inn.len

theorem sim_result {V : Nat → U32 → Prop} (hf : fresh.isConst = false) {n : Nat} {i : Int} {ws : List U32} (hl : ws.length = inn.len)
    (h0 : ((n + 3) / 4 : Nat) + (n : Int) ≤ i) (h4 : i ≤ ((n + 3) / 4 : Nat) + 4 * (n : Int)) :
    Sim fresh inn may V (Fin inn) ws ((⟨fresh, 0, ctrlLen n + 4 * n, ctrlLen n + 4 * n⟩ : Bytes).range 0 i)
      ((⟨fresh, 0, ctrlLen n + 4 * n, ctrlLen n + 4 * n⟩ : Bytes).range 0 i) :=
  (sim_of_tri (hf := hf) (P := fun _ => False) (n_result h0 h4)).mono fun a b ws' ⟨e, e', _⟩ => by
    subst e e'; exact ⟨rfl, hl⟩

theorem WJ.start (n : Nat) (p : U32) : WJ n ⟨0, (ctrlLen n : Int), 0, p⟩ := by
  have hC : ctrlLen n = (n + 3) / 4 := rfl
  exact ⟨by simp, by simp only; omega, by simp only; omega, by simp only; omega, by simp⟩

theorem sim_writeAllScalar (hf : fresh.isConst = false) (hm : ∀ o, ¬ Mine fresh ⟨inn.blk, o⟩) (hlen : inn.len < 2 ^ 60)
    (lc : inn.len ≤ inn.cap) :
    Sim fresh inn may (Rd inn may) (Fin inn) [] (writeAllScalar fresh inn) (writeAllScalar fresh inn) := by
  have hC : ctrlLen inn.len = (inn.len + 3) / 4 := rfl
  unfold writeAllScalar
  simp only [Prog.bind_eq, Prog.pure_eq]
  rw [header_ctrlLen (by omega), header_total (by omega), header_jump (by omega), header_lowest4 (by omega)]
  refine sim_step (hf := hf) (n_make rfl fun q hq _ => hq) ?_
  rintro _ rfl
  have hb : Buf (mineFp fresh hf) inn.len ⟨fresh, 0, ctrlLen inn.len + 4 * inn.len, ctrlLen inn.len + 4 * inn.len⟩ :=
    ⟨⟨Nat.le_refl _, fun q h1 _ _ => h1⟩, by simp only; omega, rfl⟩
  refine Sim.bind (sim_loop (fun s t ws => WR NoP inn.len s t ws ∧ 4 * s.ctrlPos = s.encoded ∧ s.encoded % 16 = 0) ?_ ?_ _ ?_) ?_
  · rintro s t ws ⟨h, -⟩; rw [h.enc]
  · rintro s t ws ⟨h, hc, h16⟩ hlt
    simp only [decide_eq_true_eq] at hlt
    have := h.j.e0
    exact (sim_ws16 hm lc hb h hc (by omega)).mono fun a b ws' ⟨h1, h2, h3⟩ => ⟨h1, h2, by omega⟩
  · exact ⟨⟨rfl, rfl, rfl, WJ.start _ _, by simp, trivial⟩, by simp, by simp⟩
  rintro s1 t1 ws1 ⟨⟨h1, hc1, -⟩, -⟩
  refine Sim.bind (sim_loop (fun s t ws => WR NoP inn.len s t ws ∧ 4 * s.ctrlPos = s.encoded) ?_ ?_ _ ⟨h1, hc1⟩) ?_
  · rintro s t ws ⟨h, -⟩; rw [h.enc]
  · rintro s t ws ⟨h, hc⟩ hlt
    simp only [decide_eq_true_eq] at hlt
    have := h.j.e0
    exact (sim_ws4 hm lc hb h hc (by omega)).mono fun a b ws' ⟨h1, h2, h3⟩ => ⟨h1, h2⟩
  rintro ⟨e, d, c, p⟩ ⟨_, _, _, p'⟩ ws ⟨⟨⟨rfl, rfl, rfl, hJ, hl, hpv⟩, hc⟩, hx⟩
  simp only [decide_eq_false_iff_not] at hx hl hc hpv ⊢
  have e0 := hJ.e0; have en := hJ.en; have d0 := hJ.d0; have d4 := hJ.d4
  simp only at e0 en d0 d4
  have hbl := hb.len
  by_cases hne : ((inn.len / 4 * 4 : Nat) : Int) ≠ inn.len
  · rw [if_pos hne]
    generalize hk : (inn.len : Int) - (inn.len / 4 * 4 : Nat) = k
    refine sim_step (hf := hf) (i_from (inS_self lc) e0 (by omega)) fun n1 h1 => ?_
    rw [show 0 + e.toNat = ws.length by omega] at h1
    refine sim_step (hf := hf) (n_fromW hb.w (by omega) (by simp only at hbl ⊢; omega)) fun d1 ⟨g1, k1⟩ => ?_
    simp only at k1
    refine Sim.bind (sim_putN hm h1 rfl g1 (by omega) (by omega) (by omega) (by omega)) ?_
    rintro cb _ ws2 ⟨rfl, lw, hcc⟩
    refine sim_step (hf := hf) n_size fun z hz => ?_
    have := size_short (n := k.toNat) (by omega) hcc
    refine sim_step (hf := hf) (n_setB hb.w (by omega) (by simp only; omega)) fun _ _ => ?_
    exact sim_result hf (by omega) (by omega) (by omega)
  · rw [if_neg hne]
    exact sim_result hf (by omega) (by omega) (by omega)

theorem sim_writeAllFast (hf : fresh.isConst = false) (hm : ∀ o, ¬ Mine fresh ⟨inn.blk, o⟩) (hlen : inn.len < 2 ^ 60)
    (lc : inn.len ≤ inn.cap) :
    Sim fresh inn may (Rd inn may) (Fin inn) [] (writeAllFast fresh inn) (writeAllFast fresh inn) := by
  have hC : ctrlLen inn.len = (inn.len + 3) / 4 := rfl
  unfold writeAllFast
  simp only [Prog.bind_eq, Prog.pure_eq]
  rw [header_ctrlLen (by omega), header_total (by omega), header_lowest32 (by omega)]
  refine sim_step (hf := hf) (n_make rfl fun q hq _ => hq) ?_
  rintro _ rfl
  have hb : Buf (mineFp fresh hf) inn.len ⟨fresh, 0, ctrlLen inn.len + 4 * inn.len, ctrlLen inn.len + 4 * inn.len⟩ :=
    ⟨⟨Nat.le_refl _, fun q h1 _ _ => h1⟩, by simp only; omega, rfl⟩
  refine Sim.bind (sim_loop (fun s t ws => WR NoP inn.len s t ws ∧ 4 * s.ctrlPos = s.encoded ∧ s.encoded % 32 = 0) ?_ ?_ _ ?_) ?_
  · rintro s t ws ⟨h, -⟩; rw [h.enc]
  · rintro s t ws ⟨h, hc, h16⟩ hlt
    simp only [decide_eq_true_eq] at hlt
    have := h.j.e0
    exact (sim_wf32 hm lc hb h hc (by omega)).mono fun a b ws' ⟨h1, h2, h3⟩ => ⟨h1, h2, by omega⟩
  · exact ⟨⟨rfl, rfl, rfl, WJ.start _ _, by simp, trivial⟩, by simp, by simp⟩
  rintro s1 t1 ws1 ⟨⟨h1, hc1, -⟩, -⟩
  refine Sim.bind (sim_loop (fun s t ws => WR NoP inn.len s t ws ∧ 4 * s.ctrlPos = s.encoded) ?_ ?_ _ ⟨h1, hc1⟩) ?_
  · rintro s t ws ⟨h, -⟩; rw [h.ctrl]
  · rintro s t ws ⟨h, hc⟩ hlt
    simp only [decide_eq_true_eq] at hlt
    have := h.j.e0
    exact (sim_wf8 hm lc hb h hc (by omega)).mono fun a b ws' ⟨h1, h2, h3⟩ => ⟨h1, h2⟩
  rintro s2 t2 ws2 ⟨⟨h2, -⟩, -⟩
  refine Sim.bind (sim_loop (WR NoP inn.len) ?_ ?_ _ h2) ?_
  · rintro s t ws h; rw [h.ctrl]
  · rintro s t ws h hlt
    simp only [decide_eq_true_eq] at hlt
    exact sim_wf1 hm lc hb h hlt
  rintro ⟨e, d, c, p⟩ ⟨_, _, _, p'⟩ ws ⟨⟨rfl, rfl, rfl, hJ, hl, hpv⟩, hx⟩
  simp only [decide_eq_false_iff_not] at hx hl hpv ⊢
  have e0 := hJ.e0; have en := hJ.en; have d0 := hJ.d0; have d4 := hJ.d4; have cp := hJ.cp
  simp only at e0 en d0 d4 cp
  have hn : e = inn.len := by rcases cp with h | h <;> omega
  exact sim_result hf (by omega) (by omega) (by omega)

theorem sim_writeAllDeltaScalar {prev : U32} (hf : fresh.isConst = false) (hm : ∀ o, ¬ Mine fresh ⟨inn.blk, o⟩) (hlen : inn.len < 2 ^ 60)
    (lc : inn.len ≤ inn.cap) :
    Sim fresh inn may (VD inn may prev) (Fin inn) [] (writeAllDeltaScalar fresh inn prev) (writeAllScalar fresh inn) := by
  have hC : ctrlLen inn.len = (inn.len + 3) / 4 := rfl
  unfold writeAllDeltaScalar writeAllScalar
  simp only [Prog.bind_eq, Prog.pure_eq]
  rw [header_ctrlLen (by omega), header_total (by omega), header_jump (by omega), header_lowest4 (by omega)]
  refine sim_step (hf := hf) (n_make rfl fun q hq _ => hq) ?_
  rintro _ rfl
  have hb : Buf (mineFp fresh hf) inn.len ⟨fresh, 0, ctrlLen inn.len + 4 * inn.len, ctrlLen inn.len + 4 * inn.len⟩ :=
    ⟨⟨Nat.le_refl _, fun q h1 _ _ => h1⟩, by simp only; omega, rfl⟩
  refine Sim.bind (sim_loop (fun s t ws => WR (Pv inn may prev) inn.len s t ws ∧ 4 * s.ctrlPos = s.encoded ∧ s.encoded % 16 = 0) ?_ ?_ _ ?_) ?_
  · rintro s t ws ⟨h, -⟩; rw [h.enc]
  · rintro s t ws ⟨h, hc, h16⟩ hlt
    simp only [decide_eq_true_eq] at hlt
    have := h.j.e0
    exact (sim_wds16 hm lc hb h hc (by omega)).mono fun a b ws' ⟨h1, h2, h3⟩ => ⟨h1, h2, by omega⟩
  · exact ⟨⟨rfl, rfl, rfl, WJ.start _ _, by simp, rfl⟩, by simp, by simp⟩
  rintro s1 t1 ws1 ⟨⟨h1, hc1, -⟩, -⟩
  refine Sim.bind (sim_loop (fun s t ws => WR (Pv inn may prev) inn.len s t ws ∧ 4 * s.ctrlPos = s.encoded) ?_ ?_ _ ⟨h1, hc1⟩) ?_
  · rintro s t ws ⟨h, -⟩; rw [h.enc]
  · rintro s t ws ⟨h, hc⟩ hlt
    simp only [decide_eq_true_eq] at hlt
    have := h.j.e0
    exact (sim_wds4 hm lc hb h hc (by omega)).mono fun a b ws' ⟨h1, h2, h3⟩ => ⟨h1, h2⟩
  rintro ⟨e, d, c, p⟩ ⟨_, _, _, p'⟩ ws ⟨⟨⟨rfl, rfl, rfl, hJ, hl, hpv⟩, hc⟩, hx⟩
  simp only [decide_eq_false_iff_not] at hx hl hc hpv ⊢
  have e0 := hJ.e0; have en := hJ.en; have d0 := hJ.d0; have d4 := hJ.d4
  simp only at e0 en d0 d4
  have hbl := hb.len
  by_cases hne : ((inn.len / 4 * 4 : Nat) : Int) ≠ inn.len
  · rw [if_pos hne, if_pos hne]
    generalize hk : (inn.len : Int) - (inn.len / 4 * 4 : Nat) = k
    refine sim_step (hf := hf) (i_from (inS_self lc) e0 (by omega)) fun n1 h1 => ?_
    rw [show 0 + e.toNat = ws.length by omega] at h1
    refine sim_step (hf := hf) (n_fromW hb.w (by omega) (by simp only at hbl ⊢; omega)) fun d1 ⟨g1, k1⟩ => ?_
    simp only at k1
    refine Sim.bind (sim_putND hm h1 rfl g1 (by omega) (by omega) (by omega) (by omega) hpv) ?_
    rintro cb _ ws2 ⟨rfl, lw, hcc⟩
    refine sim_step (hf := hf) n_size fun z hz => ?_
    have := size_short (n := k.toNat) (by omega) hcc
    refine sim_step (hf := hf) (n_setB hb.w (by omega) (by simp only; omega)) fun _ _ => ?_
    exact sim_result hf (by omega) (by omega) (by omega)
  · rw [if_neg hne, if_neg hne]
    exact sim_result hf (by omega) (by omega) (by omega)

theorem sim_writeAllDeltaFast {prev : U32} (hf : fresh.isConst = false) (hm : ∀ o, ¬ Mine fresh ⟨inn.blk, o⟩) (hlen : inn.len < 2 ^ 60)
    (lc : inn.len ≤ inn.cap) :
    Sim fresh inn may (VD inn may prev) (Fin inn) [] (writeAllDeltaFast fresh inn prev) (writeAllFast fresh inn) := by
  have hC : ctrlLen inn.len = (inn.len + 3) / 4 := rfl
  unfold writeAllDeltaFast writeAllFast
  simp only [Prog.bind_eq, Prog.pure_eq]
  rw [header_ctrlLen (by omega), header_total (by omega), header_lowest32 (by omega)]
  refine sim_step (hf := hf) (n_make rfl fun q hq _ => hq) ?_
  rintro _ rfl
  have hb : Buf (mineFp fresh hf) inn.len ⟨fresh, 0, ctrlLen inn.len + 4 * inn.len, ctrlLen inn.len + 4 * inn.len⟩ :=
    ⟨⟨Nat.le_refl _, fun q h1 _ _ => h1⟩, by simp only; omega, rfl⟩
  refine Sim.bind (sim_loop (fun s t ws => WR (Pv inn may prev) inn.len s t ws ∧ 4 * s.ctrlPos = s.encoded ∧ s.encoded % 32 = 0) ?_ ?_ _ ?_) ?_
  · rintro s t ws ⟨h, -⟩; rw [h.enc]
  · rintro s t ws ⟨h, hc, h16⟩ hlt
    simp only [decide_eq_true_eq] at hlt
    have := h.j.e0
    exact (sim_wdf32 hm lc hb h hc (by omega)).mono fun a b ws' ⟨h1, h2, h3⟩ => ⟨h1, h2, by omega⟩
  · exact ⟨⟨rfl, rfl, rfl, WJ.start _ _, by simp, rfl⟩, by simp, by simp⟩
  rintro s1 t1 ws1 ⟨⟨h1, hc1, -⟩, -⟩
  refine Sim.bind (sim_loop (fun s t ws => WR (Pv inn may prev) inn.len s t ws ∧ 4 * s.ctrlPos = s.encoded) ?_ ?_ _ ⟨h1, hc1⟩) ?_
  · rintro s t ws ⟨h, -⟩; rw [h.ctrl]
  · rintro s t ws ⟨h, hc⟩ hlt
    simp only [decide_eq_true_eq] at hlt
    have := h.j.e0
    exact (sim_wdf8 hm lc hb h hc (by omega)).mono fun a b ws' ⟨h1, h2, h3⟩ => ⟨h1, h2⟩
  rintro s2 t2 ws2 ⟨⟨h2, -⟩, -⟩
  refine Sim.bind (sim_loop (WR (Pv inn may prev) inn.len) ?_ ?_ _ h2) ?_
  · rintro s t ws h; rw [h.ctrl]
  · rintro s t ws h hlt
    simp only [decide_eq_true_eq] at hlt
    exact sim_wdf1 hm lc hb h hlt
  rintro ⟨e, d, c, p⟩ ⟨_, _, _, p'⟩ ws ⟨⟨rfl, rfl, rfl, hJ, hl, hpv⟩, hx⟩
  simp only [decide_eq_false_iff_not] at hx hl hpv ⊢
  have e0 := hJ.e0; have en := hJ.en; have d0 := hJ.d0; have d4 := hJ.d4; have cp := hJ.cp
  simp only at e0 en d0 d4 cp
  have hn : e = inn.len := by rcases cp with h | h <;> omega
  exact sim_result hf (by omega) (by omega) (by omega)

end SVB
