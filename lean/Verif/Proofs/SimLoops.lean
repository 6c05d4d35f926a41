import Verif.Proofs.SimAsm

/-! # Loops of the writers on an input that changes -/

set_option autoImplicit false
set_option linter.unusedSimpArgs false
set_option linter.unusedVariables false

namespace SVB
open Spec Asm

variable {fresh : Block} {inn : U32s} {may : Ptr → Byte → Prop} {V : Nat → U32 → Prop}

/-- Loop states of a writer on both sides. -/
structure WR (PV : Nat → U32 → Prop) (n : Nat) (s t : WSt) (ws : List U32) : Prop where
  enc : s.encoded = t.encoded
  data : s.dataPos = t.dataPos
  ctrl : s.ctrlPos = t.ctrlPos
  j : WJ n s
  len : s.encoded = ws.length
  pv : PV ws.length s.prev

/-- The same at a point where only full groups are done, `k` numbers further than `e`. -/
def WRG (PV : Nat → U32 → Prop) (n : Nat) (e : Int) (k : Nat) (s t : WSt) (ws : List U32) : Prop :=
  WR PV n s t ws ∧ 4 * s.ctrlPos = s.encoded ∧ s.encoded = e + k

/-- `prev` does not matter for the plain writers. -/
abbrev NoP (_ : Nat) (_ : U32) : Prop := True

section
variable {hf : fresh.isConst = false} {st : Bytes} {s t : WSt} {ws : List U32} {prev : U32}

theorem inS_self (lc : inn.len ≤ inn.cap) : InS inn inn 0 inn.len := ⟨rfl, rfl, rfl, lc⟩

theorem sim_ws16 (hm : ∀ o, ¬ Mine fresh ⟨inn.blk, o⟩) (lc : inn.len ≤ inn.cap) (hb : Buf (mineFp fresh hf) inn.len st)
    (h : WR NoP inn.len s t ws) (hc : 4 * s.ctrlPos = s.encoded) (hn : s.encoded + 16 ≤ inn.len) :
    Sim fresh inn may (Rd inn may) (WRG NoP inn.len s.encoded 16) ws (wsBody16 inn st s) (wsBody16 inn st t) := by
  obtain ⟨h1, h2, h3, hJ, hlen, hpv⟩ := h
  obtain ⟨e, d, c, p⟩ := s
  obtain ⟨_, _, _, p'⟩ := t
  obtain rfl := h1; obtain rfl := h2; obtain rfl := h3
  simp only at hc hn hlen hpv
  have hl := hb.len; have e0 := hJ.e0; have d0 := hJ.d0; have d4 := hJ.d4
  simp only at e0 d0 d4
  unfold wsBody16
  simp only [Prog.bind_eq, Prog.pure_eq, jump_val, jumpCtrl_val]
  refine sim_step (hf := hf) (i_range (inS_self lc) e0 (by omega) hn) fun nums hnums => ?_
  rw [show (e + 16).toNat - e.toNat = 16 by omega, show 0 + e.toNat = ws.length by omega] at hnums
  refine sim_step (hf := hf) (n_fromW hb.w (by omega) (by omega)) fun data ⟨hd, dl⟩ => ?_
  refine sim_step (hf := hf) (n_rangeW hb.w (by omega) (by omega) (by omega)) fun ctrls ⟨hct, cl⟩ => ?_
  refine Sim.bind (sim_put4 hm hnums (by omega) (by omega) hd (by omega)) ?_
  rintro c0 _ ws0 ⟨rfl, lw0⟩
  refine sim_step (hf := hf) (n_setB hct (by omega) (by omega)) fun _ _ => ?_
  refine sim_step (hf := hf) tri_size fun z0 hz0 => ?_
  refine sim_step (hf := hf) (i_from hnums (by omega) (by omega)) fun n1 hn1 => ?_
  simp only [Int.reduceToNat, Nat.reduceSub] at hn1
  refine sim_step (hf := hf) (n_fromW hd (by omega) (by omega)) fun d1 ⟨g1, k1⟩ => ?_
  refine Sim.bind (sim_put4 hm hn1 (by omega) (by omega) g1 (by omega)) ?_
  rintro c1 _ ws1 ⟨rfl, lw1⟩
  refine sim_step (hf := hf) (n_setB hct (by omega) (by omega)) fun _ _ => ?_
  refine sim_step (hf := hf) tri_size fun z1 hz1 => ?_
  refine sim_step (hf := hf) (i_from hnums (by omega) (by omega)) fun n2 hn2 => ?_
  simp only [Int.reduceToNat, Nat.reduceSub] at hn2
  refine sim_step (hf := hf) (n_fromW hd (by omega) (by omega)) fun d2 ⟨g2, k2⟩ => ?_
  refine Sim.bind (sim_put4 hm hn2 (by omega) (by omega) g2 (by omega)) ?_
  rintro c2 _ ws2 ⟨rfl, lw2⟩
  refine sim_step (hf := hf) (n_setB hct (by omega) (by omega)) fun _ _ => ?_
  refine sim_step (hf := hf) tri_size fun z2 hz2 => ?_
  refine sim_step (hf := hf) (i_from hnums (by omega) (by omega)) fun n3 hn3 => ?_
  simp only [Int.reduceToNat, Nat.reduceSub] at hn3
  refine sim_step (hf := hf) (n_fromW hd (by omega) (by omega)) fun d3 ⟨g3, k3⟩ => ?_
  refine Sim.bind (sim_put4 hm hn3 (by omega) (by omega) g3 (by omega)) ?_
  rintro c3 _ ws3 ⟨rfl, lw3⟩
  refine sim_step (hf := hf) (n_setB hct (by omega) (by omega)) fun _ _ => ?_
  refine sim_step (hf := hf) tri_size fun z3 hz3 => ?_
  refine .ret ⟨⟨rfl, rfl, rfl, hJ.next (k := 16) (g := 4) rfl hc hn (by omega) (by omega), by simp only; omega, ?_⟩, by simp only; omega, rfl⟩
  trivial

theorem sim_wds16 (hm : ∀ o, ¬ Mine fresh ⟨inn.blk, o⟩) (lc : inn.len ≤ inn.cap) (hb : Buf (mineFp fresh hf) inn.len st)
    (h : WR (Pv inn may prev) inn.len s t ws) (hc : 4 * s.ctrlPos = s.encoded) (hn : s.encoded + 16 ≤ inn.len) :
    Sim fresh inn may (VD inn may prev) (WRG (Pv inn may prev) inn.len s.encoded 16) ws (wdsBody16 inn st s) (wsBody16 inn st t) := by
  obtain ⟨h1, h2, h3, hJ, hlen, hpv⟩ := h
  obtain ⟨e, d, c, p⟩ := s
  obtain ⟨_, _, _, p'⟩ := t
  obtain rfl := h1; obtain rfl := h2; obtain rfl := h3
  simp only at hc hn hlen hpv
  have hl := hb.len; have e0 := hJ.e0; have d0 := hJ.d0; have d4 := hJ.d4
  simp only at e0 d0 d4
  unfold wdsBody16 wsBody16
  simp only [Prog.bind_eq, Prog.pure_eq, jump_val, jumpCtrl_val]
  refine sim_step (hf := hf) (i_range (inS_self lc) e0 (by omega) hn) fun nums hnums => ?_
  rw [show (e + 16).toNat - e.toNat = 16 by omega, show 0 + e.toNat = ws.length by omega] at hnums
  refine sim_step (hf := hf) (n_fromW hb.w (by omega) (by omega)) fun data ⟨hd, dl⟩ => ?_
  refine sim_step (hf := hf) (n_rangeW hb.w (by omega) (by omega) (by omega)) fun ctrls ⟨hct, cl⟩ => ?_
  refine Sim.bind (sim_put4D hm hnums (by omega) (by omega) hd (by omega) hpv) ?_
  rintro c0 _ ws0 ⟨rfl, lw0⟩
  refine sim_step (hf := hf) (n_setB hct (by omega) (by omega)) fun _ _ => ?_
  refine sim_step (hf := hf) tri_size fun z0 hz0 => ?_
  refine sim_step (hf := hf) (i_from hnums (by omega) (by omega)) fun n1 hn1 => ?_
  simp only [Int.reduceToNat, Nat.reduceSub] at hn1
  refine sim_step (hf := hf) (n_fromW hd (by omega) (by omega)) fun d1 ⟨g1, k1⟩ => ?_
  refine sim_readL 3 hm hnums rfl (by omega) fun p1 hp1 => ?_
  refine Sim.bind (sim_put4D hm hn1 (by omega) (by omega) g1 (by omega) hp1) ?_
  rintro c1 _ ws1 ⟨rfl, lw1⟩
  refine sim_step (hf := hf) (n_setB hct (by omega) (by omega)) fun _ _ => ?_
  refine sim_step (hf := hf) tri_size fun z1 hz1 => ?_
  refine sim_step (hf := hf) (i_from hnums (by omega) (by omega)) fun n2 hn2 => ?_
  simp only [Int.reduceToNat, Nat.reduceSub] at hn2
  refine sim_step (hf := hf) (n_fromW hd (by omega) (by omega)) fun d2 ⟨g2, k2⟩ => ?_
  refine sim_readL 7 hm hnums rfl (by omega) fun p2 hp2 => ?_
  refine Sim.bind (sim_put4D hm hn2 (by omega) (by omega) g2 (by omega) hp2) ?_
  rintro c2 _ ws2 ⟨rfl, lw2⟩
  refine sim_step (hf := hf) (n_setB hct (by omega) (by omega)) fun _ _ => ?_
  refine sim_step (hf := hf) tri_size fun z2 hz2 => ?_
  refine sim_step (hf := hf) (i_from hnums (by omega) (by omega)) fun n3 hn3 => ?_
  simp only [Int.reduceToNat, Nat.reduceSub] at hn3
  refine sim_step (hf := hf) (n_fromW hd (by omega) (by omega)) fun d3 ⟨g3, k3⟩ => ?_
  refine sim_readL 11 hm hnums rfl (by omega) fun p3 hp3 => ?_
  refine Sim.bind (sim_put4D hm hn3 (by omega) (by omega) g3 (by omega) hp3) ?_
  rintro c3 _ ws3 ⟨rfl, lw3⟩
  refine sim_step (hf := hf) (n_setB hct (by omega) (by omega)) fun _ _ => ?_
  refine sim_step (hf := hf) tri_size fun z3 hz3 => ?_
  refine sim_readL 15 hm hnums rfl (by omega) fun q hq => ?_
  refine .ret ⟨⟨rfl, rfl, rfl, hJ.next (k := 16) (g := 4) rfl hc hn (by omega) (by omega), by simp only; omega, ?_⟩, by simp only; omega, rfl⟩
  rw [show ws3.length = ws.length + 15 + 1 by omega]
  exact hq

theorem sim_ws4 (hm : ∀ o, ¬ Mine fresh ⟨inn.blk, o⟩) (lc : inn.len ≤ inn.cap) (hb : Buf (mineFp fresh hf) inn.len st)
    (h : WR NoP inn.len s t ws) (hc : 4 * s.ctrlPos = s.encoded) (hn : s.encoded + 4 ≤ inn.len) :
    Sim fresh inn may (Rd inn may) (WRG NoP inn.len s.encoded 4) ws (wsBody4 inn st s) (wsBody4 inn st t) := by
  obtain ⟨h1, h2, h3, hJ, hlen, hpv⟩ := h
  obtain ⟨e, d, c, p⟩ := s
  obtain ⟨_, _, _, p'⟩ := t
  obtain rfl := h1; obtain rfl := h2; obtain rfl := h3
  simp only at hc hn hlen hpv
  have hl := hb.len; have e0 := hJ.e0; have d0 := hJ.d0; have d4 := hJ.d4
  simp only at e0 d0 d4
  unfold wsBody4
  simp only [Prog.bind_eq, Prog.pure_eq, jump_val, jumpCtrl_val]
  refine sim_step (hf := hf) (i_from (inS_self lc) e0 (by omega)) fun n1 h1 => ?_
  rw [show 0 + e.toNat = ws.length by omega] at h1
  refine sim_step (hf := hf) (n_fromW hb.w (by omega) (by omega)) fun d1 ⟨g1, k1⟩ => ?_
  refine Sim.bind (sim_put4 hm h1 (by omega) (by omega) g1 (by omega)) ?_
  rintro c1 _ ws1 ⟨rfl, lw1⟩
  refine sim_step (hf := hf) (n_setB hb.w (by omega) (by omega)) fun _ _ => ?_
  refine sim_step (hf := hf) tri_size fun z hz => ?_
  refine .ret ⟨⟨rfl, rfl, rfl, hJ.next (k := 4) (g := 1) rfl hc hn (by omega) (by omega), by simp only; omega, ?_⟩, by simp only; omega, rfl⟩
  trivial

theorem sim_wds4 (hm : ∀ o, ¬ Mine fresh ⟨inn.blk, o⟩) (lc : inn.len ≤ inn.cap) (hb : Buf (mineFp fresh hf) inn.len st)
    (h : WR (Pv inn may prev) inn.len s t ws) (hc : 4 * s.ctrlPos = s.encoded) (hn : s.encoded + 4 ≤ inn.len) :
    Sim fresh inn may (VD inn may prev) (WRG (Pv inn may prev) inn.len s.encoded 4) ws (wdsBody4 inn st s) (wsBody4 inn st t) := by
  obtain ⟨h1, h2, h3, hJ, hlen, hpv⟩ := h
  obtain ⟨e, d, c, p⟩ := s
  obtain ⟨_, _, _, p'⟩ := t
  obtain rfl := h1; obtain rfl := h2; obtain rfl := h3
  simp only at hc hn hlen hpv
  have hl := hb.len; have e0 := hJ.e0; have d0 := hJ.d0; have d4 := hJ.d4
  simp only at e0 d0 d4
  unfold wdsBody4 wsBody4
  simp only [Prog.bind_eq, Prog.pure_eq, jump_val, jumpCtrl_val]
  refine sim_step (hf := hf) (i_from (inS_self lc) e0 (by omega)) fun n1 h1 => ?_
  rw [show 0 + e.toNat = ws.length by omega] at h1
  refine sim_step (hf := hf) (n_fromW hb.w (by omega) (by omega)) fun d1 ⟨g1, k1⟩ => ?_
  refine Sim.bind (sim_put4D hm h1 (by omega) (by omega) g1 (by omega) hpv) ?_
  rintro c1 _ ws1 ⟨rfl, lw1⟩
  refine sim_step (hf := hf) (n_setB hb.w (by omega) (by omega)) fun _ _ => ?_
  refine sim_step (hf := hf) tri_size fun z hz => ?_
  refine sim_readL (ws.length + 3) hm (inS_self lc) (by omega) (by omega) fun q hq => ?_
  rw [Nat.zero_add] at hq
  refine .ret ⟨⟨rfl, rfl, rfl, hJ.next (k := 4) (g := 1) rfl hc hn (by omega) (by omega), by simp only; omega, ?_⟩, by simp only; omega, rfl⟩
  rw [show ws1.length = ws.length + 3 + 1 by omega]
  exact hq

theorem sim_wf32 (hm : ∀ o, ¬ Mine fresh ⟨inn.blk, o⟩) (lc : inn.len ≤ inn.cap) (hb : Buf (mineFp fresh hf) inn.len st)
    (h : WR NoP inn.len s t ws) (hc : 4 * s.ctrlPos = s.encoded) (hn : s.encoded + 32 ≤ inn.len) :
    Sim fresh inn may (Rd inn may) (WRG NoP inn.len s.encoded 32) ws (wfBody32 inn st s) (wfBody32 inn st t) := by
  obtain ⟨h1, h2, h3, hJ, hlen, hpv⟩ := h
  obtain ⟨e, d, c, p⟩ := s
  obtain ⟨_, _, _, p'⟩ := t
  obtain rfl := h1; obtain rfl := h2; obtain rfl := h3
  simp only at hc hn hlen hpv
  have hl := hb.len; have e0 := hJ.e0; have d0 := hJ.d0; have d4 := hJ.d4
  simp only at e0 d0 d4
  unfold wfBody32
  simp only [Prog.bind_eq, Prog.pure_eq, jump_val, jumpCtrl_val]
  refine sim_step (hf := hf) (n_rangeW hb.w (by omega) (by omega) (by omega)) fun ctrls ⟨hct, cl⟩ => ?_
  refine sim_step (hf := hf) (i_range (inS_self lc) e0 (by omega) hn) fun nums hnums => ?_
  rw [show (e + 32).toNat - e.toNat = 32 by omega, show 0 + e.toNat = ws.length by omega] at hnums
  refine sim_step (hf := hf) (n_fromW hb.w (by omega) (by omega)) fun data ⟨hd, dl⟩ => ?_
  refine sim_step (hf := hf) (i_range hnums (by omega) (by omega) (by omega)) fun n0 hn0 => ?_
  simp only [Int.reduceToNat, Nat.reduceSub] at hn0
  refine Sim.bind (sim_put8 hm hn0 (by omega) hd (by omega)) ?_
  rintro c0 _ ws0 ⟨rfl, lw0⟩
  refine sim_step (hf := hf) (n_setB hct (by omega) (by omega)) fun _ _ => ?_
  refine sim_step (hf := hf) (n_setB hct (by omega) (by omega)) fun _ _ => ?_
  refine sim_step (hf := hf) n_sizeTwo fun z0 hz0 => ?_
  refine sim_step (hf := hf) (i_range hnums (by omega) (by omega) (by omega)) fun n1 hn1 => ?_
  simp only [Int.reduceToNat, Nat.reduceSub] at hn1
  refine sim_step (hf := hf) (n_fromW hd (by omega) (by omega)) fun d1 ⟨g1, k1⟩ => ?_
  refine Sim.bind (sim_put8 hm hn1 (by omega) g1 (by omega)) ?_
  rintro c1 _ ws1 ⟨rfl, lw1⟩
  refine sim_step (hf := hf) (n_setB hct (by omega) (by omega)) fun _ _ => ?_
  refine sim_step (hf := hf) (n_setB hct (by omega) (by omega)) fun _ _ => ?_
  refine sim_step (hf := hf) n_sizeTwo fun z1 hz1 => ?_
  refine sim_step (hf := hf) (i_range hnums (by omega) (by omega) (by omega)) fun n2 hn2 => ?_
  simp only [Int.reduceToNat, Nat.reduceSub] at hn2
  refine sim_step (hf := hf) (n_fromW hd (by omega) (by omega)) fun d2 ⟨g2, k2⟩ => ?_
  refine Sim.bind (sim_put8 hm hn2 (by omega) g2 (by omega)) ?_
  rintro c2 _ ws2 ⟨rfl, lw2⟩
  refine sim_step (hf := hf) (n_setB hct (by omega) (by omega)) fun _ _ => ?_
  refine sim_step (hf := hf) (n_setB hct (by omega) (by omega)) fun _ _ => ?_
  refine sim_step (hf := hf) n_sizeTwo fun z2 hz2 => ?_
  refine sim_step (hf := hf) (i_from hnums (by omega) (by omega)) fun n3 hn3 => ?_
  simp only [Int.reduceToNat, Nat.reduceSub] at hn3
  refine sim_step (hf := hf) (n_fromW hd (by omega) (by omega)) fun d3 ⟨g3, k3⟩ => ?_
  refine Sim.bind (sim_put8 hm hn3 (by omega) g3 (by omega)) ?_
  rintro c3 _ ws3 ⟨rfl, lw3⟩
  refine sim_step (hf := hf) (n_setB hct (by omega) (by omega)) fun _ _ => ?_
  refine sim_step (hf := hf) (n_setB hct (by omega) (by omega)) fun _ _ => ?_
  refine sim_step (hf := hf) n_sizeTwo fun z3 hz3 => ?_
  refine .ret ⟨⟨rfl, rfl, rfl, hJ.next (k := 32) (g := 8) rfl hc hn (by omega) (by omega), by simp only; omega, ?_⟩, by simp only; omega, rfl⟩
  trivial

theorem sim_wdf32 (hm : ∀ o, ¬ Mine fresh ⟨inn.blk, o⟩) (lc : inn.len ≤ inn.cap) (hb : Buf (mineFp fresh hf) inn.len st)
    (h : WR (Pv inn may prev) inn.len s t ws) (hc : 4 * s.ctrlPos = s.encoded) (hn : s.encoded + 32 ≤ inn.len) :
    Sim fresh inn may (VD inn may prev) (WRG (Pv inn may prev) inn.len s.encoded 32) ws (wdfBody32 inn st s) (wfBody32 inn st t) := by
  obtain ⟨h1, h2, h3, hJ, hlen, hpv⟩ := h
  obtain ⟨e, d, c, p⟩ := s
  obtain ⟨_, _, _, p'⟩ := t
  obtain rfl := h1; obtain rfl := h2; obtain rfl := h3
  simp only at hc hn hlen hpv
  have hl := hb.len; have e0 := hJ.e0; have d0 := hJ.d0; have d4 := hJ.d4
  simp only at e0 d0 d4
  unfold wdfBody32 wfBody32
  simp only [Prog.bind_eq, Prog.pure_eq, jump_val, jumpCtrl_val]
  refine sim_step (hf := hf) (n_rangeW hb.w (by omega) (by omega) (by omega)) fun ctrls ⟨hct, cl⟩ => ?_
  refine sim_step (hf := hf) (i_range (inS_self lc) e0 (by omega) hn) fun nums hnums => ?_
  rw [show (e + 32).toNat - e.toNat = 32 by omega, show 0 + e.toNat = ws.length by omega] at hnums
  refine sim_step (hf := hf) (n_fromW hb.w (by omega) (by omega)) fun data ⟨hd, dl⟩ => ?_
  refine sim_step (hf := hf) (i_range hnums (by omega) (by omega) (by omega)) fun n0 hn0 => ?_
  simp only [Int.reduceToNat, Nat.reduceSub] at hn0
  refine Sim.bind (sim_put8D hm hn0 (by omega) hd (by omega) hpv) ?_
  rintro c0 _ ws0 ⟨rfl, lw0⟩
  refine sim_step (hf := hf) (n_setB hct (by omega) (by omega)) fun _ _ => ?_
  refine sim_step (hf := hf) (n_setB hct (by omega) (by omega)) fun _ _ => ?_
  refine sim_step (hf := hf) n_sizeTwo fun z0 hz0 => ?_
  refine sim_step (hf := hf) (i_range hnums (by omega) (by omega) (by omega)) fun n1 hn1 => ?_
  simp only [Int.reduceToNat, Nat.reduceSub] at hn1
  refine sim_step (hf := hf) (n_fromW hd (by omega) (by omega)) fun d1 ⟨g1, k1⟩ => ?_
  refine sim_readL 7 hm hnums rfl (by omega) fun p1 hp1 => ?_
  refine Sim.bind (sim_put8D hm hn1 (by omega) g1 (by omega) hp1) ?_
  rintro c1 _ ws1 ⟨rfl, lw1⟩
  refine sim_step (hf := hf) (n_setB hct (by omega) (by omega)) fun _ _ => ?_
  refine sim_step (hf := hf) (n_setB hct (by omega) (by omega)) fun _ _ => ?_
  refine sim_step (hf := hf) n_sizeTwo fun z1 hz1 => ?_
  refine sim_step (hf := hf) (i_range hnums (by omega) (by omega) (by omega)) fun n2 hn2 => ?_
  simp only [Int.reduceToNat, Nat.reduceSub] at hn2
  refine sim_step (hf := hf) (n_fromW hd (by omega) (by omega)) fun d2 ⟨g2, k2⟩ => ?_
  refine sim_readL 15 hm hnums rfl (by omega) fun p2 hp2 => ?_
  refine Sim.bind (sim_put8D hm hn2 (by omega) g2 (by omega) hp2) ?_
  rintro c2 _ ws2 ⟨rfl, lw2⟩
  refine sim_step (hf := hf) (n_setB hct (by omega) (by omega)) fun _ _ => ?_
  refine sim_step (hf := hf) (n_setB hct (by omega) (by omega)) fun _ _ => ?_
  refine sim_step (hf := hf) n_sizeTwo fun z2 hz2 => ?_
  refine sim_step (hf := hf) (i_from hnums (by omega) (by omega)) fun n3 hn3 => ?_
  simp only [Int.reduceToNat, Nat.reduceSub] at hn3
  refine sim_step (hf := hf) (n_fromW hd (by omega) (by omega)) fun d3 ⟨g3, k3⟩ => ?_
  refine sim_readL 23 hm hnums rfl (by omega) fun p3 hp3 => ?_
  refine Sim.bind (sim_put8D hm hn3 (by omega) g3 (by omega) hp3) ?_
  rintro c3 _ ws3 ⟨rfl, lw3⟩
  refine sim_step (hf := hf) (n_setB hct (by omega) (by omega)) fun _ _ => ?_
  refine sim_step (hf := hf) (n_setB hct (by omega) (by omega)) fun _ _ => ?_
  refine sim_step (hf := hf) n_sizeTwo fun z3 hz3 => ?_
  refine sim_readL 31 hm hnums rfl (by omega) fun q hq => ?_
  refine .ret ⟨⟨rfl, rfl, rfl, hJ.next (k := 32) (g := 8) rfl hc hn (by omega) (by omega), by simp only; omega, ?_⟩, by simp only; omega, rfl⟩
  rw [show ws3.length = ws.length + 31 + 1 by omega]
  exact hq

theorem sim_wf8 (hm : ∀ o, ¬ Mine fresh ⟨inn.blk, o⟩) (lc : inn.len ≤ inn.cap) (hb : Buf (mineFp fresh hf) inn.len st)
    (h : WR NoP inn.len s t ws) (hc : 4 * s.ctrlPos = s.encoded) (hn : s.encoded + 8 ≤ inn.len) :
    Sim fresh inn may (Rd inn may) (WRG NoP inn.len s.encoded 8) ws (wfBody8 inn st s) (wfBody8 inn st t) := by
  obtain ⟨h1, h2, h3, hJ, hlen, hpv⟩ := h
  obtain ⟨e, d, c, p⟩ := s
  obtain ⟨_, _, _, p'⟩ := t
  obtain rfl := h1; obtain rfl := h2; obtain rfl := h3
  simp only at hc hn hlen hpv
  have hl := hb.len; have e0 := hJ.e0; have d0 := hJ.d0; have d4 := hJ.d4
  simp only at e0 d0 d4
  unfold wfBody8
  simp only [Prog.bind_eq, Prog.pure_eq, jump_val, jumpCtrl_val]
  refine sim_step (hf := hf) (i_from (inS_self lc) e0 (by omega)) fun n1 h1 => ?_
  rw [show 0 + e.toNat = ws.length by omega] at h1
  refine sim_step (hf := hf) (n_fromW hb.w (by omega) (by omega)) fun d1 ⟨g1, k1⟩ => ?_
  refine Sim.bind (sim_put8 hm h1 (by omega) g1 (by omega)) ?_
  rintro c1 _ ws1 ⟨rfl, lw1⟩
  refine sim_step (hf := hf) (n_setB hb.w (by omega) (by omega)) fun _ _ => ?_
  refine sim_step (hf := hf) (n_setB hb.w (by omega) (by omega)) fun _ _ => ?_
  refine sim_step (hf := hf) n_sizeTwo fun z hz => ?_
  refine .ret ⟨⟨rfl, rfl, rfl, hJ.next (k := 8) (g := 2) rfl hc hn (by omega) (by omega), by simp only; omega, ?_⟩, by simp only; omega, rfl⟩
  trivial

theorem sim_wdf8 (hm : ∀ o, ¬ Mine fresh ⟨inn.blk, o⟩) (lc : inn.len ≤ inn.cap) (hb : Buf (mineFp fresh hf) inn.len st)
    (h : WR (Pv inn may prev) inn.len s t ws) (hc : 4 * s.ctrlPos = s.encoded) (hn : s.encoded + 8 ≤ inn.len) :
    Sim fresh inn may (VD inn may prev) (WRG (Pv inn may prev) inn.len s.encoded 8) ws (wdfBody8 inn st s) (wfBody8 inn st t) := by
  obtain ⟨h1, h2, h3, hJ, hlen, hpv⟩ := h
  obtain ⟨e, d, c, p⟩ := s
  obtain ⟨_, _, _, p'⟩ := t
  obtain rfl := h1; obtain rfl := h2; obtain rfl := h3
  simp only at hc hn hlen hpv
  have hl := hb.len; have e0 := hJ.e0; have d0 := hJ.d0; have d4 := hJ.d4
  simp only at e0 d0 d4
  unfold wdfBody8 wfBody8
  simp only [Prog.bind_eq, Prog.pure_eq, jump_val, jumpCtrl_val]
  refine sim_step (hf := hf) (i_from (inS_self lc) e0 (by omega)) fun n1 h1 => ?_
  rw [show 0 + e.toNat = ws.length by omega] at h1
  refine sim_step (hf := hf) (n_fromW hb.w (by omega) (by omega)) fun d1 ⟨g1, k1⟩ => ?_
  refine Sim.bind (sim_put8D hm h1 (by omega) g1 (by omega) hpv) ?_
  rintro c1 _ ws1 ⟨rfl, lw1⟩
  refine sim_step (hf := hf) (n_setB hb.w (by omega) (by omega)) fun _ _ => ?_
  refine sim_step (hf := hf) (n_setB hb.w (by omega) (by omega)) fun _ _ => ?_
  refine sim_step (hf := hf) n_sizeTwo fun z hz => ?_
  refine sim_readL (ws.length + 7) hm (inS_self lc) (by omega) (by omega) fun q hq => ?_
  rw [Nat.zero_add] at hq
  refine .ret ⟨⟨rfl, rfl, rfl, hJ.next (k := 8) (g := 2) rfl hc hn (by omega) (by omega), by simp only; omega, ?_⟩, by simp only; omega, rfl⟩
  rw [show ws1.length = ws.length + 7 + 1 by omega]
  exact hq

theorem sim_wf1 (hm : ∀ o, ¬ Mine fresh ⟨inn.blk, o⟩) (lc : inn.len ≤ inn.cap) (hb : Buf (mineFp fresh hf) inn.len st)
    (h : WR NoP inn.len s t ws) (hlt : s.ctrlPos < ((inn.len + 3) / 4 : Nat)) :
    Sim fresh inn may (Rd inn may) (WR NoP inn.len) ws (wfBody1 inn.len inn st s) (wfBody1 inn.len inn st t) := by
  obtain ⟨h1, h2, h3, hJ, hlen, hpv⟩ := h
  obtain ⟨e, d, c, p⟩ := s
  obtain ⟨_, _, _, p'⟩ := t
  obtain rfl := h1; obtain rfl := h2; obtain rfl := h3
  simp only at hlt hlen hpv
  have hl := hb.len; have e0 := hJ.e0; have d0 := hJ.d0; have d4 := hJ.d4; have cp := hJ.cp
  simp only at e0 d0 d4 cp
  have hc : 4 * c = e := by rcases cp with h | h <;> omega
  unfold wfBody1
  simp only [Prog.bind_eq, Prog.pure_eq]
  generalize hk : (if (inn.len : Int) - e > 4 then (4 : Int) else inn.len - e) = k
  have hk' : 1 ≤ k ∧ k ≤ 4 ∧ e + k ≤ inn.len ∧ (k = 4 ∨ e + k = inn.len) := by
    split at hk <;> omega
  refine sim_step (hf := hf) (i_from (inS_self lc) e0 (by omega)) fun n1 h1 => ?_
  rw [show 0 + e.toNat = ws.length by omega] at h1
  refine sim_step (hf := hf) (n_fromW hb.w (by omega) (by omega)) fun d1 ⟨g1, k1⟩ => ?_
  refine Sim.bind (sim_putN hm h1 rfl g1 (by omega) (by omega) (by omega) (by omega)) ?_
  rintro cb _ ws1 ⟨rfl, lw1, hcc⟩
  refine sim_step (hf := hf) n_size fun z hz => ?_
  have := size_short (n := k.toNat) (by omega) hcc
  refine sim_step (hf := hf) (n_setB hb.w (by omega) (by omega)) fun _ _ => ?_
  refine .ret ⟨rfl, rfl, rfl, ⟨?_, ?_, ?_, ?_, ?_⟩, by simp only; omega, ?_⟩
  iterate 5 (· simp only; omega)
  trivial

theorem sim_wdf1 (hm : ∀ o, ¬ Mine fresh ⟨inn.blk, o⟩) (lc : inn.len ≤ inn.cap) (hb : Buf (mineFp fresh hf) inn.len st)
    (h : WR (Pv inn may prev) inn.len s t ws) (hlt : s.ctrlPos < ((inn.len + 3) / 4 : Nat)) :
    Sim fresh inn may (VD inn may prev) (WR (Pv inn may prev) inn.len) ws (wdfBody1 inn.len inn st s) (wfBody1 inn.len inn st t) := by
  obtain ⟨h1, h2, h3, hJ, hlen, hpv⟩ := h
  obtain ⟨e, d, c, p⟩ := s
  obtain ⟨_, _, _, p'⟩ := t
  obtain rfl := h1; obtain rfl := h2; obtain rfl := h3
  simp only at hlt hlen hpv
  have hl := hb.len; have e0 := hJ.e0; have d0 := hJ.d0; have d4 := hJ.d4; have cp := hJ.cp
  simp only at e0 d0 d4 cp
  have hc : 4 * c = e := by rcases cp with h | h <;> omega
  unfold wdfBody1 wfBody1
  simp only [Prog.bind_eq, Prog.pure_eq]
  generalize hk : (if (inn.len : Int) - e > 4 then (4 : Int) else inn.len - e) = k
  have hk' : 1 ≤ k ∧ k ≤ 4 ∧ e + k ≤ inn.len ∧ (k = 4 ∨ e + k = inn.len) := by
    split at hk <;> omega
  refine sim_step (hf := hf) (i_from (inS_self lc) e0 (by omega)) fun n1 h1 => ?_
  rw [show 0 + e.toNat = ws.length by omega] at h1
  refine sim_step (hf := hf) (n_fromW hb.w (by omega) (by omega)) fun d1 ⟨g1, k1⟩ => ?_
  refine Sim.bind (sim_putND hm h1 rfl g1 (by omega) (by omega) (by omega) (by omega) hpv) ?_
  rintro cb _ ws1 ⟨rfl, lw1, hcc⟩
  refine sim_step (hf := hf) n_size fun z hz => ?_
  have := size_short (n := k.toNat) (by omega) hcc
  refine sim_step (hf := hf) (n_setB hb.w (by omega) (by omega)) fun _ _ => ?_
  refine sim_readL (ws.length + k.toNat - 1) hm (inS_self lc) (by omega) (by omega) fun q hq => ?_
  rw [Nat.zero_add] at hq
  refine .ret ⟨rfl, rfl, rfl, ⟨?_, ?_, ?_, ?_, ?_⟩, by simp only; omega, ?_⟩
  iterate 5 (· simp only; omega)
  rw [show ws1.length = ws.length + k.toNat - 1 + 1 by omega]
  exact hq

end

end SVB
