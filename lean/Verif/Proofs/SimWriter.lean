import Verif.Proofs.Sim

/-! # The writers on an input that changes, compared with the plain writers on an input that does not -/

set_option autoImplicit false
set_option linter.unusedSimpArgs false

namespace SVB
open Spec Asm

variable {fresh : Block} {inn : U32s} {may : Ptr → Byte → Prop} {V : Nat → U32 → Prop}

/-- Code that does not touch the input, followed by more. -/
theorem sim_step {α γ δ : Type} {hf : fresh.isConst = false} {S : γ → δ → List U32 → Prop} {p : Prog α} {Q : α → Prop}
    {f : α → Prog γ} {g : α → Prog δ} {ws : List U32} (h : TriP (fun _ => False) (mineFp fresh hf) p Q)
    (hk : ∀ a, Q a → Sim fresh inn may V S ws (f a) (g a)) : Sim fresh inn may V S ws (p.bind f) (p.bind g) :=
  (sim_of_tri h).bind fun a b ws' ⟨e, e', hQ⟩ => by subst e e'; exact hk a hQ

/-- `s` is the part of the input with numbers `n` to `n + l`. -/
structure InS (inn : U32s) (s : U32s) (n l : Nat) : Prop where
  blk : s.blk = inn.blk
  off : s.off = inn.off + 4 * n
  len : s.len = l
  cap : s.len ≤ s.cap

section
variable {F : Fp} {P : Panic → Prop} {s : U32s} {n l : Nat}

theorem i_from {i : Int} (h : InS inn s n l) (h0 : 0 ≤ i) (hl : i ≤ l) :
    TriP P F (s.from i) (fun t => InS inn t (n + i.toNat) (l - i.toNat)) :=
  tri_mono (n_from i.toNat (by omega) (by have := h.len; omega)) fun _ e => by
    subst e; exact ⟨h.blk, by have := h.off; simp only; omega, by have := h.len; simp only; omega,
      by have := h.cap; simp only; omega⟩

theorem i_range {i j : Int} (h : InS inn s n l) (h0 : 0 ≤ i) (hij : i ≤ j) (hl : j ≤ l) :
    TriP P F (s.range i j) (fun t => InS inn t (n + i.toNat) (j.toNat - i.toNat)) :=
  tri_mono (n_range i.toNat j.toNat (by omega) (by omega) (by omega) (by have := h.cap; have := h.len; omega)) fun _ e => by
    subst e; exact ⟨h.blk, by have := h.off; simp only; omega, rfl, by have := h.cap; have := h.len; simp only; omega⟩

end

/-- What the number before number `i` may be. -/
def Pv (inn : U32s) (may : Ptr → Byte → Prop) (prev : U32) : Nat → U32 → Prop
  | 0, b => b = prev
  | i + 1, b => Rd inn may i b

/-- Differences that may be encoded as number `i`. -/
def VD (inn : U32s) (may : Ptr → Byte → Prop) (prev : U32) (i : Nat) (x : U32) : Prop :=
  ∃ a b, Rd inn may i a ∧ Pv inn may prev i b ∧ x = a - b

section
variable {α β : Type} {R : α → β → List U32 → Prop} {ws : List U32} {s : U32s} {n l : Nat}

theorem sim_readL {i : Int} (k : Nat) (hm : ∀ o, ¬ Mine fresh ⟨inn.blk, o⟩) (hs : InS inn s n l) (hi : i = k) (hl : k < l)
    {f : U32 → Prog α} {q : Prog β} (h : ∀ a, Rd inn may (n + k) a → Sim fresh inn may V R ws (f a) q) :
    Sim fresh inn may V R ws ((getW s i).bind f) q :=
  sim_left_getW hm hs.blk hs.off (by omega) (by have := hs.len; omega) fun a ha => h a (by subst hi; exact ha)

theorem sim_readR {i : Int} (k : Nat) (hs : InS inn s n l) (hi : i = k) (hl : k < l) {p : Prog α} {g : U32 → Prog β} (w : U32)
    (hw : ws[n + k]? = some w) (h : Sim fresh inn may V R ws p (g w)) : Sim fresh inn may V R ws p ((getW s i).bind g) :=
  sim_right_getW hs.blk hs.off (by omega) (by have := hs.len; omega) w (by subst hi; exact hw) h

end

/-! ## Groups of four -/

/-- `Put4uint32Scalar` after its loads. -/
def put4Tail (a b c d : U32) (out : Bytes) : Prog Byte := do
  let len0 ← encodeOne a out
  let len1 ← encodeOne b (← out.from len0)
  let len2 ← encodeOne c (← out.from (len0 + len1))
  let len3 ← encodeOne d (← out.from (len0 + len1 + len2))
  return packCtrl len0 len1 len2 len3

theorem n_put4Tail {F : Fp} {P : Panic → Prop} {a b c d : U32} {out : Bytes} (ho : WrOk F out) (hc : 16 ≤ out.len) :
    TriP P F (put4Tail a b c d out) (fun _ => True) := by
  unfold put4Tail
  simp only [Prog.bind_eq, Prog.pure_eq]
  refine tri_bind (n_encodeOne ho (by omega)) fun _ l0 => ?_
  refine tri_bind (n_fromW ho (by omega) (by omega)) fun _ h => ?_
  refine tri_bind (n_encodeOne h.1 (by omega)) fun _ l1 => ?_
  refine tri_bind (n_fromW ho (by omega) (by omega)) fun _ h => ?_
  refine tri_bind (n_encodeOne h.1 (by omega)) fun _ l2 => ?_
  refine tri_bind (n_fromW ho (by omega) (by omega)) fun _ h => ?_
  exact tri_bind (n_encodeOne h.1 (by omega)) fun _ _ => tri_ret trivial

/-- Results of a block: equal, and `k` numbers more. -/
def Blk {α : Type} (ws : List U32) (k : Nat) (a b : α) (ws' : List U32) : Prop := a = b ∧ ws'.length = ws.length + k

section
variable {hf : fresh.isConst = false} {ws : List U32} {s : U32s} {n l : Nat} {out : Bytes}

/-- The plain routine once the four numbers are known. -/
theorem sim_put4R (hs : InS inn s n l) (hl : 4 ≤ l) (hn : n = ws.length) (ho : WrOk (mineFp fresh hf) out)
    (hc : 16 ≤ out.len) (a b c d : U32) (hV : V n a ∧ V (n + 1) b ∧ V (n + 2) c ∧ V (n + 3) d) :
    Sim fresh inn may V (Blk ws 4) ws (put4Tail a b c d out) (put4uint32Scalar s out) := by
  subst hn
  refine Sim.takes [a, b, c, d] (fun k x hx => ?_) ?_
  · obtain ⟨hk, rfl⟩ := List.getElem?_eq_some_iff.1 hx
    simp only [List.length_cons, List.length_nil] at hk
    obtain rfl | rfl | rfl | rfl : k = 0 ∨ k = 1 ∨ k = 2 ∨ k = 3 := by omega
    · exact hV.1
    · exact hV.2.1
    · exact hV.2.2.1
    · exact hV.2.2.2
  · unfold put4uint32Scalar
    simp only [Prog.bind_eq, Prog.pure_eq]
    have e : ∀ k, (ws ++ [a, b, c, d])[ws.length + k]? = [a, b, c, d][k]? := fun k => by
      rw [List.getElem?_append_right (by omega)]; congr 1; omega
    refine sim_readR 3 hs rfl (by omega) d (e 3) ?_
    refine sim_readR 0 hs rfl (by omega) a (e 0) ?_
    refine sim_readR 1 hs rfl (by omega) b (e 1) ?_
    refine sim_readR 2 hs rfl (by omega) c (e 2) ?_
    refine sim_readR 3 hs rfl (by omega) d (e 3) ?_
    refine (sim_of_tri (P := fun _ => False) (n_put4Tail (a := a) (b := b) (c := c) (d := d) ho hc)).mono ?_
    rintro x _ _ ⟨rfl, rfl, -⟩
    exact ⟨rfl, by simp⟩

theorem sim_put4 (hm : ∀ o, ¬ Mine fresh ⟨inn.blk, o⟩) (hs : InS inn s n l) (hl : 4 ≤ l) (hn : n = ws.length)
    (ho : WrOk (mineFp fresh hf) out) (hc : 16 ≤ out.len) :
    Sim fresh inn may (Rd inn may) (Blk ws 4) ws (put4uint32Scalar s out) (put4uint32Scalar s out) := by
  conv => arg 7; unfold put4uint32Scalar
  simp only [Prog.bind_eq, Prog.pure_eq]
  refine sim_readL 3 hm hs rfl (by omega) fun _ _ => ?_
  refine sim_readL 0 hm hs rfl (by omega) fun a ha => ?_
  refine sim_readL 1 hm hs rfl (by omega) fun b hb => ?_
  refine sim_readL 2 hm hs rfl (by omega) fun c hc' => ?_
  refine sim_readL 3 hm hs rfl (by omega) fun d hd => ?_
  exact sim_put4R hs hl hn ho hc a b c d ⟨ha, hb, hc', hd⟩

theorem sim_put4D {prev p : U32} (hm : ∀ o, ¬ Mine fresh ⟨inn.blk, o⟩) (hs : InS inn s n l) (hl : 4 ≤ l)
    (hn : n = ws.length) (ho : WrOk (mineFp fresh hf) out) (hc : 16 ≤ out.len) (hp : Pv inn may prev n p) :
    Sim fresh inn may (VD inn may prev) (Blk ws 4) ws (put4uint32DeltaScalar s out p) (put4uint32Scalar s out) := by
  unfold put4uint32DeltaScalar
  simp only [Prog.bind_eq, Prog.pure_eq]
  refine sim_readL 3 hm hs rfl (by omega) fun _ _ => ?_
  refine sim_readL 0 hm hs rfl (by omega) fun a ha => ?_
  refine sim_readL 1 hm hs rfl (by omega) fun b hb => ?_
  refine sim_readL 0 hm hs rfl (by omega) fun a' ha' => ?_
  refine sim_readL 2 hm hs rfl (by omega) fun c hc' => ?_
  refine sim_readL 1 hm hs rfl (by omega) fun b' hb' => ?_
  refine sim_readL 3 hm hs rfl (by omega) fun d hd => ?_
  refine sim_readL 2 hm hs rfl (by omega) fun c' hc'' => ?_
  exact sim_put4R hs hl hn ho hc _ _ _ _ ⟨⟨a, p, ha, hp, rfl⟩, ⟨b, a', hb, ha', rfl⟩, ⟨c, b', hc', hb', rfl⟩,
    ⟨d, c', hd, hc'', rfl⟩⟩


/-! ## Up to four numbers -/

/-- Loop states of `PutUint32Scalar` on both sides. -/
structure PR (PV : Nat → U32 → Prop) (n : Nat) (count : Int) (s t : PutSt) (ws : List U32) : Prop where
  i : s.i = t.i
  ctrl : s.ctrl = t.ctrl
  shift : s.shift = t.shift
  total : s.total = t.total
  pi : PI s
  le : s.i ≤ count
  len : (ws.length : Int) = n + s.i
  pv : PV ws.length s.prev

/-- Results: equal, `k` numbers more, and a control byte with codes for `k` numbers. -/
def BlkN (ws : List U32) (k : Nat) (a b : Byte) (ws' : List U32) : Prop :=
  a = b ∧ ws'.length = ws.length + k ∧ a.toNat < 2 ^ (2 * k)

theorem getElem?_snoc {α : Type} (ws : List α) (x : α) {k : Nat} (h : k = ws.length) : (ws ++ [x])[k]? = some x := by
  subst h; simp

theorem sim_putN {count : Int} (hm : ∀ o, ¬ Mine fresh ⟨inn.blk, o⟩) (hs : InS inn s n l) (hn : n = ws.length)
    (ho : WrOk (mineFp fresh hf) out) (h1 : 0 ≤ count) (h4 : count ≤ 4) (hl : count ≤ l) (hc : 4 * count ≤ out.len) :
    Sim fresh inn may (Rd inn may) (BlkN ws count.toNat) ws (putUint32Scalar s out count)
      (putUint32Scalar s out count) := by
  unfold putUint32Scalar
  simp only [Prog.bind_eq, Prog.pure_eq]
  split
  · subst count; exact .ret ⟨rfl, by simp, by simp⟩
  rw [if_neg (by omega)]
  refine Sim.bind (sim_loop (PR (fun _ _ => True) n count) ?_ ?_ 4 ?_) ?_
  · rintro s t ws h; rw [h.i]
  · rintro ⟨i, c, sh, to, p⟩ ⟨_, _, _, _, p'⟩ ws' ⟨rfl, rfl, rfl, rfl, hI, hle, hlen, -⟩ hlt
    simp only [decide_eq_true_eq] at hlt hlen hle ⊢
    have i0 := hI.i0; have t0 := hI.t0; have tt := hI.total
    simp only at i0 t0 tt
    refine sim_readL i.toNat hm hs (by omega) (by omega) fun a ha => ?_
    refine Sim.take a (by rwa [show ws'.length = n + i.toNat by omega]) ?_
    refine sim_readR i.toNat hs (by omega) (by omega) a (getElem?_snoc _ _ (by omega)) ?_
    refine sim_step (n_fromW ho (by omega) (by omega)) fun d hd => ?_
    refine sim_step (n_encodeOne hd.1 (by omega)) fun z hz => ?_
    refine .ret ⟨rfl, rfl, rfl, rfl, hI.step (by simp only; omega) hz _, ?_, ?_, trivial⟩
    · simp only; omega
    · simp only [List.length_append, List.length_cons, List.length_nil]; omega
  · exact ⟨rfl, rfl, rfl, rfl, ⟨by simp, by simp, by simp, by simp, by simp, by simp⟩, by simp only; omega,
      by simp only; omega, trivial⟩
  · rintro s t ws' ⟨h, hx⟩
    simp only [decide_eq_false_iff_not] at hx
    have h1 := h.le; have h2 := h.len; have h3 := h.pi.ctrl
    have : s.i = count := by omega
    rw [this] at h3
    exact .ret ⟨h.ctrl, by omega, h3⟩

theorem sim_putND {prev p : U32} {count : Int} (hm : ∀ o, ¬ Mine fresh ⟨inn.blk, o⟩) (hs : InS inn s n l)
    (hn : n = ws.length) (ho : WrOk (mineFp fresh hf) out) (h1 : 0 ≤ count) (h4 : count ≤ 4) (hl : count ≤ l)
    (hc : 4 * count ≤ out.len) (hp : Pv inn may prev n p) :
    Sim fresh inn may (VD inn may prev) (BlkN ws count.toNat) ws (putUint32DeltaScalar s out count p)
      (putUint32Scalar s out count) := by
  unfold putUint32DeltaScalar putUint32Scalar
  simp only [Prog.bind_eq, Prog.pure_eq]
  by_cases h0 : count = 0
  · subst count; exact .ret ⟨rfl, by simp, by simp⟩
  rw [if_neg h0, if_neg h0, if_neg (by omega)]
  refine Sim.bind (sim_loop (PR (Pv inn may prev) n count) ?_ ?_ 4 ?_) ?_
  · rintro s t ws h; rw [h.i]
  · rintro ⟨i, c, sh, to, p⟩ ⟨_, _, _, _, p'⟩ ws' ⟨rfl, rfl, rfl, rfl, hI, hle, hlen, hpv⟩ hlt
    simp only [decide_eq_true_eq] at hlt hlen hle hpv ⊢
    have i0 := hI.i0; have t0 := hI.t0; have tt := hI.total
    simp only at i0 t0 tt
    have en : ws'.length = n + i.toNat := by omega
    refine sim_readL i.toNat hm hs (by omega) (by omega) fun a ha => ?_
    refine Sim.take (a - p) ⟨a, p, by rwa [en], hpv, rfl⟩ ?_
    refine sim_readR i.toNat hs (by omega) (by omega) (a - p) (getElem?_snoc _ _ (by omega)) ?_
    refine sim_step (n_fromW ho (by omega) (by omega)) fun d hd => ?_
    refine sim_step (n_encodeOne hd.1 (by omega)) fun z hz => ?_
    refine sim_readL i.toNat hm hs (by omega) (by omega) fun b hb => ?_
    refine .ret ⟨rfl, rfl, rfl, rfl, hI.step (by simp only; omega) hz _, ?_, ?_, ?_⟩
    · simp only; omega
    · simp only [List.length_append, List.length_cons, List.length_nil]; omega
    · simp only [List.length_append, List.length_cons, List.length_nil, en]; exact hb
  · exact ⟨rfl, rfl, rfl, rfl, ⟨by simp, by simp, by simp, by simp, by simp, by simp⟩, by simp only; omega,
      by simp only; omega, by rw [← hn]; exact hp⟩
  · rintro s t ws' ⟨h, hx⟩
    simp only [decide_eq_false_iff_not] at hx
    have h1 := h.le; have h2 := h.len; have h3 := h.pi.ctrl
    have : s.i = count := by omega
    rw [this] at h3
    exact .ret ⟨h.ctrl, by omega, h3⟩

end

end SVB
