import Verif.Model.Rely
import Verif.Proofs.SafeWriter

/-! # Calls whose input changes, compared with calls whose input does not

`Sim … ws p q`: whatever the loads of `p` from the input deliver, there are numbers, starting with `ws`, so that `p`
does to the rest of memory what `q` does when the input holds those numbers.  `p` and `q` run in step except for their
loads from the input. -/

set_option autoImplicit false

namespace SVB
open Spec Asm

/-- Byte `k` of a number. -/
def wbyte (w : U32) (k : Nat) : Byte := w.extractLsb' (8 * k) 8

section
variable (fresh : Block) (inn : U32s) (may : Ptr → Byte → Prop) (V : Nat → U32 → Prop)

/-- `V i x`: number `x` is acceptable as number `i` of the input of `q`. -/
inductive Sim {α β : Type} (R : α → β → List U32 → Prop) : List U32 → Prog α → Prog β → Prop where
  | ret {a : α} {b : β} {ws : List U32} (h : R a b ws) : Sim R ws (.ret a) (.ret b)
  | panic (k : Panic) (ws : List U32) : Sim R ws (.panic k) (.panic k)
  | take {p : Prog α} {q : Prog β} {ws : List U32} (x : U32) (hx : V ws.length x) (h : Sim R (ws ++ [x]) p q) : Sim R ws p q
  | left {a : Ptr} {k : Byte → Prog α} {q : Prog β} {ws : List U32} (ha : ¬ Mine fresh a)
      (h : ∀ b, may a b → Sim R ws (k b) q) : Sim R ws (.load a k) q
  | right {a : Ptr} {p : Prog α} {l : Byte → Prog β} {ws : List U32} (j k : Nat) (w : U32) (hj : ws[j]? = some w) (hk : k < 4)
      (ha : a = ⟨inn.blk, inn.off + 4 * j + k⟩) (h : Sim R ws p (l (wbyte w k))) : Sim R ws p (.load a l)
  | both {a : Ptr} {k : Byte → Prog α} {l : Byte → Prog β} {ws : List U32} (ha : Mine fresh a)
      (h : ∀ b, AnyByte a b → Sim R ws (k b) (l b)) : Sim R ws (.load a k) (.load a l)
  | store {a : Ptr} {v : Byte} {k : Prog α} {l : Prog β} {ws : List U32} (ha : Mine fresh a) (hc : a.blk.isConst = false)
      (h : Sim R ws k l) : Sim R ws (.store a v k) (.store a v l)

end

variable {fresh : Block} {inn : U32s} {may : Ptr → Byte → Prop} {V : Nat → U32 → Prop}

theorem Sim.bind {α β γ δ : Type} {R : α → β → List U32 → Prop} {S : γ → δ → List U32 → Prop} {p : Prog α} {q : Prog β}
    {f : α → Prog γ} {g : β → Prog δ} {ws : List U32} (h : Sim fresh inn may V R ws p q)
    (hf : ∀ a b ws', R a b ws' → Sim fresh inn may V S ws' (f a) (g b)) :
    Sim fresh inn may V S ws (p.bind f) (q.bind g) := by
  induction h with
  | ret h => exact hf _ _ _ h
  | panic k ws => exact .panic k ws
  | take x hx _ ih => exact .take x hx ih
  | left ha _ ih => exact .left ha ih
  | right j k w hj hk ha _ ih => exact .right j k w hj hk ha ih
  | both ha _ ih => exact .both ha ih
  | store ha hc _ ih => exact .store ha hc ih

theorem Sim.mono {α β : Type} {R S : α → β → List U32 → Prop} {p : Prog α} {q : Prog β} {ws : List U32}
    (h : Sim fresh inn may V R ws p q) (hS : ∀ a b ws', R a b ws' → S a b ws') : Sim fresh inn may V S ws p q := by
  induction h with
  | ret h => exact .ret (hS _ _ _ h)
  | panic k ws => exact .panic k ws
  | take x hx _ ih => exact .take x hx ih
  | left ha _ ih => exact .left ha ih
  | right j k w hj hk ha _ ih => exact .right j k w hj hk ha ih
  | both ha _ ih => exact .both ha ih
  | store ha hc _ ih => exact .store ha hc ih

/-- Several numbers at once. -/
theorem Sim.takes {α β : Type} {R : α → β → List U32 → Prop} {p : Prog α} {q : Prog β} (xs : List U32) {ws : List U32}
    (hx : ∀ (k : Nat) (x : U32), xs[k]? = some x → V (ws.length + k) x)
    (h : Sim fresh inn may V R (ws ++ xs) p q) : Sim fresh inn may V R ws p q := by
  induction xs generalizing ws with
  | nil => simpa using h
  | cons x xs ih =>
    refine .take x (by simpa using hx 0 x rfl) (ih (fun k y hy => ?_) (by simpa using h))
    have := hx (k + 1) y (by simpa using hy)
    simpa [Nat.add_assoc, Nat.add_comm 1 k] using this

/-! ## Soundness -/

section
variable {α β : Type} {keep : Ptr → Prop}

theorem Under.ret_inv {a : α} {p' : Prog α} {m m' : Mem} (h : Under keep may (.ret a) m p' m') :
    p' = .ret a ∧ ∀ q, keep q → m' q = m q := by
  generalize hp : Prog.ret a = p at h
  induction h with
  | now p m => exact ⟨rfl, fun _ _ => rfl⟩
  | others h h' _ ih => exact ⟨(ih hp).1, fun q hq => ((ih hp).2 q hq).trans (h q hq)⟩
  | load => cases hp
  | store => cases hp

theorem Under.panic_inv {k : Panic} {p' : Prog α} {m m' : Mem} (h : Under keep may (.panic k) m p' m') :
    p' = .panic k := by
  generalize hp : Prog.panic k = p at h
  induction h with
  | now p m => rfl
  | others h h' _ ih => exact ih hp
  | load => cases hp
  | store => cases hp

theorem Under.load_inv {a : α} {q : Ptr} {k : Byte → Prog α} {m m' : Mem} (h0 : ∀ q, ¬ keep q → may q (m q))
    (h : Under keep may (.load q k) m (.ret a) m') :
    ∃ m1 : Mem, (∀ q, keep q → m1 q = m q) ∧ (∀ q, ¬ keep q → may q (m1 q)) ∧ Under keep may (k (m1 q)) m1 (.ret a) m' := by
  generalize hp : Prog.load q k = p at h
  generalize hr : Prog.ret a = r at h
  induction h with
  | now p m => rw [← hp] at hr; cases hr
  | others h h' _ ih =>
    obtain ⟨m1, h1, h2, h3⟩ := ih h' hp hr
    exact ⟨m1, fun q hq => (h1 q hq).trans (h q hq), h2, h3⟩
  | load h => cases hp; exact ⟨_, fun _ _ => rfl, h0, h⟩
  | store => cases hp

theorem Under.store_inv {a : α} {q : Ptr} {v : Byte} {k : Prog α} {m m' : Mem} (h0 : ∀ q, ¬ keep q → may q (m q))
    (h : Under keep may (.store q v k) m (.ret a) m') :
    ∃ m1 : Mem, (∀ q, keep q → m1 q = m q) ∧ (∀ q, ¬ keep q → may q (m1 q)) ∧ Under keep may k (m1.set q v) (.ret a) m' := by
  generalize hp : Prog.store q v k = p at h
  generalize hr : Prog.ret a = r at h
  induction h with
  | now p m => rw [← hp] at hr; cases hr
  | others h h' _ ih =>
    obtain ⟨m1, h1, h2, h3⟩ := ih h' hp hr
    exact ⟨m1, fun q hq => (h1 q hq).trans (h q hq), h2, h3⟩
  | store h => cases hp; exact ⟨_, fun _ _ => rfl, h0, h⟩
  | load => cases hp

/-- The input holds the numbers `ws`. -/
def HoldsWs (inn : U32s) (ws : List U32) (m : Mem) : Prop :=
  ∀ (j k : Nat) (w : U32), ws[j]? = some w → k < 4 → m ⟨inn.blk, inn.off + 4 * j + k⟩ = wbyte w k

theorem HoldsWs.prefix {ws ws' : List U32} {m : Mem} (h : HoldsWs inn ws' m) (hp : ws <+: ws') : HoldsWs inn ws m := by
  intro j k w hj hk
  refine h j k w ?_ hk
  obtain ⟨t, rfl⟩ := hp
  rw [List.getElem?_append_left (List.getElem?_eq_some_iff.1 hj).1]; exact hj

/-- A history of `p` that ends with a result is a run of `q` on an input of acceptable numbers. -/
theorem Sim.sound {R : α → β → List U32 → Prop} {ws : List U32} {p : Prog α} {q : Prog β}
    (hs : Sim fresh inn may V R ws p q) (hnf : ¬ Mine fresh ⟨inn.blk, 0⟩) {m m' : Mem} {a : α} (hT : TablesLoaded m)
    (h0 : ∀ q, ¬ Mine fresh q → may q (m q)) (hV : ∀ (j : Nat) (w : U32), ws[j]? = some w → V j w)
    (hu : Under (Mine fresh) may p m (.ret a) m') :
    ∃ ws' b, ws <+: ws' ∧ R a b ws' ∧ (∀ (j : Nat) (w : U32), ws'[j]? = some w → V j w) ∧
      ∀ mq, (∀ x, Mine fresh x → mq x = m x) → HoldsWs inn ws' mq →
        ∃ mq', run q mq = (.ok b, mq') ∧ ∀ x, Mine fresh x → mq' x = m' x := by
  have hni : ∀ o, ¬ Mine fresh ⟨inn.blk, o⟩ := fun o => hnf
  induction hs generalizing m with
  | ret h =>
    obtain ⟨e, hk⟩ := hu.ret_inv
    cases e
    exact ⟨_, _, List.prefix_refl _, h, hV, fun mq hq _ => ⟨mq, rfl, fun x hx => (hq x hx).trans (hk x hx).symm⟩⟩
  | panic k ws => cases hu.panic_inv
  | take x hx _ ih =>
    obtain ⟨ws', b, h1, h2, h3, h4⟩ := ih hT h0 (fun j w hj => by
      by_cases hl : j < ‹List U32›.length
      · rw [List.getElem?_append_left hl] at hj; exact hV j w hj
      · rw [List.getElem?_append_right (by omega)] at hj
        have := (List.getElem?_eq_some_iff.1 hj).1
        simp only [List.length_cons, List.length_nil] at this
        obtain rfl : j = _ := Nat.le_antisymm (by omega) (Nat.le_of_not_lt hl)
        simp at hj; exact hj ▸ hx) hu
    exact ⟨ws', b, (List.prefix_append _ _).trans h1, h2, h3, h4⟩
  | left ha _ ih =>
    obtain ⟨m1, e1, e2, hu'⟩ := hu.load_inv h0
    obtain ⟨ws', b, h1, h2, h3, h4⟩ := ih _ (e2 _ ha) (hT.frame fun q hq => e1 q (.inr hq)) e2 hV hu'
    exact ⟨ws', b, h1, h2, h3, fun mq hq => h4 mq fun x hx => (hq x hx).trans (e1 x hx).symm⟩
  | right j k w hj hk ha _ ih =>
    obtain ⟨ws', b, h1, h2, h3, h4⟩ := ih hT h0 hV hu
    refine ⟨ws', b, h1, h2, h3, fun mq hq hh => ?_⟩
    simp only [run]
    rw [ha, (hh.prefix h1) j k w hj hk]
    exact h4 mq hq hh
  | @both a k l ws ha _ ih =>
    obtain ⟨m1, e1, e2, hu'⟩ := hu.load_inv h0
    have hT1 : TablesLoaded m1 := hT.frame fun q hq => e1 q (.inr hq)
    obtain ⟨ws', b, h1, h2, h3, h4⟩ := ih _ ⟨m1, hT1, rfl⟩ hT1 e2 hV hu'
    refine ⟨ws', b, h1, h2, h3, fun mq hq hh => ?_⟩
    simp only [run]
    rw [hq a ha, ← e1 a ha]
    exact h4 mq (fun x hx => (hq x hx).trans (e1 x hx).symm) hh
  | @store a v k l ws ha hc _ ih =>
    obtain ⟨m1, e1, e2, hu'⟩ := hu.store_inv h0
    have hT1 : TablesLoaded (m1.set a v) := (hT.frame fun q hq => e1 q (.inr hq)).frame fun q hq =>
      Mem.set_ne _ _ (by rintro rfl; rw [hc] at hq; cases hq)
    obtain ⟨ws', b, h1, h2, h3, h4⟩ := ih hT1 (fun q hq => by
      rw [Mem.set_ne _ _ (by rintro rfl; exact hq ha)]; exact e2 q hq) hV hu'
    refine ⟨ws', b, h1, h2, h3, fun mq hq hh => ?_⟩
    refine h4 (mq.set a v) (fun x hx => ?_) fun j k w hj hk => ?_
    · simp only [Mem.set]
      split
      · rfl
      · exact (hq x hx).trans (e1 x hx).symm
    · rw [Mem.set_ne _ _ (by rintro rfl; exact hni _ ha)]; exact hh j k w hj hk

end

/-! ## Rules -/

/-- Footprint of code that does not touch the input. -/
def mineFp (fresh : Block) (hf : fresh.isConst = false) : Fp where
  R q := Mine fresh q
  W q := q.blk = fresh
  tabs q h := .inr (by
    revert h; unfold inTables Block.isConst
    cases q.blk <;> simp)
  heap q h := by rw [h]; exact hf

/-- Code that does not touch the input. -/
theorem sim_of_tri {α : Type} {hf : fresh.isConst = false} {P : Panic → Prop} {p : Prog α} {Q : α → Prop}
    (h : TriP P (mineFp fresh hf) p Q) {ws : List U32} :
    Sim fresh inn may V (fun a b ws' => a = b ∧ ws' = ws ∧ Q a) ws p p := by
  induction p with
  | ret a => exact .ret ⟨rfl, rfl, h⟩
  | panic k => exact .panic k ws
  | load a k ih => exact .both h.1 fun b hb => ih b (h.2 b hb)
  | store a v k ih => exact .store (.inl h.1) (by rw [show a.blk = fresh from h.1]; exact hf) (ih h.2)

theorem sim_loop {σ τ : Type} {cond : σ → Bool} {cond' : τ → Bool} {body : σ → Prog σ} {body' : τ → Prog τ}
    (I : σ → τ → List U32 → Prop) (hc : ∀ s t ws, I s t ws → cond s = cond' t)
    (hb : ∀ s t ws, I s t ws → cond s = true → Sim fresh inn may V I ws (body s) (body' t)) (n : Nat) :
    ∀ {s : σ} {t : τ} {ws : List U32}, I s t ws →
      Sim fresh inn may V (fun s t ws => I s t ws ∧ cond s = false) ws (loop n cond body s) (loop n cond' body' t) := by
  induction n with
  | zero =>
    intro s t ws hI
    unfold loop
    rw [← hc s t ws hI]
    split
    · exact .panic _ _
    · rename_i h; exact .ret ⟨hI, by simpa using h⟩
  | succ n ih =>
    intro s t ws hI
    unfold loop
    rw [← hc s t ws hI]
    split
    · rename_i h
      exact (hb s t ws hI h).bind fun a b ws' h' => ih h'
    · rename_i h; exact .ret ⟨hI, by simpa using h⟩

/-- Number `a` may be read at index `i`: each of its bytes may be there. -/
def Rd (inn : U32s) (may : Ptr → Byte → Prop) (i : Nat) (a : U32) : Prop :=
  ∀ k < 4, may ⟨inn.blk, inn.off + 4 * i + k⟩ (wbyte a k)

theorem wbyte_append (b0 b1 b2 b3 : Byte) : wbyte (b3 ++ b2 ++ b1 ++ b0) 0 = b0 ∧ wbyte (b3 ++ b2 ++ b1 ++ b0) 1 = b1 ∧
    wbyte (b3 ++ b2 ++ b1 ++ b0) 2 = b2 ∧ wbyte (b3 ++ b2 ++ b1 ++ b0) 3 = b3 := by
  have h0 := b0.isLt; have h1 := b1.isLt; have h2 := b2.isLt; have h3 := b3.isLt
  have e : (b3 ++ b2 ++ b1 ++ b0).toNat = b3.toNat * 16777216 + b2.toNat * 65536 + b1.toNat * 256 + b0.toNat := by
    rw [append_toNat, append_toNat, append_toNat]; omega
  unfold wbyte
  refine ⟨?_, ?_, ?_, ?_⟩ <;> apply BitVec.eq_of_toNat_eq <;>
    simp only [BitVec.extractLsb'_toNat, Nat.shiftRight_eq_div_pow, e, Nat.reduceMul, Nat.reducePow] <;> omega

theorem append_wbyte (w : U32) : wbyte w 3 ++ wbyte w 2 ++ wbyte w 1 ++ wbyte w 0 = w := by
  apply BitVec.eq_of_toNat_eq
  have := w.isLt
  rw [append_toNat, append_toNat, append_toNat]
  simp only [wbyte, BitVec.extractLsb'_toNat, Nat.shiftRight_eq_div_pow, Nat.reduceMul, Nat.reducePow]
  omega

section
variable {α β : Type} {R : α → β → List U32 → Prop} {ws : List U32}

theorem sim_left_getW {s : U32s} {i : Int} {n : Nat} (hm : ∀ o, ¬ Mine fresh ⟨inn.blk, o⟩) (hb : s.blk = inn.blk)
    (ho : s.off = inn.off + 4 * n) (h0 : 0 ≤ i) (hl : i < s.len) {f : U32 → Prog α} {q : Prog β}
    (h : ∀ a, Rd inn may (n + i.toNat) a → Sim fresh inn may V R ws (f a) q) :
    Sim fresh inn may V R ws ((getW s i).bind f) q := by
  unfold getW
  rw [if_pos ⟨h0, hl⟩, hb, ho]
  refine .left (hm _) fun b0 m0 => .left (hm _) fun b1 m1 => .left (hm _) fun b2 m2 => .left (hm _) fun b3 m3 => ?_
  refine h _ fun k hk => ?_
  obtain ⟨e0, e1, e2, e3⟩ := wbyte_append b0 b1 b2 b3
  have ea : ∀ j, inn.off + 4 * (n + i.toNat) + j = inn.off + 4 * n + 4 * i.toNat + j := fun j => by omega
  rw [ea]
  obtain rfl | rfl | rfl | rfl : k = 0 ∨ k = 1 ∨ k = 2 ∨ k = 3 := by omega
  · rw [e0]; exact m0
  · rw [e1]; exact m1
  · rw [e2]; exact m2
  · rw [e3]; exact m3

theorem sim_right_getW {s : U32s} {i : Int} {n : Nat} (hb : s.blk = inn.blk) (ho : s.off = inn.off + 4 * n) (h0 : 0 ≤ i)
    (hl : i < s.len) {p : Prog α} {g : U32 → Prog β} (w : U32) (hw : ws[n + i.toNat]? = some w)
    (h : Sim fresh inn may V R ws p (g w)) : Sim fresh inn may V R ws p ((getW s i).bind g) := by
  unfold getW
  rw [if_pos ⟨h0, hl⟩, hb, ho]
  have ea : ∀ j, inn.off + 4 * n + 4 * i.toNat + j = inn.off + 4 * (n + i.toNat) + j := fun j => by omega
  refine .right (n + i.toNat) 0 w hw (by omega) (by congr 1; omega) ?_
  refine .right (n + i.toNat) 1 w hw (by omega) (by simp only [Ptr.add, ea]) ?_
  refine .right (n + i.toNat) 2 w hw (by omega) (by simp only [Ptr.add, ea]) ?_
  refine .right (n + i.toNat) 3 w hw (by omega) (by simp only [Ptr.add, ea]) ?_
  show Sim fresh inn may V R ws p (g (wbyte w 3 ++ wbyte w 2 ++ wbyte w 1 ++ wbyte w 0))
  rw [append_wbyte]
  exact h

end

end SVB
