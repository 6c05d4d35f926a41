import Verif.Proofs.AsmDec

/-! # Two runs in step

`Lock p m q m' Q`: started on `m` and `m'`, the programs touch the same addresses in the same order; either both panic alike, or
both end with values and memories in relation `Q`.  `Lk I p q Q` is the same for all memories in relation `I`, which is kept. -/

set_option autoImplicit false

namespace SVB
open Asm

variable {α β γ δ : Type}

/-- See the head of the file. -/
def Lock : Prog α → Mem → Prog β → Mem → (α → Mem → β → Mem → Prop) → Prop
  | .ret a, m, .ret b, m', Q => Q a m b m'
  | .panic k, _, .panic k', _, _ => k = k'
  | .load p k, m, .load q k', m', Q => p = q ∧ Lock (k (m p)) m (k' (m' q)) m' Q
  | .store p v k, m, .store q w k', m', Q => p = q ∧ Lock k (m.set p v) k' (m'.set q w) Q
  | _, _, _, _, _ => False

/-- Both ended with values, or both with the same panic. -/
def SameEnd : Outcome α → Outcome β → Prop
  | .ok _, .ok _ => True
  | .panic k, .panic k' => k = k'
  | _, _ => False

theorem Lock.sound {p : Prog α} : ∀ {q : Prog β} {m m' : Mem} {Q : α → Mem → β → Mem → Prop}, Lock p m q m' Q →
    trace p m = trace q m' ∧ SameEnd (run p m).1 (run q m').1 ∧
    ∀ a b, (run p m).1 = .ok a → (run q m').1 = .ok b → Q a (run p m).2 b (run q m').2 := by
  induction p with
  | ret a =>
    intro q m m' Q h
    match q, h with
    | .ret b, h => exact ⟨rfl, trivial, fun a' b' e e' => by cases e; cases e'; exact h⟩
  | panic k =>
    intro q m m' Q h
    match q, h with
    | .panic k', h => exact ⟨rfl, h, fun _ _ e => by cases e⟩
  | load p k ih =>
    intro q m m' Q h
    match q, h with
    | .load q k', ⟨e, h⟩ =>
      subst e
      obtain ⟨h1, h2, h3⟩ := ih _ h
      exact ⟨by simp only [trace, h1], h2, h3⟩
  | store p v k ih =>
    intro q m m' Q h
    match q, h with
    | .store q w k', ⟨e, h⟩ =>
      subst e
      obtain ⟨h1, h2, h3⟩ := ih h
      exact ⟨by simp only [trace, h1], h2, h3⟩

theorem Lock.bind {p : Prog α} {f : α → Prog γ} {g : β → Prog δ} {S : γ → Mem → δ → Mem → Prop} :
    ∀ {q : Prog β} {m m' : Mem}, Lock p m q m' (fun a m b m' => Lock (f a) m (g b) m' S) → Lock (p.bind f) m (q.bind g) m' S := by
  induction p with
  | ret a =>
    intro q m m' h
    match q, h with
    | .ret b, h => exact h
  | panic k =>
    intro q m m' h
    match q, h with
    | .panic k', h => exact h
  | load p k ih =>
    intro q m m' h
    match q, h with
    | .load q k', ⟨e, h⟩ => exact ⟨e, ih _ h⟩
  | store p v k ih =>
    intro q m m' h
    match q, h with
    | .store q w k', ⟨e, h⟩ => exact ⟨e, ih h⟩

theorem Lock.mono {p : Prog α} {Q S : α → Mem → β → Mem → Prop} (hQ : ∀ a m b m', Q a m b m' → S a m b m') :
    ∀ {q : Prog β} {m m' : Mem}, Lock p m q m' Q → Lock p m q m' S := by
  induction p with
  | ret a =>
    intro q m m' h
    match q, h with
    | .ret b, h => exact hQ _ _ _ _ h
  | panic k =>
    intro q m m' h
    match q, h with
    | .panic k', h => exact h
  | load p k ih =>
    intro q m m' h
    match q, h with
    | .load q k', ⟨e, h⟩ => exact ⟨e, ih _ h⟩
  | store p v k ih =>
    intro q m m' h
    match q, h with
    | .store q w k', ⟨e, h⟩ => exact ⟨e, ih h⟩

/-- See the head of the file. -/
def Lk (I : Mem → Mem → Prop) (p : Prog α) (q : Prog β) (Q : α → β → Prop) : Prop :=
  ∀ m m', I m m' → Lock p m q m' (fun a m b m' => I m m' ∧ Q a b)

section
variable {I : Mem → Mem → Prop}

theorem lk_ret {a : α} {b : β} {Q : α → β → Prop} (h : Q a b) : Lk I (.ret a) (.ret b) Q := fun _ _ hI => ⟨hI, h⟩

theorem lk_panic {k : Panic} {Q : α → β → Prop} : Lk I (.panic k) (.panic k) Q := fun _ _ _ => rfl

theorem lk_bind {p : Prog α} {q : Prog β} {f : α → Prog γ} {g : β → Prog δ} {Q : α → β → Prop} {S : γ → δ → Prop}
    (h : Lk I p q Q) (hf : ∀ a b, Q a b → Lk I (f a) (g b) S) : Lk I (p.bind f) (q.bind g) S :=
  fun m m' hI => Lock.bind (Lock.mono (fun _ _ _ _ ⟨hI, hQ⟩ => hf _ _ hQ _ _ hI) (h m m' hI))

theorem lk_mono {p : Prog α} {q : Prog β} {Q S : α → β → Prop} (h : Lk I p q Q) (hQ : ∀ a b, Q a b → S a b) : Lk I p q S :=
  fun m m' hI => Lock.mono (fun _ _ _ _ ⟨hI, h⟩ => ⟨hI, hQ _ _ h⟩) (h m m' hI)

theorem Lk.sound {p : Prog α} {q : Prog β} {Q : α → β → Prop} (h : Lk I p q Q) {m m' : Mem} (hI : I m m') :
    trace p m = trace q m' ∧ SameEnd (run p m).1 (run q m').1 ∧
    ∀ a b, (run p m).1 = .ok a → (run q m').1 = .ok b → Q a b := by
  obtain ⟨h1, h2, h3⟩ := (h m m' hI).sound
  exact ⟨h1, h2, fun a b e e' => (h3 a b e e').2⟩

/-- The byte at `p` is the same in both runs. -/
def Pub (I : Mem → Mem → Prop) (p : Ptr) : Prop := ∀ m m', I m m' → m p = m' p

/-- Anything may be stored in block `b`. -/
def Free (I : Mem → Mem → Prop) (b : Block) : Prop := ∀ m m' o v w, I m m' → I (m.set ⟨b, o⟩ v) (m'.set ⟨b, o⟩ w)

theorem lk_load8 (p : Ptr) : Lk I (load8 p) (load8 p) (fun _ _ => True) := fun _ _ hI => ⟨rfl, hI, trivial⟩

theorem lk_load8P {p : Ptr} (h : Pub I p) : Lk I (load8 p) (load8 p) Eq := fun m m' hI => ⟨rfl, hI, h m m' hI⟩

theorem lk_store8 {p : Ptr} (h : Free I p.blk) (v w : Byte) : Lk I (store8 p v) (store8 p w) (fun _ _ => True) :=
  fun m m' hI => ⟨rfl, h m m' p.off v w hI, trivial⟩

theorem lk_if {c : Prop} [Decidable c] {p r : Prog α} {q t : Prog β} {Q : α → β → Prop} (h : c → Lk I p q Q) (h' : ¬ c → Lk I r t Q) :
    Lk I (if c then p else r) (if c then q else t) Q := by
  split
  · exact h ‹_›
  · exact h' ‹_›

theorem lk_from {e : Nat} (s : Slice e) (i : Int) : Lk I (s.from i) (s.from i) (fun t u =>
    t = u ∧ 0 ≤ i ∧ t.blk = s.blk ∧ t.off = s.off + e * i.toNat ∧ t.len = s.len - i.toNat) := by
  unfold Slice.from
  exact lk_if (fun h => lk_ret ⟨rfl, h.1, rfl, rfl, rfl⟩) (fun _ => lk_panic)

theorem lk_range {e : Nat} (s : Slice e) (i j : Int) : Lk I (s.range i j) (s.range i j) (fun t u =>
    t = u ∧ 0 ≤ i ∧ t.blk = s.blk ∧ t.off = s.off + e * i.toNat ∧ t.len = j.toNat - i.toNat) := by
  unfold Slice.range
  exact lk_if (fun h => lk_ret ⟨rfl, h.1, rfl, rfl, rfl⟩) (fun _ => lk_panic)

theorem lk_getB (s : Bytes) (i : Int) : Lk I (getB s i) (getB s i) (fun _ _ => True) := by
  unfold getB
  exact lk_if (fun _ => lk_load8 _) (fun _ => lk_panic)

theorem lk_getBP {s : Bytes} {i : Int} (h : 0 ≤ i → i < s.len → Pub I ⟨s.blk, s.off + i.toNat⟩) : Lk I (getB s i) (getB s i) Eq := by
  unfold getB
  exact lk_if (fun c => lk_load8P (h c.1 c.2)) (fun _ => lk_panic)

theorem lk_setB {s : Bytes} (i : Int) (h : Free I s.blk) (v w : Byte) : Lk I (setB s i v) (setB s i w) (fun _ _ => True) := by
  unfold setB
  exact lk_if (fun _ => lk_store8 h v w) (fun _ => lk_panic)

theorem lk_load32 (p : Ptr) : Lk I (load32 p) (load32 p) (fun _ _ => True) := by
  unfold load32
  simp only [Prog.bind_eq, Prog.pure_eq]
  refine lk_bind (lk_load8 _) fun _ _ _ => lk_bind (lk_load8 _) fun _ _ _ => lk_bind (lk_load8 _) fun _ _ _ =>
    lk_bind (lk_load8 _) fun _ _ _ => lk_ret trivial

theorem lk_store32 {p : Ptr} (h : Free I p.blk) (v w : U32) : Lk I (store32 p v) (store32 p w) (fun _ _ => True) := by
  unfold store32
  simp only [Prog.bind_eq]
  exact lk_bind (lk_store8 h _ _) fun _ _ _ => lk_bind (lk_store8 (p := p.add 1) h _ _) fun _ _ _ =>
    lk_bind (lk_store8 (p := p.add 2) h _ _) fun _ _ _ => lk_store8 (p := p.add 3) h _ _

theorem lk_getW (s : U32s) (i : Int) : Lk I (getW s i) (getW s i) (fun _ _ => True) := by
  unfold getW
  exact lk_if (fun _ => lk_load32 _) (fun _ => lk_panic)

theorem lk_setW {s : U32s} (i : Int) (h : Free I s.blk) (v w : U32) : Lk I (setW s i v) (setW s i w) (fun _ _ => True) := by
  unfold setW
  exact lk_if (fun _ => lk_store32 h v w) (fun _ => lk_panic)

theorem lk_loadN (n : Nat) : ∀ p : Ptr, Lk I (loadN p n) (loadN p n) (fun _ _ => True) := by
  induction n with
  | zero => exact fun _ => lk_ret trivial
  | succ n ih =>
    intro p
    unfold loadN
    simp only [Prog.bind_eq, Prog.pure_eq]
    exact lk_bind (lk_load8 _) fun _ _ _ => lk_bind (ih _) fun _ _ _ => lk_ret trivial

theorem lk_load16 (p : Ptr) : Lk I (load16 p) (load16 p) (fun _ _ => True) := by
  unfold load16
  simp only [Prog.bind_eq, Prog.pure_eq]
  exact lk_bind (lk_loadN _ _) fun _ _ _ => lk_ret trivial

theorem lk_storeN {p : Ptr} (h : Free I p.blk) (v w : Vec) (n : Nat) : ∀ i, Lk I (storeN p v i n) (storeN p w i n) (fun _ _ => True) := by
  induction n with
  | zero => exact fun _ => lk_ret trivial
  | succ n ih =>
    intro i
    unfold storeN
    simp only [Prog.bind_eq]
    exact lk_bind (lk_store8 (p := p.add i) h _ _) fun _ _ _ => ih _

theorem lk_store16 {p : Ptr} (h : Free I p.blk) (v w : Vec) : Lk I (store16 p v) (store16 p w) (fun _ _ => True) :=
  lk_storeN h v w 16 0

theorem lk_loop {σ τ : Type} {cond : σ → Bool} {cond' : τ → Bool} {body : σ → Prog σ} {body' : τ → Prog τ} (R : σ → τ → Prop)
    (hc : ∀ s t, R s t → cond s = cond' t) (hb : ∀ s t, R s t → cond s = true → Lk I (body s) (body' t) R) (n : Nat) :
    ∀ {s : σ} {t : τ}, R s t → Lk I (loop n cond body s) (loop n cond' body' t) (fun s t => R s t ∧ cond s = false) := by
  induction n with
  | zero =>
    intro s t h
    unfold loop
    rw [hc s t h]
    refine lk_if (fun _ => lk_panic) (fun e => lk_ret ⟨h, ?_⟩)
    rw [hc s t h]; simpa using e
  | succ n ih =>
    intro s t h
    unfold loop
    rw [hc s t h]
    refine lk_if (fun e => ?_) (fun e => lk_ret ⟨h, ?_⟩)
    · exact lk_bind (hb s t h (by rw [hc s t h]; exact e)) fun s' t' h' => ih h'
    · rw [hc s t h]; simpa using e

end

end SVB
