import Verif.Model.Prog

/-!
# Weakest preconditions with footprints

`wp c p m Q`: every load of `p` started in `m` is allowed by `c.R`, every store by `c.W`; if it returns
`a` with memory `m'` then `Q a m'`, if it panics with `k` then `c.E k m'`.
-/

namespace SVB

/-- Allowed loads, allowed stores, condition on panics. -/
structure Ctx where
  R : Ptr → Prop
  W : Ptr → Prop
  E : Panic → Mem → Prop

def wp {α : Type} (c : Ctx) : Prog α → Mem → (α → Mem → Prop) → Prop
  | .ret a, m, Q => Q a m
  | .panic k, m, _ => c.E k m
  | .load p k, m, Q => c.R p ∧ wp c (k (m p)) m Q
  | .store p v k, m, Q => c.W p ∧ wp c k (m.set p v) Q

/-- An access is allowed. -/
def Ctx.allows (c : Ctx) : Event → Prop
  | .rd p => c.R p
  | .wr p => c.W p

/-- Result of an execution, as a predicate. -/
def outcomeSat {α : Type} (c : Ctx) (Q : α → Mem → Prop) : Outcome α × Mem → Prop
  | (.ok a, m) => Q a m
  | (.panic k, m) => c.E k m

/-- `wp` means what it says about `run` and `trace`. -/
theorem wp_iff {α : Type} (c : Ctx) (p : Prog α) (m : Mem) (Q : α → Mem → Prop) :
    wp c p m Q ↔ (∀ e ∈ trace p m, c.allows e) ∧ outcomeSat c Q (run p m) := by
  induction p generalizing m with
  | ret a => simp [wp, trace, run, outcomeSat]
  | panic k => simp [wp, trace, run, outcomeSat]
  | load p k ih => simp [wp, trace, run, ih, Ctx.allows, and_assoc]
  | store p v k ih => simp [wp, trace, run, ih, Ctx.allows, and_assoc]

theorem run_frame {α : Type} (p : Prog α) (m : Mem) (q : Ptr) (h : Event.wr q ∉ trace p m) :
    (run p m).2 q = m q := by
  induction p generalizing m with
  | ret a => rfl
  | panic k => rfl
  | load p k ih =>
    simp only [trace, List.mem_cons, not_or] at h
    exact ih _ _ h.2
  | store p v k ih =>
    simp only [trace, List.mem_cons, not_or, Event.wr.injEq] at h
    simp only [run]
    rw [ih _ h.2]
    simp [Mem.set, h.1]

theorem wp_bind {α β : Type} {c : Ctx} {p : Prog α} {f : α → Prog β} {m : Mem}
    {Q : β → Mem → Prop} :
    wp c (p.bind f) m Q ↔ wp c p m (fun a m' => wp c (f a) m' Q) := by
  induction p generalizing m with
  | ret a => simp [wp, Prog.bind]
  | panic k => simp [wp, Prog.bind]
  | load p k ih => simp [wp, Prog.bind, ih]
  | store p v k ih => simp [wp, Prog.bind, ih]

/-- Consequence, with the frame: addresses outside the callee's write footprint are unchanged. -/
theorem wp_conseq {α : Type} {c c' : Ctx} {p : Prog α} {m : Mem} {Q Q' : α → Mem → Prop}
    (h : wp c p m Q) (hR : ∀ q, c.R q → c'.R q) (hW : ∀ q, c.W q → c'.W q)
    (hE : ∀ k m', (∀ q, ¬ c.W q → m' q = m q) → c.E k m' → c'.E k m')
    (hQ : ∀ a m', (∀ q, ¬ c.W q → m' q = m q) → Q a m' → Q' a m') : wp c' p m Q' := by
  induction p generalizing m with
  | ret a => exact hQ _ _ (fun _ _ => rfl) h
  | panic k => exact hE _ _ (fun _ _ => rfl) h
  | load p k ih => exact ⟨hR _ h.1, ih _ h.2 hE hQ⟩
  | store p v k ih =>
    have hs : ∀ q, ¬ c.W q → m.set p v q = m q := by
      intro q hq
      have : q ≠ p := fun e => hq (e ▸ h.1)
      simp [Mem.set, this]
    refine ⟨hW _ h.1, ih h.2 ?_ ?_⟩
    · intro k m' hf; exact hE k m' (fun q hq => (hf q hq).trans (hs q hq))
    · intro a m' hf; exact hQ a m' (fun q hq => (hf q hq).trans (hs q hq))

/-- Calling a function through its specification. -/
theorem wp_call {α β : Type} {c0 c : Ctx} {p : Prog α} {f : α → Prog β} {m : Mem}
    {Q0 : α → Mem → Prop} {Q : β → Mem → Prop} (h : wp c0 p m Q0)
    (hR : ∀ q, c0.R q → c.R q) (hW : ∀ q, c0.W q → c.W q)
    (hE : ∀ k m', (∀ q, ¬ c0.W q → m' q = m q) → c0.E k m' → c.E k m')
    (hQ : ∀ a m', (∀ q, ¬ c0.W q → m' q = m q) → Q0 a m' → wp c (f a) m' Q) :
    wp c (p.bind f) m Q := by
  rw [wp_bind]; exact wp_conseq h hR hW hE hQ

theorem wp_mono {α : Type} {c : Ctx} {p : Prog α} {m : Mem} {Q Q' : α → Mem → Prop}
    (h : wp c p m Q) (hQ : ∀ a m', Q a m' → Q' a m') : wp c p m Q' :=
  wp_conseq h (fun _ h => h) (fun _ h => h) (fun _ _ _ h => h) (fun a m' _ h => hQ a m' h)

/-- The frame as an explicit conclusion. -/
theorem wp_frame {α : Type} {c : Ctx} {p : Prog α} {m : Mem} {Q : α → Mem → Prop}
    (h : wp c p m Q) : wp c p m (fun a m' => Q a m' ∧ ∀ q, ¬ c.W q → m' q = m q) :=
  wp_conseq h (fun _ h => h) (fun _ h => h) (fun _ _ _ h => h) (fun _ _ hf h => ⟨h, hf⟩)

/-- Loops: an invariant and a decreasing measure bounded by the fuel. -/
theorem wp_loop {σ : Type} {c : Ctx} {cond : σ → Bool} {body : σ → Prog σ} {Q : σ → Mem → Prop}
    (I : σ → Mem → Prop) (μ : σ → Nat)
    (hbody : ∀ s m, I s m → cond s = true → wp c (body s) m (fun s' m' => I s' m' ∧ μ s' < μ s))
    (hpos : ∀ s m, I s m → cond s = true → 0 < μ s)
    (hexit : ∀ s m, I s m → cond s = false → Q s m)
    {fuel : Nat} {s : σ} {m : Mem} (hI : I s m) (hf : μ s ≤ fuel) :
    wp c (loop fuel cond body s) m Q := by
  induction fuel generalizing s m with
  | zero =>
    unfold loop
    by_cases hc : cond s = true
    · have := hpos s m hI hc; omega
    · simp only [hc]
      exact hexit s m hI (by simpa using hc)
  | succ n ih =>
    unfold loop
    by_cases hc : cond s = true
    · simp only [hc, if_true, Prog.bind_eq]
      rw [wp_bind]
      refine wp_mono (hbody s m hI hc) ?_
      intro s' m' h
      exact ih h.1 (by omega)
    · simp only [hc]
      exact hexit s m hI (by simpa using hc)

/-! ## Rules for the primitives -/

theorem wp_ret {α : Type} {c : Ctx} {a : α} {m : Mem} {Q : α → Mem → Prop} (h : Q a m) :
    wp c (.ret a) m Q := h

theorem wp_load8 {c : Ctx} {p : Ptr} {m : Mem} {Q : Byte → Mem → Prop} (hR : c.R p) (h : Q (m p) m) :
    wp c (load8 p) m Q := ⟨hR, h⟩

theorem wp_store8 {c : Ctx} {p : Ptr} {v : Byte} {m : Mem} {Q : Unit → Mem → Prop} (hW : c.W p)
    (h : Q () (m.set p v)) : wp c (store8 p v) m Q := ⟨hW, h⟩

/-- `s[a:]`, both outcomes. -/
theorem wp_from {e : Nat} {c : Ctx} {s : Slice e} {i : Int} {m : Mem} {Q : Slice e → Mem → Prop}
    (h : ∀ a : Nat, i = a → a ≤ s.len → Q ⟨s.blk, s.off + e * a, s.len - a, s.cap - a⟩ m)
    (hp : ¬ (0 ≤ i ∧ i ≤ s.len) → c.E .slice m) :
    wp c (s.from i) m Q := by
  unfold Slice.from
  split
  · rename_i hc
    exact h i.toNat (by omega) (by omega)
  · rename_i hc; exact hp hc

/-- `s[a:]`, in range. -/
theorem wp_from_ok {e : Nat} {c : Ctx} {s : Slice e} {i : Int} {m : Mem} {Q : Slice e → Mem → Prop}
    (a : Nat) (hi : i = a) (ha : a ≤ s.len)
    (h : Q ⟨s.blk, s.off + e * a, s.len - a, s.cap - a⟩ m) : wp c (s.from i) m Q := by
  refine wp_from ?_ ?_
  · intro b hb _
    have : b = a := by omega
    subst this; exact h
  · intro hn; omega

/-- `s[a:b]`, both outcomes. -/
theorem wp_range {e : Nat} {c : Ctx} {s : Slice e} {i j : Int} {m : Mem} {Q : Slice e → Mem → Prop}
    (h : ∀ a b : Nat, i = a → j = b → a ≤ b → b ≤ s.cap →
      Q ⟨s.blk, s.off + e * a, b - a, s.cap - a⟩ m)
    (hp : ¬ (0 ≤ i ∧ i ≤ j ∧ j ≤ s.cap) → c.E .slice m) :
    wp c (s.range i j) m Q := by
  unfold Slice.range
  split
  · rename_i hc
    exact h i.toNat j.toNat (by omega) (by omega) (by omega) (by omega)
  · rename_i hc; exact hp hc

theorem wp_range_ok {e : Nat} {c : Ctx} {s : Slice e} {i j : Int} {m : Mem} {Q : Slice e → Mem → Prop}
    (a b : Nat) (hi : i = a) (hj : j = b) (hab : a ≤ b) (hb : b ≤ s.cap)
    (h : Q ⟨s.blk, s.off + e * a, b - a, s.cap - a⟩ m) : wp c (s.range i j) m Q := by
  refine wp_range ?_ ?_
  · intro a' b' h1 h2 _ _
    have : a' = a := by omega
    have : b' = b := by omega
    subst_vars; exact h
  · intro hn; omega

/-- `s[i]`, both outcomes. -/
theorem wp_getB {c : Ctx} {s : Bytes} {i : Int} {m : Mem} {Q : Byte → Mem → Prop}
    (h : ∀ a : Nat, i = a → a < s.len → c.R ⟨s.blk, s.off + a⟩ ∧ Q (m ⟨s.blk, s.off + a⟩) m)
    (hp : ¬ (0 ≤ i ∧ i < s.len) → c.E .index m) : wp c (getB s i) m Q := by
  unfold getB
  split
  · exact h i.toNat (by omega) (by omega)
  · rename_i hc; exact hp hc

theorem wp_getB_ok {c : Ctx} {s : Bytes} {i : Int} {m : Mem} {Q : Byte → Mem → Prop}
    (a : Nat) (hi : i = a) (ha : a < s.len) (hR : c.R ⟨s.blk, s.off + a⟩)
    (h : Q (m ⟨s.blk, s.off + a⟩) m) : wp c (getB s i) m Q := by
  refine wp_getB ?_ ?_
  · intro b hb _
    have : b = a := by omega
    subst this; exact ⟨hR, h⟩
  · intro hn; omega

theorem wp_setB {c : Ctx} {s : Bytes} {i : Int} {v : Byte} {m : Mem} {Q : Unit → Mem → Prop}
    (h : ∀ a : Nat, i = a → a < s.len → c.W ⟨s.blk, s.off + a⟩ ∧ Q () (m.set ⟨s.blk, s.off + a⟩ v))
    (hp : ¬ (0 ≤ i ∧ i < s.len) → c.E .index m) : wp c (setB s i v) m Q := by
  unfold setB
  split
  · exact h i.toNat (by omega) (by omega)
  · rename_i hc; exact hp hc

theorem wp_setB_ok {c : Ctx} {s : Bytes} {i : Int} {v : Byte} {m : Mem} {Q : Unit → Mem → Prop}
    (a : Nat) (hi : i = a) (ha : a < s.len) (hW : c.W ⟨s.blk, s.off + a⟩)
    (h : Q () (m.set ⟨s.blk, s.off + a⟩ v)) : wp c (setB s i v) m Q := by
  refine wp_setB ?_ ?_
  · intro b hb _
    have : b = a := by omega
    subst this; exact ⟨hW, h⟩
  · intro hn; omega

/-- The 32-bit little-endian word at an address. -/
def wordAt (m : Mem) (b : Block) (o : Nat) : U32 :=
  m ⟨b, o + 3⟩ ++ m ⟨b, o + 2⟩ ++ m ⟨b, o + 1⟩ ++ m ⟨b, o⟩

theorem wordAt_congr {m m' : Mem} {b : Block} {o : Nat}
    (h : ∀ k < 4, m' ⟨b, o + k⟩ = m ⟨b, o + k⟩) : wordAt m' b o = wordAt m b o := by
  have h0 := h 0 (by omega)
  simp only [Nat.add_zero] at h0
  simp only [wordAt, h0, h 1 (by omega), h 2 (by omega), h 3 (by omega)]

/-- Memory after a 32-bit store. -/
def Mem.set32 (m : Mem) (b : Block) (o : Nat) (v : U32) : Mem :=
  (((m.set ⟨b, o⟩ (v.extractLsb' 0 8)).set ⟨b, o + 1⟩ (v.extractLsb' 8 8)).set ⟨b, o + 2⟩
    (v.extractLsb' 16 8)).set ⟨b, o + 3⟩ (v.extractLsb' 24 8)

theorem wordAt_set32_self (m : Mem) (b : Block) (o : Nat) (v : U32) :
    wordAt (m.set32 b o v) b o = v := by
  simp only [wordAt, Mem.set32, Mem.set, Ptr.mk.injEq, true_and]
  simp only [show ¬ (o + 2 = o + 3) by omega, show ¬ (o + 1 = o + 3) by omega,
    show ¬ (o + 1 = o + 2) by omega, show ¬ (o = o + 3) by omega, show ¬ (o = o + 2) by omega,
    show ¬ (o = o + 1) by omega, if_true, if_false]
  apply BitVec.eq_of_getLsbD_eq
  intro i hi
  simp only [BitVec.getLsbD_append, BitVec.getLsbD_extractLsb']
  by_cases h1 : i < 8
  · simp [h1]
  by_cases h2 : i < 16
  · simp [h1, show i - 8 < 8 by omega, show 8 + (i - 8) = i by omega]
  by_cases h3 : i < 24
  · simp [h1, show ¬ i - 8 < 8 by omega, show i - 8 - 8 < 8 by omega, 
      show 16 + (i - 8 - 8) = i by omega]
  · simp [h1, show ¬ i - 8 < 8 by omega, show ¬ i - 8 - 8 < 8 by omega,
      show 24 + (i - 8 - 8 - 8) = i by omega, show i - 8 - 8 - 8 < 8 by omega]

theorem set32_other (m : Mem) (b : Block) (o : Nat) (v : U32) (q : Ptr)
    (h : ¬ (q.blk = b ∧ o ≤ q.off ∧ q.off < o + 4)) : m.set32 b o v q = m q := by
  have : ∀ k < 4, q ≠ ⟨b, o + k⟩ := by
    rintro k hk rfl; exact h ⟨rfl, by simp, by simp; omega⟩
  have h0 := this 0 (by omega)
  simp only [Nat.add_zero] at h0
  simp only [Mem.set32, Mem.set, if_neg h0, if_neg (this 1 (by omega)), if_neg (this 2 (by omega)),
    if_neg (this 3 (by omega))]

theorem wordAt_set32_other (m : Mem) (b : Block) (o : Nat) (v : U32) (b' : Block) (o' : Nat)
    (h : b' ≠ b ∨ o' + 4 ≤ o ∨ o + 4 ≤ o') : wordAt (m.set32 b o v) b' o' = wordAt m b' o' := by
  apply wordAt_congr
  intro k hk
  apply set32_other
  rintro ⟨h1, h2, h3⟩
  simp only at h1 h2 h3
  rcases h with h | h | h
  · exact h h1
  · omega
  · omega

theorem wp_load32 {c : Ctx} {b : Block} {o : Nat} {m : Mem} {Q : U32 → Mem → Prop}
    (hR : ∀ k < 4, c.R ⟨b, o + k⟩) (h : Q (wordAt m b o) m) : wp c (load32 ⟨b, o⟩) m Q :=
  ⟨hR 0 (by omega), hR 1 (by omega), hR 2 (by omega), hR 3 (by omega), h⟩

theorem wp_store32 {c : Ctx} {b : Block} {o : Nat} {v : U32} {m : Mem} {Q : Unit → Mem → Prop}
    (hW : ∀ k < 4, c.W ⟨b, o + k⟩) (h : Q () (m.set32 b o v)) : wp c (store32 ⟨b, o⟩ v) m Q :=
  ⟨hW 0 (by omega), hW 1 (by omega), hW 2 (by omega), hW 3 (by omega), h⟩

theorem wp_getW {c : Ctx} {s : U32s} {i : Int} {m : Mem} {Q : U32 → Mem → Prop}
    (h : ∀ a : Nat, i = a → a < s.len →
      (∀ k < 4, c.R ⟨s.blk, s.off + 4 * a + k⟩) ∧ Q (wordAt m s.blk (s.off + 4 * a)) m)
    (hp : ¬ (0 ≤ i ∧ i < s.len) → c.E .index m) : wp c (getW s i) m Q := by
  unfold getW
  split
  · have := h i.toNat (by omega) (by omega)
    exact wp_load32 this.1 this.2
  · rename_i hc; exact hp hc

theorem wp_getW_ok {c : Ctx} {s : U32s} {i : Int} {m : Mem} {Q : U32 → Mem → Prop}
    (a : Nat) (hi : i = a) (ha : a < s.len) (hR : ∀ k < 4, c.R ⟨s.blk, s.off + 4 * a + k⟩)
    (h : Q (wordAt m s.blk (s.off + 4 * a)) m) : wp c (getW s i) m Q := by
  refine wp_getW ?_ ?_
  · intro b hb _
    have : b = a := by omega
    subst this; exact ⟨hR, h⟩
  · intro hn; omega

theorem wp_setW {c : Ctx} {s : U32s} {i : Int} {v : U32} {m : Mem} {Q : Unit → Mem → Prop}
    (h : ∀ a : Nat, i = a → a < s.len → (∀ k < 4, c.W ⟨s.blk, s.off + 4 * a + k⟩) ∧
      Q () (m.set32 s.blk (s.off + 4 * a) v))
    (hp : ¬ (0 ≤ i ∧ i < s.len) → c.E .index m) : wp c (setW s i v) m Q := by
  unfold setW
  split
  · have := h i.toNat (by omega) (by omega)
    exact wp_store32 this.1 this.2
  · rename_i hc; exact hp hc

theorem wp_setW_ok {c : Ctx} {s : U32s} {i : Int} {v : U32} {m : Mem} {Q : Unit → Mem → Prop}
    (a : Nat) (hi : i = a) (ha : a < s.len) (hW : ∀ k < 4, c.W ⟨s.blk, s.off + 4 * a + k⟩)
    (h : Q () (m.set32 s.blk (s.off + 4 * a) v)) : wp c (setW s i v) m Q := by
  refine wp_setW ?_ ?_
  · intro b hb _
    have : b = a := by omega
    subst this; exact ⟨hW, h⟩
  · intro hn; omega

end SVB
