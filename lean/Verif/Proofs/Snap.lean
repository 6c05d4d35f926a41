import Verif.Proofs.SimThreads

/-! # Reads of changing memory, compared with a run on a snapshot

`own` is the memory that the others leave alone, `may` says which bytes can be found elsewhere.  `Snap D p Q`: whatever
the loads of `p` deliver, `p` ends as it would on some fixed memory; that memory is determined by `p` at addresses of `D`
only, and what is left of `D` is free for the rest of the program.  `J` holds of the memory all the time (the tables, and
whatever else nobody changes). -/

set_option autoImplicit false

namespace SVB
open Spec Asm

section
variable (own : Ptr → Prop) (may : Ptr → Byte → Prop) (J : Mem → Prop)

/-- Outcomes of `p` when loads outside `own` deliver any byte that `may` allows. -/
def Can {α : Type} : Prog α → Mem → Outcome α → Mem → Prop
  | .ret a, m, o, m' => o = .ok a ∧ m' = m
  | .panic k, m, o, m' => o = .panic k ∧ m' = m
  | .load q k, m, o, m' => (own q ∧ Can (k (m q)) m o m') ∨ (¬ own q ∧ ∃ b, may q b ∧ Can (k b) m o m')
  | .store q v k, m, o, m' => Can k (m.set q v) o m'

/-- See the head of the file. -/
def Snap {α : Type} (D : Ptr → Prop) (p : Prog α) (Q : α → (Ptr → Prop) → Prop) : Prop :=
  ∀ m o m', J m → Can own may p m o m' → J m' ∧
    ∃ (σ : Mem) (D' : Ptr → Prop), (∀ q, D' q → D q) ∧ (∀ q, ¬ own q → D q → ¬ D' q → may q (σ q)) ∧
      (∀ a, o = .ok a → Q a D') ∧
      ∀ mq, (∀ q, own q → mq q = m q) → (∀ q, ¬ own q → D q → ¬ D' q → mq q = σ q) →
        ∃ mq', run p mq = (o, mq') ∧ (∀ q, own q → mq' q = m' q) ∧ ∀ q, ¬ own q → mq' q = mq q

end

variable {own : Ptr → Prop} {may : Ptr → Byte → Prop} {J : Mem → Prop} {α β : Type}

theorem can_bind {p : Prog α} {f : α → Prog β} {m m' : Mem} {o : Outcome β} (h : Can own may (p.bind f) m o m') :
    (∃ a m1, Can own may p m (.ok a) m1 ∧ Can own may (f a) m1 o m') ∨
    ∃ k, o = .panic k ∧ Can own may p m (.panic k) m' := by
  induction p generalizing m with
  | ret a => exact .inl ⟨a, m, ⟨rfl, rfl⟩, h⟩
  | panic k => exact .inr ⟨k, h.1, rfl, h.2⟩
  | load q k ih =>
    rcases h with ⟨h0, h⟩ | ⟨h0, b, hb, h⟩
    · rcases ih _ h with ⟨a, m1, h1, h2⟩ | ⟨x, h1, h2⟩
      · exact .inl ⟨a, m1, .inl ⟨h0, h1⟩, h2⟩
      · exact .inr ⟨x, h1, .inl ⟨h0, h2⟩⟩
    · rcases ih _ h with ⟨a, m1, h1, h2⟩ | ⟨x, h1, h2⟩
      · exact .inl ⟨a, m1, .inr ⟨h0, b, hb, h1⟩, h2⟩
      · exact .inr ⟨x, h1, .inr ⟨h0, b, hb, h2⟩⟩
  | store q v k ih =>
    rcases ih h with ⟨a, m1, h1, h2⟩ | ⟨x, h1, h2⟩
    · exact .inl ⟨a, m1, h1, h2⟩
    · exact .inr ⟨x, h1, h2⟩

/-! ## Rules -/

theorem snap_ret {D : Ptr → Prop} {a : α} {Q : α → (Ptr → Prop) → Prop} (h : Q a D) : Snap own may J D (.ret a) Q := by
  rintro m o m' hT ⟨rfl, rfl⟩
  exact ⟨hT, m', D, fun _ h => h, fun _ _ h h' => absurd h h', fun _ e => by cases e; exact h,
    fun mq h1 _ => ⟨mq, rfl, h1, fun _ _ => rfl⟩⟩

theorem snap_panic {D : Ptr → Prop} {k : Panic} {Q : α → (Ptr → Prop) → Prop} : Snap own may J D (.panic k) Q := by
  rintro m o m' hT ⟨rfl, rfl⟩
  exact ⟨hT, m', D, fun _ h => h, fun _ _ h h' => absurd h h', (fun _ e => nomatch e),
    fun mq h1 _ => ⟨mq, rfl, h1, fun _ _ => rfl⟩⟩

theorem snap_bind {D : Ptr → Prop} {p : Prog α} {f : α → Prog β} {Q : α → (Ptr → Prop) → Prop}
    {S : β → (Ptr → Prop) → Prop} (h : Snap own may J D p Q) (hf : ∀ a D', Q a D' → Snap own may J D' (f a) S) :
    Snap own may J D (p.bind f) S := by
  intro m o m' hT hc
  rcases can_bind hc with ⟨a, m1, h1, h2⟩ | ⟨k, rfl, h1⟩
  · obtain ⟨hT1, σ1, D1, s1, y1, q1, r1⟩ := h m _ m1 hT h1
    obtain ⟨hT2, σ2, D2, s2, y2, q2, r2⟩ := hf a D1 (q1 a rfl) m1 o m' hT1 h2
    refine ⟨hT2, fun q => open Classical in if D1 q then σ2 q else σ1 q, D2, fun q hq => s1 q (s2 q hq), ?_, q2, ?_⟩
    · intro q ho hd hd'
      by_cases e : D1 q
      · simp only [if_pos e]; exact y2 q ho e hd'
      · simp only [if_neg e]; exact y1 q ho hd e
    · intro mq ha hb
      obtain ⟨mq1, e1, a1, b1⟩ := r1 mq ha fun q ho hd hd' =>
        (hb q ho hd fun h => hd' (s2 q h)).trans (if_neg hd')
      obtain ⟨mq2, e2, a2, b2⟩ := r2 mq1 a1 fun q ho hd hd' =>
        (b1 q ho).trans ((hb q ho (s1 q hd) hd').trans (if_pos hd))
      refine ⟨mq2, ?_, a2, fun q ho => (b2 q ho).trans (b1 q ho)⟩
      rw [run_bind, e1]; exact e2
  · obtain ⟨hT1, σ1, D1, s1, y1, q1, r1⟩ := h m _ m' hT h1
    refine ⟨hT1, σ1, D1, s1, y1, (fun _ e => nomatch e), fun mq ha hb => ?_⟩
    obtain ⟨mq1, e1, a1, b1⟩ := r1 mq ha hb
    exact ⟨mq1, by rw [run_bind, e1], a1, b1⟩

theorem snap_mono {D : Ptr → Prop} {p : Prog α} {Q S : α → (Ptr → Prop) → Prop} (h : Snap own may J D p Q)
    (hS : ∀ a D', Q a D' → S a D') : Snap own may J D p S := by
  intro m o m' hT hc
  obtain ⟨hT1, σ1, D1, s1, y1, q1, r1⟩ := h m _ m' hT hc
  exact ⟨hT1, σ1, D1, s1, y1, fun a e => hS a D1 (q1 a e), r1⟩

theorem snap_load {D : Ptr → Prop} {q : Ptr} {k : Byte → Prog α} {Q : α → (Ptr → Prop) → Prop} (h : own q ∨ D q)
    (hk : ∀ b, (own q → ∃ m, J m ∧ m q = b) → Snap own may J (fun x => D x ∧ (x = q → own q)) (k b) Q) :
    Snap own may J D (.load q k) Q := by
  intro m o m' hT hcan
  rcases hcan with ⟨ho, hcan⟩ | ⟨ho, b, hb, hcan⟩
  · obtain ⟨hT1, σ1, D1, s1, y1, q1, r1⟩ := hk _ (fun _ => ⟨m, hT, rfl⟩) m o m' hT hcan
    refine ⟨hT1, σ1, D1, fun x hx => (s1 x hx).1, fun x hx hd => y1 x hx ⟨hd, fun e => ho⟩, q1,
      fun mq h1 h2 => ?_⟩
    obtain ⟨mq', e, e1, e2⟩ := r1 mq h1 fun x hx hd => h2 x hx hd.1
    exact ⟨mq', by rw [run, h1 q ho]; exact e, e1, e2⟩
  · have hD : D q := h.resolve_left ho
    obtain ⟨hT1, σ1, D1, s1, y1, q1, r1⟩ := hk b (fun h => absurd h ho) m o m' hT hcan
    have hn : ¬ D1 q := fun hx => ho ((s1 q hx).2 rfl)
    refine ⟨hT1, σ1.set q b, D1, fun x hx => (s1 x hx).1, fun x hx hd hd' => ?_, q1, fun mq h1 h2 => ?_⟩
    · by_cases e : x = q
      · subst e; rw [Mem.set_same]; exact hb
      · rw [Mem.set_ne _ _ e]; exact y1 x hx ⟨hd, fun h => absurd h e⟩ hd'
    · obtain ⟨mq', e, e1, e2⟩ := r1 mq h1 fun x hx hd hd' => by
        have hne : x ≠ q := fun e => ho (hd.2 e)
        rw [h2 x hx hd.1 hd', Mem.set_ne _ _ hne]
      have : mq q = b := by rw [h2 q ho hD hn, Mem.set_same]
      exact ⟨mq', by rw [run, this]; exact e, e1, e2⟩

theorem snap_store {D : Ptr → Prop} {q : Ptr} {v : Byte} {k : Prog α} {Q : α → (Ptr → Prop) → Prop} (ho : own q)
    (hJ : ∀ m, J m → J (m.set q v)) (hk : Snap own may J D k Q) : Snap own may J D (.store q v k) Q := by
  intro m o m' hT hcan
  obtain ⟨hT1, σ1, D1, s1, y1, q1, r1⟩ := hk _ o m' (hJ m hT) hcan
  refine ⟨hT1, σ1, D1, s1, y1, q1, fun mq h1 h2 => ?_⟩
  obtain ⟨mq', e, e1, e2⟩ := r1 (mq.set q v) (fun x hx => by
    by_cases h : x = q
    · subst h; rw [Mem.set_same, Mem.set_same]
    · rw [Mem.set_ne _ _ h, Mem.set_ne _ _ h]; exact h1 x hx) fun x hx hd hd' => by
      rw [Mem.set_ne _ _ (by rintro rfl; exact hx ho)]; exact h2 x hx hd hd'
  exact ⟨mq', by rw [run]; exact e, e1, fun x hx => (e2 x hx).trans (Mem.set_ne _ _ (by rintro rfl; exact hx ho))⟩

/-- Code that touches own memory only. -/
theorem snap_of_tri {P : Panic → Prop} {F : Fp} {p : Prog α} {Q : α → Prop} (hR : ∀ q, F.R q → own q)
    (hW : ∀ q, F.W q → own q) (hJ : ∀ m, J m → TablesLoaded m) (hJ' : ∀ q v m, F.W q → J m → J (m.set q v))
    (h : TriP P F p Q) {D : Ptr → Prop} :
    Snap own may J D p (fun a D' => Q a ∧ D' = D) := by
  induction p with
  | ret a => exact snap_ret ⟨h, rfl⟩
  | panic k => exact snap_panic
  | load q k ih =>
    rintro m o m' hT (⟨ho, hcan⟩ | ⟨ho, -⟩)
    · obtain ⟨hT1, σ1, D1, s1, y1, q1, r1⟩ := ih _ (h.2 _ ⟨m, hJ m hT, rfl⟩) m o m' hT hcan
      refine ⟨hT1, σ1, D1, s1, y1, q1, fun mq h1 h2 => ?_⟩
      obtain ⟨mq', e, e'⟩ := r1 mq h1 h2
      exact ⟨mq', by rw [run, h1 q ho]; exact e, e'⟩
    · exact absurd (hR q h.1) ho
  | store q v k ih => exact snap_store (hW q h.1) (fun m => hJ' q v m h.1) (ih h.2)

theorem snap_loop {σ : Type} {cond : σ → Bool} {body : σ → Prog σ} (I : σ → (Ptr → Prop) → Prop)
    (hb : ∀ s D, I s D → cond s = true → Snap own may J D (body s) I) (n : Nat) :
    ∀ {s : σ} {D : Ptr → Prop}, I s D → Snap own may J D (loop n cond body s) (fun s D => I s D ∧ cond s = false) := by
  induction n with
  | zero =>
    intro s D hI
    unfold loop
    split
    · exact snap_panic
    · rename_i h; exact snap_ret ⟨hI, by simpa using h⟩
  | succ n ih =>
    intro s D hI
    unfold loop
    split
    · rename_i h; exact snap_bind (hb s D hI h) fun s' D' h' => ih h'
    · rename_i h; exact snap_ret ⟨hI, by simpa using h⟩

/-! ## From histories -/

/-- A finished history is one of the possible outcomes. -/
theorem Under.can {P : Panic → Prop} {F : Fp} {Q : α → Prop} {p r : Prog α} {m m' : Mem} (hu : Under own may p m r m')
    (hc : ∀ q : Ptr, q.blk.isConst = true → own q) (hW : ∀ q, F.W q → own q) (ht : TriP P F p Q)
    (hT : TablesLoaded m) (h0 : ∀ q, ¬ own q → may q (m q)) {o : Outcome α} (ho : r = o.done) {mc : Mem}
    (hm : ∀ q, own q → mc q = m q) :
    ∃ mc', Can own may p mc o mc' ∧ ∀ q, own q → mc' q = m' q := by
  induction hu generalizing mc with
  | now p m =>
    subst ho
    cases o with
    | ok a => exact ⟨mc, ⟨rfl, rfl⟩, hm⟩
    | panic k => exact ⟨mc, ⟨rfl, rfl⟩, hm⟩
  | others h h' _ ih =>
    exact ih ht (hT.frame fun q hq => h q (hc q hq)) h' ho fun q hq => (hm q hq).trans (h q hq).symm
  | @load q k p' m m' _ ih =>
    obtain ⟨mc', h1, h2⟩ := ih (ht.2 _ ⟨m, hT, rfl⟩) hT h0 ho hm
    refine ⟨mc', ?_, h2⟩
    by_cases e : own q
    · exact .inl ⟨e, by rw [hm q e]; exact h1⟩
    · exact .inr ⟨e, _, h0 q e, h1⟩
  | @store q v k p' m m' _ ih =>
    refine ih ht.2 (hT.frame fun x hx => Mem.set_ne _ _ ?_) (fun x hx => ?_) ho fun x hx => ?_
    · rintro rfl
      have := F.heap _ ht.1
      rw [hx] at this; cases this
    · rw [Mem.set_ne _ _ (by rintro rfl; exact hx (hW _ ht.1))]; exact h0 x hx
    · by_cases e : x = q
      · subst e; rw [Mem.set_same, Mem.set_same]
      · rw [Mem.set_ne _ _ e, Mem.set_ne _ _ e]; exact hm x hx

/-- A finished history ends like a run on a snapshot of the memory. -/
theorem Snap.sound {P : Panic → Prop} {F : Fp} {Q : α → Prop} {S : α → (Ptr → Prop) → Prop} {D : Ptr → Prop}
    {p : Prog α} {m m' : Mem} {o : Outcome α} (hs : Snap own may J D p S) (hu : Under own may p m o.done m')
    (hc : ∀ q : Ptr, q.blk.isConst = true → own q) (hW : ∀ q, F.W q → own q) (ht : TriP P F p Q)
    (hJ : J m) (hT : TablesLoaded m) (h0 : ∀ q, ¬ own q → may q (m q)) :
    ∃ ms ms' : Mem, (∀ q, own q → ms q = m q) ∧ (∀ q, ¬ own q → may q (ms q)) ∧ run p ms = (o, ms') ∧
      ∀ q, own q → ms' q = m' q := by
  obtain ⟨mc', h1, h2⟩ := hu.can hc hW ht hT h0 rfl (mc := m) fun _ _ => rfl
  obtain ⟨-, σ, D', -, y, -, r⟩ := hs m o mc' hJ h1
  obtain ⟨ms', e, e1, -⟩ := r (fun q => open Classical in if ¬ own q ∧ D q ∧ ¬ D' q then σ q else m q)
    (fun q hq => if_neg fun h => h.1 hq) (fun q h a b => if_pos ⟨h, a, b⟩)
  refine ⟨_, ms', fun q hq => if_neg fun h => h.1 hq, fun q hq => ?_, e, fun q hq => (e1 q hq).trans (h2 q hq)⟩
  show may q (open Classical in if ¬ own q ∧ D q ∧ ¬ D' q then σ q else m q)
  split
  · rename_i h; exact y q h.1 h.2.1 h.2.2
  · exact h0 q hq

end SVB
