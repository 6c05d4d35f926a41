import Verif.Model.Race
import Verif.Proofs.Safe
import Verif.Proofs.Work

/-! # Programs under interference -/

set_option autoImplicit false

namespace SVB

variable {α : Type}

theorem Raced.tri {P : Panic → Prop} {F : Fp} {Q : α → Prop} {p p' : Prog α} {m m' : Mem} {t : List Event}
    (h : Raced p m t p' m') (hp : TriP P F p Q) (hT : TablesLoaded m) :
    (∀ q, Event.rd q ∈ t → F.R q) ∧ (∀ q, Event.wr q ∈ t → F.W q) ∧ TriP P F p' Q := by
  induction h with
  | now => exact ⟨by simp, by simp, hp⟩
  | others h _ ih => exact ih hp (hT.frame h)
  | @load q k p' m m' t _ ih =>
    obtain ⟨a, b, c⟩ := ih (hp.2 _ ⟨m, hT, rfl⟩) hT
    refine ⟨fun x hx => ?_, fun x hx => ?_, c⟩
    · rcases List.mem_cons.1 hx with h | h
      · cases h; exact hp.1
      · exact a _ h
    · rcases List.mem_cons.1 hx with h | h
      · cases h
      · exact b _ h
  | @store q v k p' m m' t _ ih =>
    obtain ⟨a, b, c⟩ := ih hp.2 (hT.frame fun x hx => Mem.set_ne _ _ (by
      rintro rfl
      have := F.heap _ hp.1
      rw [hx] at this; cases this))
    refine ⟨fun x hx => ?_, fun x hx => ?_, c⟩
    · rcases List.mem_cons.1 hx with h | h
      · cases h
      · exact a _ h
    · rcases List.mem_cons.1 hx with h | h
      · cases h; exact hp.1
      · exact b _ h

theorem bd_load {Q : Nat → α → Prop} {k : Nat} {q : Ptr} {f : Byte → Prog α} (h : Bd Q k (.load q f)) (b : Byte) :
    ∃ k', k = k' + 1 ∧ Bd Q k' (f b) := by
  generalize hp : Prog.load q f = p at h
  induction h with
  | ret _ => cases hp
  | panic => cases hp
  | load h _ => cases hp; exact ⟨_, rfl, h b⟩
  | store _ _ => cases hp
  | weaken _ ih => obtain ⟨k', rfl, h⟩ := ih hp; exact ⟨_, rfl, .weaken h⟩

theorem bd_store {Q : Nat → α → Prop} {k : Nat} {q : Ptr} {v : Byte} {f : Prog α} (h : Bd Q k (.store q v f)) :
    ∃ k', k = k' + 1 ∧ Bd Q k' f := by
  generalize hp : Prog.store q v f = p at h
  induction h with
  | ret _ => cases hp
  | panic => cases hp
  | load _ _ => cases hp
  | store h _ => cases hp; exact ⟨_, rfl, h⟩
  | weaken _ ih => obtain ⟨k', rfl, h⟩ := ih hp; exact ⟨_, rfl, .weaken h⟩

theorem Raced.bd {Q : Nat → α → Prop} {k : Nat} {p p' : Prog α} {m m' : Mem} {t : List Event}
    (h : Raced p m t p' m') (hb : Bd Q k p) : t.length ≤ k := by
  induction h generalizing k with
  | now => exact Nat.zero_le _
  | others _ _ ih => exact ih hb
  | load _ ih =>
    obtain ⟨k', rfl, h⟩ := bd_load hb _
    have := ih h
    simp only [List.length_cons]; omega
  | store _ ih =>
    obtain ⟨k', rfl, h⟩ := bd_store hb
    have := ih h
    simp only [List.length_cons]; omega

theorem Raced.trans {p p' p'' : Prog α} {m m' m'' : Mem} {t t' : List Event} (h : Raced p m t p' m')
    (h' : Raced p' m' t' p'' m'') : Raced p m (t ++ t') p'' m'' := by
  induction h with
  | now => exact h'
  | others h _ ih => exact .others h (ih h')
  | load _ ih => exact .load (ih h')
  | store _ ih => exact .store (ih h')

/-- Without interference. -/
theorem Raced.alone (p : Prog α) (m : Mem) :
    Raced p m (trace p m) (match (run p m).1 with | .ok a => .ret a | .panic k => .panic k) (run p m).2 := by
  induction p generalizing m with
  | ret a => exact .now _ _
  | panic k => exact .now _ _
  | load q k ih => exact .load (ih _ _)
  | store q v k ih => exact .store (ih _)

theorem TriP.spares {P : Panic → Prop} {F : Fp} {Q : α → Prop} {p : Prog α} (h : TriP P F p Q) : SparesTables p := by
  induction p with
  | ret => trivial
  | panic => trivial
  | load q k ih => exact fun m hm => ih _ (h.2 _ ⟨m, hm, rfl⟩)
  | store q v k ih => exact ⟨F.heap _ h.1, ih h.2⟩

section
variable {ι : Type} [DecidableEq ι] {β : ι → Type}

theorem Conf.turn_tables {c : Conf β} (h : ∀ j, SparesTables (c.prog j)) (hT : TablesLoaded c.mem) (i : ι) :
    TablesLoaded (c.turn i).mem := by
  have hi := h i
  unfold Conf.turn
  split <;> rename_i hp
  · exact hT
  · exact hT
  · exact hT
  · rw [hp] at hi
    refine hT.frame fun q hq => Mem.set_ne _ _ ?_
    rintro rfl
    rw [hi.1] at hq; cases hq

theorem Conf.turn_spares {c : Conf β} (h : ∀ j, SparesTables (c.prog j)) (hT : TablesLoaded c.mem) (i j : ι) :
    SparesTables ((c.turn i).prog j) := by
  have hi := h i
  unfold Conf.turn
  split
  · exact h j
  · exact h j
  · rename_i hp
    rw [hp] at hi
    by_cases e : j = i
    · subst e; simp only [↓reduceDIte]; exact hi _ hT
    · simp only [e, ↓reduceDIte]; exact h j
  · rename_i hp
    rw [hp] at hi
    by_cases e : j = i
    · subst e; simp only [↓reduceDIte]; exact hi.2
    · simp only [e, ↓reduceDIte]; exact h j

/-- One's own turn. -/
theorem Conf.turn_self (c : Conf β) (i : ι) :
    Raced (c.prog i) c.mem (c.prog i).next ((c.turn i).prog i) (c.turn i).mem := by
  unfold Conf.turn
  split <;> rename_i hp <;> simp only [hp, Prog.next, ↓reduceDIte]
  · exact .now _ _
  · exact .now _ _
  · exact .load (.now _ _)
  · exact .store (.now _ _)

/-- Somebody else's turn. -/
theorem Conf.turn_other {c : Conf β} (h : ∀ j, SparesTables (c.prog j)) {i j : ι} (e : j ≠ i) :
    Raced (c.prog i) c.mem [] ((c.turn j).prog i) (c.turn j).mem := by
  have hj := h j
  have e' : ¬ i = j := fun h => e h.symm
  unfold Conf.turn
  split <;> rename_i hp
  · exact .now _ _
  · exact .now _ _
  · simp only [e', ↓reduceDIte]; exact .now _ _
  · simp only [e', ↓reduceDIte]
    rw [hp] at hj
    refine .others (fun q hq => Mem.set_ne _ _ ?_) (.now _ _)
    rintro rfl
    rw [hj.1] at hq; cases hq

theorem Conf.exec_raced {c : Conf β} (h : ∀ j, SparesTables (c.prog j)) (hT : TablesLoaded c.mem) (sched : List ι) (i : ι) :
    Raced (c.prog i) c.mem (c.accesses i sched) ((c.exec sched).prog i) (c.exec sched).mem := by
  induction sched generalizing c with
  | nil => exact .now _ _
  | cons j s ih =>
    have hi := ih (c := c.turn j) (fun k => Conf.turn_spares h hT j k) (Conf.turn_tables h hT j)
    unfold Conf.accesses
    by_cases e : j = i
    · subst e
      simp only [↓reduceIte]
      exact (c.turn_self j).trans hi
    · simp only [e, ↓reduceIte]
      exact (Conf.turn_other h e).trans hi

/-- A thread that is not stopped uses each of its turns. -/
theorem Conf.accesses_length (c : Conf β) (sched : List ι) (i : ι)
    (h : ((c.exec sched).prog i).next ≠ []) : (c.accesses i sched).length = sched.count i := by
  induction sched generalizing c with
  | nil => rfl
  | cons j s ih =>
    have hi := ih (c.turn j) h
    unfold Conf.accesses
    by_cases e : j = i
    · subst e
      simp only [↓reduceIte, List.length_append, hi, List.count_cons_self]
      have : (c.prog j).next.length = 1 := by
        cases hp : c.prog j with
        | load => rfl
        | store => rfl
        | ret a =>
          exfalso; apply h
          have : ∀ s : List ι, ∀ c : Conf β, c.prog j = .ret a → ((c.exec s).prog j) = .ret a := by
            intro s
            induction s with
            | nil => intro c h; exact h
            | cons k s ih =>
              intro c h
              refine ih (c.turn k) ?_
              unfold Conf.turn
              by_cases e : j = k
              · subst e; rw [h]; simpa using h
              · split <;> simp [e, h]
          rw [this _ c hp]; rfl
        | panic a =>
          exfalso; apply h
          have : ∀ s : List ι, ∀ c : Conf β, c.prog j = .panic a → ((c.exec s).prog j) = .panic a := by
            intro s
            induction s with
            | nil => intro c h; exact h
            | cons k s ih =>
              intro c h
              refine ih (c.turn k) ?_
              unfold Conf.turn
              by_cases e : j = k
              · subst e; rw [h]; simpa using h
              · split <;> simp [e, h]
          rw [this _ c hp]; rfl
      omega
    · rw [List.count_cons_of_ne e]
      simpa [e] using hi

end
end SVB
