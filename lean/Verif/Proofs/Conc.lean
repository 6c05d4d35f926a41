import Verif.Model.Conc
import Verif.Proofs.Wp

/-! # Threads with separate footprints do not interfere -/

set_option autoImplicit false

namespace SVB

section
variable {ι : Type} [DecidableEq ι] {α : ι → Type}

/-- Thread `i` may load from `R i` and store to `W i`; nobody else stores there. -/
structure Separate (R W : ι → Ptr → Prop) : Prop where
  rw : ∀ i j q, i ≠ j → W i q → ¬ R j q
  ww : ∀ i j q, i ≠ j → W i q → ¬ W j q

/-- State of thread `i` relative to its sequential execution: `mi` is the memory of the latter at the same
point. -/
structure Sync (R W : Ptr → Prop) {β : Type} (p0 : Prog β) (m0 : Mem) (p : Prog β) (m mi : Mem) (used : Nat) :
    Prop where
  agree : ∀ q, R q ∨ W q → mi q = m q
  same : run p mi = run p0 m0
  foot : ∀ e ∈ trace p mi, (Ctx.mk R W fun _ _ => True).allows e
  left : (trace p mi).length ≤ (trace p0 m0).length - used

theorem Sync.used {R W : Ptr → Prop} {β : Type} {p0 p : Prog β} {m0 m mi : Mem} {u u' : Nat}
    (h : Sync R W p0 m0 p m mi u) (hu : u' ≤ u) : Sync R W p0 m0 p m mi u' :=
  ⟨h.agree, h.same, h.foot, by have := h.left; omega⟩

/-- The thread that makes the step. -/
theorem Sync.step {R W : Ptr → Prop} {p0 : ∀ i, Prog (α i)} {m0 mi : Mem} {c : Conf α} {i : ι} {u : Nat}
    (h : Sync R W (p0 i) m0 (c.prog i) c.mem mi u) :
    ∃ mi', Sync R W (p0 i) m0 ((c.turn i).prog i) (c.turn i).mem mi' (u + 1) ∧
      ∀ q, ¬ W q → (c.turn i).mem q = c.mem q := by
  obtain ⟨h1, h2, h3, h4⟩ := h
  unfold Conf.turn
  cases hp : c.prog i with
  | ret a => rw [hp] at h2 h3 h4; exact ⟨mi, by rw [hp]; exact ⟨h1, h2, h3, by simp [trace]⟩, fun _ _ => rfl⟩
  | panic k => rw [hp] at h2 h3 h4; exact ⟨mi, by rw [hp]; exact ⟨h1, h2, h3, by simp [trace]⟩, fun _ _ => rfl⟩
  | load p k =>
    rw [hp] at h2 h3 h4
    have hR : R p := h3 (.rd p) (by simp [trace])
    have he : mi p = c.mem p := h1 p (.inl hR)
    simp only [trace, run, he] at h2 h3 h4
    refine ⟨mi, ?_, fun _ _ => rfl⟩
    simp only [↓reduceDIte]
    exact ⟨h1, h2, fun e he' => h3 e (List.mem_cons_of_mem _ he'), by
      simp only [List.length_cons] at h4; omega⟩
  | store p v k =>
    rw [hp] at h2 h3 h4
    have hW : W p := h3 (.wr p) (by simp [trace])
    simp only [trace, run] at h2 h3 h4
    refine ⟨mi.set p v, ?_, fun q hq => ?_⟩
    · simp only [↓reduceDIte]
      refine ⟨fun q hq => ?_, h2, fun e he' => h3 e (List.mem_cons_of_mem _ he'), by
        simp only [List.length_cons] at h4; omega⟩
      unfold Mem.set; split
      · rfl
      · exact h1 q hq
    · have : q ≠ p := fun e => hq (e ▸ hW)
      simp [Mem.set, this]

theorem turn_other {c : Conf α} {i j : ι} (h : j ≠ i) : (c.turn i).prog j = c.prog j := by
  unfold Conf.turn
  split <;> simp [h]

theorem exec_sync {R W : ι → Ptr → Prop} {p0 : ∀ i, Prog (α i)} {m0 : Mem} (hs : Separate R W)
    (sched : List ι) (c : Conf α) (u : ι → Nat)
    (h : ∀ i, ∃ mi, Sync (R i) (W i) (p0 i) m0 (c.prog i) c.mem mi (u i))
    (hf : ∀ q, (∀ i, ¬ W i q) → c.mem q = m0 q) :
    (∀ i, ∃ mi, Sync (R i) (W i) (p0 i) m0 ((c.exec sched).prog i) (c.exec sched).mem mi
      (u i + sched.count i)) ∧ ∀ q, (∀ i, ¬ W i q) → (c.exec sched).mem q = m0 q := by
  induction sched generalizing c u with
  | nil => exact ⟨fun i => by simpa [Conf.exec] using h i, hf⟩
  | cons a l ih =>
    obtain ⟨ma, hma⟩ := h a
    obtain ⟨ma', hma', hfr⟩ := hma.step
    have h' : ∀ i, ∃ mi, Sync (R i) (W i) (p0 i) m0 ((c.turn a).prog i) (c.turn a).mem mi
        (if i = a then u i + 1 else u i) := by
      intro i
      by_cases hi : i = a
      · subst hi; rw [if_pos rfl]; exact ⟨ma', hma'⟩
      · rw [if_neg hi, turn_other hi]
        obtain ⟨mi, hmi⟩ := h i
        refine ⟨mi, fun q hq => ?_, hmi.same, hmi.foot, hmi.left⟩
        rw [hmi.agree q hq, hfr q]
        intro hw
        rcases hq with hq | hq
        · exact hs.rw a i q (Ne.symm hi) hw hq
        · exact hs.ww a i q (Ne.symm hi) hw hq
    have := ih (c.turn a) (fun i => if i = a then u i + 1 else u i) h' fun q hq => by
      rw [hfr q (hq a), hf q hq]
    refine ⟨fun i => ?_, this.2⟩
    obtain ⟨mi, hmi⟩ := this.1 i
    refine ⟨mi, hmi.used ?_⟩
    rw [List.count_cons]
    by_cases hi : i = a
    · subst hi; simp; omega
    · have : (a == i) = false := by simpa using fun h => hi h.symm
      simp [hi, this]

theorem done_of_trace {β : Type} {p : Prog β} {m : Mem} (h : (trace p m).length = 0) :
    p = (run p m).1.done ∧ (run p m).2 = m := by
  cases p with
  | ret a => exact ⟨rfl, rfl⟩
  | panic k => exact ⟨rfl, rfl⟩
  | load q k => simp [trace] at h
  | store q v k => simp [trace] at h

/-- Non-interference.  If the sequential executions of all threads from `m` stay in separate footprints, then
under every schedule that gives each thread enough turns every thread ends exactly as if it had run alone, its
part of memory is as if it had run alone, and memory outside all write footprints is unchanged. -/
theorem noninterference {R W : ι → Ptr → Prop} {p : ∀ i, Prog (α i)} {m : Mem} (hs : Separate R W)
    (hfoot : ∀ i, ∀ e ∈ trace (p i) m, (Ctx.mk (R i) (W i) fun _ _ => True).allows e) (sched : List ι)
    (hfair : ∀ i, (trace (p i) m).length ≤ sched.count i) :
    (∀ i, (Conf.exec ⟨p, m⟩ sched).prog i = (run (p i) m).1.done ∧
      ∀ q, R i q ∨ W i q → (Conf.exec ⟨p, m⟩ sched).mem q = (run (p i) m).2 q) ∧
    ∀ q, (∀ i, ¬ W i q) → (Conf.exec ⟨p, m⟩ sched).mem q = m q := by
  have h := exec_sync (p0 := p) (m0 := m) hs sched ⟨p, m⟩ (fun _ => 0)
    (fun i => ⟨m, fun _ _ => rfl, rfl, hfoot i, by simp⟩) (fun _ _ => rfl)
  refine ⟨fun i => ?_, h.2⟩
  obtain ⟨mi, hmi⟩ := h.1 i
  have hd := done_of_trace (p := (Conf.exec ⟨p, m⟩ sched).prog i) (m := mi) (by
    have := hmi.left; have := hfair i; omega)
  rw [hmi.same] at hd
  exact ⟨hd.1, fun q hq => by rw [hd.2, hmi.agree q hq]⟩

end

end SVB
