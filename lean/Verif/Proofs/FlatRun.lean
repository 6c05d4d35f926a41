import Verif.Model.FlatRun
import Verif.Proofs.FlatCall
import Verif.Proofs.Results

/-! # The library on flat memory -/

set_option autoImplicit false

namespace SVB.Flat
open Asm Spec

variable {L : Layout} {stk : Addr → Prop}

/-- The loads and stores of the layout, any end. -/
def Layout.any (L : Layout) : Ctx := ⟨L.R, L.W, fun _ _ => True⟩

theorem any_of_covers {α : Type} {p : Prog α} {m : Mem} (hr : ∀ q, Event.rd q ∈ trace p m → L.R q)
    (hw : ∀ q, Event.wr q ∈ trace p m → L.W q) : wp L.any p m fun _ _ => True := by
  rw [wp_iff]
  refine ⟨fun e he => ?_, ?_⟩
  · cases e with
    | rd q => exact hr q he
    | wr q => exact hw q he
  · cases run p m with
    | mk o m' => cases o <;> trivial

/-- A part that is known to return. -/
theorem wp_strict {α : Type} {p : Prog α} {m m' : Mem} {r : α} {Q : α → Mem → Prop} (h : wp L.any p m Q)
    (hr : run p m = (.ok r, m')) : wp L.ctx p m fun a m'' => a = r ∧ m'' = m' ∧ Q a m'' := by
  rw [wp_iff] at h ⊢
  rw [hr] at h ⊢
  refine ⟨fun e he => ?_, rfl, rfl, h.2⟩
  have := h.1 e he
  cases e <;> exact this

theorem tables_keep {m m' : Mem} (hf : ∀ q, ¬ L.W q → m' q = m q) (hh : ∀ p, L.W p → p.blk.isConst = false)
    (h : TablesLoaded m) : TablesLoaded m' := by
  have k : ∀ b o, Block.isConst b = true → m' ⟨b, o⟩ = m ⟨b, o⟩ := fun b o hb => hf _ fun hw => by
    have := hh _ hw
    simp only at this
    rw [this] at hb
    cases hb
  exact ⟨fun c hc j hj => (k _ _ rfl).trans (h.encShuf c hc j hj), fun c hc j hj => (k _ _ rfl).trans (h.decShuf c hc j hj),
    fun c hc j hj => (k _ _ rfl).trans (h.numLen c hc j hj), fun c hc => (k _ _ rfl).trans (h.ctrlLen c hc),
    ⟨(k _ _ rfl).trans h.mask0101.1, (k _ _ rfl).trans h.mask0101.2⟩,
    ⟨(k _ _ rfl).trans h.mask7F00.1, (k _ _ rfl).trans h.mask7F00.2⟩⟩

theorem Entry.placed {fr : Frame} {ro rs : Nat} {mem : FMem} {t : Mach} (h : Entry L stk fr (ro + rs) mem t) (hf : Fits L stk)
    (hs : ∀ e ∈ fr, e.1 + slotSize e.2 ≤ ro) (hr : ro + rs < 2 ^ 64) : Placed L fr ro rs t.fp :=
  ⟨hf.inj, slots_of hs, hr, fun p hp k hk he => hf.off p hp (he ▸ h.room k hk)⟩

theorem Entry.called {fr : Frame} {n : Nat} {mem : FMem} {m : Mem} {t : Mach} (h : Entry L stk fr n mem t) (hf : Fits L stk)
    (hm : Shows L mem m) : Called L fr m t :=
  ⟨fun p hp => (h.mem _ (hf.off p hp)).trans (hm p hp), h.frame, h.sb⟩

theorem Entry.still {fr : Frame} {ro rs : Nat} {mem : FMem} {t t' : Mach} (h : Entry L stk fr (ro + rs) mem t)
    (hk : Kept L ro rs t t') : Still L stk mem t'.mem := fun q hq hs => by
  rw [hk.2 q hq fun k hk he => hs (by rw [← he, Mach.arg, add_assoc64]; exact h.room _ (by omega)), h.mem q hs]

theorem Still.trans {a b c : FMem} (h : Still L stk a b) (h' : Still L stk b c) : Still L stk a c :=
  fun q hq hn => (h' q hq hn).trans (h q hq hn)

theorem keep {α : Type} {p : Prog α} {m m' : Mem} {r : α} {Q : α → Mem → Prop} (h : wp L.ctx p m Q)
    (hr : run p m = (.ok r, m')) (q : Ptr) (hq : ¬ L.W q) : m' q = m q := by
  have := run_frame p m q fun he => hq ((wp_iff _ _ _ _).1 h |>.1 _ he)
  rwa [hr] at this

theorem put8_runs {inn : U32s} {out : Bytes} {m : Mem} (h : TablesLoaded m) :
    ∃ c m', run (put8uint32Fast inn out) m = (.ok c, m') := by
  obtain ⟨a, m', hr, -⟩ := run_of_wp (put8Fast_spec (fun k => wordAt m inn.blk (inn.off + 4 * k)) 0 out.off inn
    out m h rfl (fun k _ => by simp only [Nat.zero_add])) (fun _ _ h => h)
  exact ⟨a, m', hr⟩

theorem put8Delta_runs {inn : U32s} {out : Bytes} {m : Mem} (prev : U32) (h : TablesLoaded m) :
    ∃ c m', run (put8uint32DeltaFast inn out prev) m = (.ok c, m') := by
  obtain ⟨a, m', hr, -⟩ := run_of_wp (put8DeltaFast_spec
    (fun k => wordAt m inn.blk (inn.off + 4 * k) -
      if k = 0 then prev else wordAt m inn.blk (inn.off + 4 * (k - 1)))
    (fun k => wordAt m inn.blk (inn.off + 4 * k)) 0 out.off inn out prev m
    h rfl (fun k _ => by simp only [Nat.zero_add]) rfl (fun k _ => by simp)) (fun _ _ h => h)
  exact ⟨a, m', hr⟩

theorem get8_runs {inn : Bytes} {out : U32s} {m : Mem} (ctrl : U16) (h : TablesLoaded m) :
    ∃ m', run (get8uint32Fast inn out ctrl) m = (.ok (), m') := by
  have hc4 : psum (fun k => code16 ctrl k + 1) 0 = 0 := rfl
  obtain ⟨a, m', hr, -⟩ := run_of_wp (get8Fast_spec (fun k => code16 ctrl k + 1) (fun _ => 0) 0 inn.off 0 inn out
    ctrl m h (fun k _ => by simp only [Nat.zero_add]) (by rw [hc4, Nat.add_zero])
    (fun t _ _ hlim => by rw [psum_succ] at hlim; omega)) (fun _ _ h => h)
  exact ⟨m', hr⟩

theorem get8Delta_runs {inn : Bytes} {out : U32s} {m : Mem} (ctrl : U16) (prev : U32) (h : TablesLoaded m) :
    ∃ m', run (get8uint32DeltaFast inn out ctrl prev) m = (.ok (), m') := by
  have hc4 : psum (fun k => code16 ctrl k + 1) 0 = 0 := rfl
  obtain ⟨a, m', hr, -⟩ := run_of_wp (get8DeltaFast_spec (fun k => code16 ctrl k + 1) (fun _ => 0)
    (fun _ => prev) 0 inn.off 0 inn out ctrl prev m h (fun k _ => by simp only [Nat.zero_add])
    (by rw [hc4, Nat.add_zero]) (fun t _ _ hlim => by rw [psum_succ] at hlim; omega) (fun _ => by simp)
    (fun _ _ => by simp)) (fun _ _ h => h)
  exact ⟨m', hr⟩

/-- Every execution on flat memory ends as the model says. -/
theorem frun_sound {α : Type} {p : Prog α} {mem mem' : FMem} {o : Outcome α} (h : FRun L stk p mem o mem') (hf : Fits L stk) :
    ∀ {m : Mem}, TablesLoaded m → Shows L mem m → wp L.any p m (fun _ _ => True) →
      (run p m).1 = o ∧ Shows L mem' (run p m).2 ∧ Still L stk mem mem' := by
  induction h with
  | ret a mem => exact fun _ hm _ => ⟨rfl, hm, fun _ _ _ => rfl⟩
  | panic k mem => exact fun _ hm _ => ⟨rfl, hm, fun _ _ _ => rfl⟩
  | @load p k mem mem' o hp h ih =>
    intro m ht hm hw
    rw [hm p (.inl hw.1)] at ih
    exact ih ht hm hw.2
  | @store p v k mem mem' o h ih =>
    intro m ht hm hw
    have hs : Shows L (fun q => if q = L.addr p then v else mem q) (m.set p v) := fun q hq => by
      by_cases e : q = p
      · rw [e]; simp [Mem.set]
      · have : L.addr q ≠ L.addr p := fun he => e (hf.inj q p hq (.inr hw.1) he)
        simp only [Mem.set, if_neg e, if_neg this]
        exact hm q hq
    have ht' : TablesLoaded (m.set p v) := tables_keep (L := L) (fun q hq => by
      have : q ≠ p := fun e => hq (e ▸ hw.1)
      simp [Mem.set, this]) hf.heap ht
    obtain ⟨h1, h2, h3⟩ := ih ht' hs hw.2
    refine ⟨h1, h2, fun q hq hn => (h3 q hq hn).trans ?_⟩
    simp only [if_neg (Ne.symm (hq p hw.1))]
  | @put8 inn out k mem mem' o t he h ih =>
    intro m ht hm hw
    rw [run_bind]
    obtain ⟨c, m', hr⟩ := put8_runs (inn := inn) (out := out) ht
    obtain ⟨_, _, ⟨rfl, rfl, hq⟩, h1, h2, h3⟩ := refine_result (by decide +kernel) (by decide +kernel)
      (he.placed hf (by simp [put8Args, sliceArg, slotSize]) (by decide)) (he.called hf hm) (wp_strict (wp_bind.1 hw) hr)
    rw [hr]
    rw [h1] at ih
    obtain ⟨i1, i2, i3⟩ := ih (tables_keep (keep (wp_strict (wp_bind.1 hw) hr) hr) hf.heap ht) h2 hq
    exact ⟨i1, i2, (he.still h3).trans i3⟩
  | @put8Delta inn out prev k mem mem' o t he h ih =>
    intro m ht hm hw
    rw [run_bind]
    obtain ⟨c, m', hr⟩ := put8Delta_runs (inn := inn) (out := out) prev ht
    obtain ⟨_, _, ⟨rfl, rfl, hq⟩, h1, h2, h3⟩ := refine_result (by decide +kernel) (by decide +kernel)
      (he.placed hf (by simp [put8DeltaArgs, sliceArg, slotSize]) (by decide)) (he.called hf hm) (wp_strict (wp_bind.1 hw) hr)
    rw [hr]
    rw [h1] at ih
    obtain ⟨i1, i2, i3⟩ := ih (tables_keep (keep (wp_strict (wp_bind.1 hw) hr) hr) hf.heap ht) h2 hq
    exact ⟨i1, i2, (he.still h3).trans i3⟩
  | @get8 inn out ctrl k mem mem' o t he h ih =>
    intro m ht hm hw
    rw [run_bind]
    obtain ⟨m', hr⟩ := get8_runs (inn := inn) (out := out) ctrl ht
    obtain ⟨_, ⟨-, rfl, hq⟩, h2, h3⟩ := refine_unit (ro := 72) (by decide +kernel) (by decide +kernel)
      (he.placed hf (by simp [get8Args, sliceArg, slotSize]) (by decide)) (he.called hf hm) (wp_strict (wp_bind.1 hw) hr)
    rw [hr]
    obtain ⟨i1, i2, i3⟩ := ih (tables_keep (keep (wp_strict (wp_bind.1 hw) hr) hr) hf.heap ht) h2 hq
    exact ⟨i1, i2, (Entry.still (ro := 72) (rs := 0) he h3).trans i3⟩
  | @get8Delta inn out ctrl prev k mem mem' o t he h ih =>
    intro m ht hm hw
    rw [run_bind]
    obtain ⟨m', hr⟩ := get8Delta_runs (inn := inn) (out := out) ctrl prev ht
    obtain ⟨_, ⟨-, rfl, hq⟩, h2, h3⟩ := refine_unit (ro := 72) (by decide +kernel) (by decide +kernel)
      (he.placed hf (by simp [get8DeltaArgs, sliceArg, slotSize]) (by decide)) (he.called hf hm) (wp_strict (wp_bind.1 hw) hr)
    rw [hr]
    obtain ⟨i1, i2, i3⟩ := ih (tables_keep (keep (wp_strict (wp_bind.1 hw) hr) hr) hf.heap ht) h2 hq
    exact ⟨i1, i2, (Entry.still (ro := 72) (rs := 0) he h3).trans i3⟩

end SVB.Flat
