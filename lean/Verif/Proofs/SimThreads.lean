import Verif.Proofs.SimWriters
import Verif.Proofs.Race
import Verif.Proofs.Results

/-! # From histories of a racing writer to streams -/

set_option autoImplicit false

namespace SVB
open Spec Asm

section
variable {α : Type} {keep : Ptr → Prop} {may may' : Ptr → Byte → Prop} {p p' p'' : Prog α} {m m' m'' : Mem}

theorem Under.mono (h : Under keep may p m p' m') (hm : ∀ q b, may q b → may' q b) : Under keep may' p m p' m' := by
  induction h with
  | now => exact .now _ _
  | others h h' _ ih => exact .others h (fun q hq => hm _ _ (h' q hq)) ih
  | load _ ih => exact .load ih
  | store _ ih => exact .store ih

theorem Under.trans (h : Under keep may p m p' m') (h' : Under keep may p' m' p'' m'') : Under keep may p m p'' m'' := by
  induction h with
  | now => exact h'
  | others h h1 _ ih => exact .others h h1 (ih h')
  | load _ ih => exact .load (ih h')
  | store _ ih => exact .store (ih h')

/-- Without interference. -/
theorem Under.alone {a : α} (h : run p m = (.ok a, m')) : Under keep may p m (.ret a) m' := by
  induction p generalizing m with
  | ret b => cases h; exact .now _ _
  | panic k => cases h
  | load q k ih => exact .load (ih _ h)
  | store q v k ih => exact .store (ih h)

theorem Avoids.spares {K : Ptr → Prop} (hK : ∀ q, q.blk.isConst = true → K q) (h : Avoids K p) : SparesTables p := by
  induction p with
  | ret => trivial
  | panic => trivial
  | load q k ih => exact fun m hm => ih _ (h m hm)
  | store q v k ih =>
    refine ⟨?_, ih h.2⟩
    cases hc : q.blk.isConst with
    | false => rfl
    | true => exact absurd (hK q hc) h.1

end

section
variable {ι : Type} [DecidableEq ι] {β : ι → Type} {keep : Ptr → Prop} {i : ι}

theorem Conf.turn_avoids {c : Conf β} (hT : TablesLoaded c.mem)
    (h : ∀ j, j ≠ i → Avoids keep (c.prog j)) (j : ι) : ∀ k, k ≠ i → Avoids keep ((c.turn j).prog k) := by
  intro k hk
  have hk' := h k hk
  unfold Conf.turn
  split
  · exact hk'
  · exact hk'
  · rename_i hp
    by_cases e : k = j
    · subst e; rw [hp] at hk'; simp only [↓reduceDIte]; exact hk' _ hT
    · simp only [e, ↓reduceDIte]; exact hk'
  · rename_i hp
    by_cases e : k = j
    · subst e; rw [hp] at hk'; simp only [↓reduceDIte]; exact hk'.2
    · simp only [e, ↓reduceDIte]; exact hk'

theorem Conf.turn_under {c : Conf β} (h : ∀ j, j ≠ i → Avoids keep (c.prog j)) (j : ι) {may : Ptr → Byte → Prop}
    (hm : ∀ q, may q ((c.turn j).mem q)) :
    Under keep may (c.prog i) c.mem ((c.turn j).prog i) (c.turn j).mem := by
  by_cases e : j = i
  · subst e
    clear hm h
    unfold Conf.turn
    split <;> rename_i hp <;> simp only [hp, ↓reduceDIte]
    · exact .now _ _
    · exact .now _ _
    · exact .load (.now _ _)
    · exact .store (.now _ _)
  · have hj := h j e
    have e' : ¬ i = j := fun h => e h.symm
    unfold Conf.turn at hm ⊢
    split <;> rename_i hp
    · exact .now _ _
    · exact .now _ _
    · simp only [e', ↓reduceDIte]; exact .now _ _
    · rw [hp] at hj
      simp only [hp] at hm
      simp only [e', ↓reduceDIte]
      refine .others (fun q hq => Mem.set_ne _ _ ?_) (fun q _ => hm q) (.now _ _)
      rintro rfl; exact hj.1 hq

theorem Conf.exec_under {c : Conf β} (hS : ∀ j, SparesTables (c.prog j)) (hT : TablesLoaded c.mem)
    (h : ∀ j, j ≠ i → Avoids keep (c.prog j)) (sched : List ι) :
    Under keep (c.Held sched) (c.prog i) c.mem ((c.exec sched).prog i) (c.exec sched).mem := by
  induction sched generalizing c with
  | nil => exact .now _ _
  | cons j s ih =>
    have hi := ih (c := c.turn j) (fun k => Conf.turn_spares hS hT j k) (Conf.turn_tables hS hT j)
      (Conf.turn_avoids hT h j)
    refine (Conf.turn_under h j (may := c.Held (j :: s)) fun q => ⟨[j], ?_, rfl⟩).trans (hi.mono ?_)
    · exact List.cons_prefix_cons.2 ⟨rfl, List.nil_prefix⟩
    · rintro q b ⟨s', hs, e⟩
      exact ⟨j :: s', List.cons_prefix_cons.2 ⟨rfl, hs⟩, e⟩

end

/-! ## Snapshots -/

/-- `m` with the numbers `ws` in the input. -/
def snap (inn : U32s) (ws : List U32) (m : Mem) : Mem := fun q =>
  if q.blk = inn.blk ∧ inn.off ≤ q.off then wbyte (ws.getD ((q.off - inn.off) / 4) 0) ((q.off - inn.off) % 4) else m q

theorem snap_holds (inn : U32s) (ws : List U32) (m : Mem) : HoldsWs inn ws (snap inn ws m) := by
  intro j k w hj hk
  unfold snap
  rw [if_pos ⟨rfl, by simp only; omega⟩]
  simp only
  rw [show (inn.off + 4 * j + k - inn.off) / 4 = j by omega, show (inn.off + 4 * j + k - inn.off) % 4 = k by omega,
    List.getD_eq_getElem?_getD, hj]; rfl

theorem snap_other {inn : U32s} {ws : List U32} {m : Mem} {q : Ptr} (h : q.blk ≠ inn.blk) : snap inn ws m q = m q := by
  unfold snap; rw [if_neg fun h' => h h'.1]

theorem snap_words {inn : U32s} {ws : List U32} {m : Mem} (h : ws.length = inn.len) : wordsOf (snap inn ws m) inn = ws := by
  refine List.ext_getElem (by rw [wordsOf_length, h]) fun j h1 h2 => ?_
  have hh := snap_holds inn ws m
  have e : ws[j]? = some ws[j] := List.getElem?_eq_getElem h2
  have e0 := hh j 0 _ e (by omega); have e1 := hh j 1 _ e (by omega)
  have e2 := hh j 2 _ e (by omega); have e3 := hh j 3 _ e (by omega)
  simp only [Nat.add_zero] at e0
  simp only [wordsOf, wordsN, List.getElem_map, List.getElem_range, e0, e1, e2, e3, append_wbyte]

/-- The stream a racing writer returns. -/
theorem racy_result {fresh : Block} {inn : U32s} {may : Ptr → Byte → Prop} {V : Nat → U32 → Prop} {p : Prog Bytes} (f : Fn)
    (hs : Sim fresh inn may V (Fin inn) [] p (f.write fresh inn)) {m m' : Mem} {r : Bytes} (h : WriterPre fresh inn m)
    (h0 : ∀ q, ¬ Mine fresh q → may q (m q)) (hu : Under (Mine fresh) may p m (.ret r) m') :
    ∃ ws : List U32, ws.length = inn.len ∧ (∀ (j : Nat) (w : U32), ws[j]? = some w → V j w) ∧ bytesOf m' r = encode ws := by
  have hne : ∀ x : Ptr, Mine fresh x → x.blk ≠ inn.blk := by
    rintro x (e | e) e'
    · exact h.fresh_ne (e.symm.trans e')
    · have := h.valid.heap; rw [← e', e] at this; cases this
  obtain ⟨ws, b, -, ⟨rfl, hl⟩, hV, hq⟩ := hs.sound (fun hx => hne _ hx rfl) h.tables h0 (by simp) hu
  obtain ⟨mq', hr, hk⟩ := hq (snap inn ws m) (fun x hx => snap_other (hne x hx)) (snap_holds inn ws m)
  have hp : WriterPre fresh inn (snap inn ws m) :=
    ⟨h.tables.frame fun q hq => snap_other (hne q (.inr hq)), h.valid, h.fresh_heap, h.fresh_ne⟩
  obtain ⟨m2, h1, h2, -⟩ := (write_result f hp).ex
  rw [hr] at h1
  cases h1
  rw [snap_words hl] at h2 ⊢
  refine ⟨ws, hl, hV, ?_⟩
  refine Eq.trans ?_ h2
  exact List.map_congr_left fun i _ => (hk ⟨fresh, 0 + i⟩ (.inl rfl)).symm

end SVB
