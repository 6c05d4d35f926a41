import Verif.Props.Writers
import Verif.Props.Races
import Verif.Proofs.SimThreads

/-!
# C48: what a writer returns when its input changes while it runs

`Under keep may p m p' m'` (`Model/Rely.lean`): a history of the call `p` from memory `m`, in which others change memory
at any moment but leave the addresses `keep` alone, and every other address only ever holds bytes that `may` allows.
-/

set_option autoImplicit false

namespace SVB.Props
open Spec Asm

/-- Address of byte `k` of number `j` of a slice. -/
def byteAddr (inn : U32s) (j k : Nat) : Ptr := ⟨inn.blk, inn.off + 4 * j + k⟩

/-- Each byte of `w` may be found at its place in number `j`.  (Bytes of different moments may come together.) -/
def MayRead (may : Ptr → Byte → Prop) (inn : U32s) (j : Nat) (w : U32) : Prop :=
  ∀ k < 4, may (byteAddr inn j k) (w.extractLsb' (8 * k) 8)

private theorem write_sim (f : Fn) {fresh : Block} {inn : U32s} {m : Mem} {may : Ptr → Byte → Prop}
    (h : WriterPre fresh inn m) :
    Sim fresh inn may (Rd inn may) (Fin inn) [] (f.write fresh inn) (f.write fresh inn) := by
  have hl : inn.len < 2 ^ 60 := Nat.lt_of_le_of_lt h.valid.len_le h.valid.small
  have hm : ∀ o, ¬ Mine fresh ⟨inn.blk, o⟩ := by
    rintro o (e | e)
    · exact h.fresh_ne e.symm
    · have := h.valid.heap; rw [show inn.blk.isConst = true from e] at this; cases this
  have hs := sim_writeAllScalar (may := may) h.fresh_heap hm hl h.valid.len_le
  have hf := sim_writeAllFast (may := may) h.fresh_heap hm hl h.valid.len_le
  cases f with
  | scalar => exact hs
  | fast => exact hf
  | auto c =>
    rcases writeAll_cases c fresh inn with e | e <;> simp only [Fn.write, e]
    · exact hf
    · exact hs

private theorem writeDelta_sim (f : Fn) (prev : U32) {fresh : Block} {inn : U32s} {m : Mem} {may : Ptr → Byte → Prop}
    (h : WriterPre fresh inn m) : ∃ g : Fn,
    Sim fresh inn may (VD inn may prev) (Fin inn) [] (f.writeDelta fresh inn prev) (g.write fresh inn) := by
  have hl : inn.len < 2 ^ 60 := Nat.lt_of_le_of_lt h.valid.len_le h.valid.small
  have hm : ∀ o, ¬ Mine fresh ⟨inn.blk, o⟩ := by
    rintro o (e | e)
    · exact h.fresh_ne e.symm
    · have := h.valid.heap; rw [show inn.blk.isConst = true from e] at this; cases this
  have hs := sim_writeAllDeltaScalar (may := may) (prev := prev) h.fresh_heap hm hl h.valid.len_le
  have hf := sim_writeAllDeltaFast (may := may) (prev := prev) h.fresh_heap hm hl h.valid.len_le
  cases f with
  | scalar => exact ⟨.scalar, hs⟩
  | fast => exact ⟨.fast, hf⟩
  | auto c =>
    rcases writeAllDelta_cases c fresh inn prev with e | e <;> simp only [Fn.writeDelta, e]
    · exact ⟨.fast, hf⟩
    · exact ⟨.scalar, hs⟩

/-- C48, `WriteAll`, `WriteAllScalar`, `WriteAllFast`: the result is the encoding of as many numbers as the input has,
each of which is made of bytes that were at its place. -/
theorem C48_write (f : Fn) {fresh : Block} {inn : U32s} {m m' : Mem} {may : Ptr → Byte → Prop} {r : Bytes}
    (h : WriterPre fresh inn m) (h0 : ∀ q, ¬ Mine fresh q → may q (m q))
    (hu : Under (Mine fresh) may (f.write fresh inn) m (.ret r) m') :
    ∃ ws : List U32, ws.length = inn.len ∧ (∀ (j : Nat) (hj : j < ws.length), MayRead may inn j ws[j]) ∧
      bytesOf m' r = encode ws := by
  obtain ⟨ws, hl, hV, hr⟩ := racy_result f (write_sim f h) h h0 hu
  exact ⟨ws, hl, fun j hj => hV j _ (List.getElem?_eq_getElem hj), hr⟩

/-- C48, the delta writers: the encoding of differences between a reading of number `j` and a reading of number `j - 1`
(of `prev` for the first). -/
theorem C48_writeDelta (f : Fn) (prev : U32) {fresh : Block} {inn : U32s} {m m' : Mem} {may : Ptr → Byte → Prop} {r : Bytes}
    (h : WriterPre fresh inn m) (h0 : ∀ q, ¬ Mine fresh q → may q (m q))
    (hu : Under (Mine fresh) may (f.writeDelta fresh inn prev) m (.ret r) m') :
    ∃ ws : List U32, ws.length = inn.len ∧
      (∀ (j : Nat) (hj : j < ws.length), ∃ a b, MayRead may inn j a ∧
        (j = 0 ∧ b = prev ∨ 0 < j ∧ MayRead may inn (j - 1) b) ∧ ws[j] = a - b) ∧
      bytesOf m' r = encode ws := by
  obtain ⟨g, hs⟩ := writeDelta_sim f prev (may := may) h
  obtain ⟨ws, hl, hV, hr⟩ := racy_result g hs h h0 hu
  refine ⟨ws, hl, fun j hj => ?_, hr⟩
  obtain ⟨a, b, ha, hb, e⟩ := hV j _ (List.getElem?_eq_getElem hj)
  refine ⟨a, b, ha, ?_, e⟩
  cases j with
  | zero => exact .inl ⟨rfl, hb⟩
  | succ j => exact .inr ⟨by omega, hb⟩

/-- If number `j` never changes, it can only be read as what it is. -/
private theorem mayRead_const {may : Ptr → Byte → Prop} {inn : U32s} {m : Mem} {j : Nat} {w : U32} (hj : j < inn.len)
    (hc : ∀ k < 4, ∀ b, may (byteAddr inn j k) b → b = m (byteAddr inn j k)) (h : MayRead may inn j w) :
    w = (wordsOf m inn)[j]'(by rw [wordsOf_length]; exact hj) := by
  have e := fun k hk => hc k hk _ (h k hk)
  simp only [wordsOf, wordsN, List.getElem_map, List.getElem_range]
  have e0 := e 0 (by omega); have e1 := e 1 (by omega); have e2 := e 2 (by omega); have e3 := e 3 (by omega)
  simp only [byteAddr, Nat.add_zero] at e0 e1 e2 e3
  rw [← e0, ← e1, ← e2, ← e3]
  exact (append_wbyte w).symm

/-- C48, numbers nobody changes: they are encoded exactly, whatever happens to their neighbours. -/
theorem C48_write_unchanged (f : Fn) {fresh : Block} {inn : U32s} {m m' : Mem} {may : Ptr → Byte → Prop} {r : Bytes}
    (h : WriterPre fresh inn m) (h0 : ∀ q, ¬ Mine fresh q → may q (m q))
    (hu : Under (Mine fresh) may (f.write fresh inn) m (.ret r) m') :
    ∃ ws : List U32, ws.length = inn.len ∧ bytesOf m' r = encode ws ∧
      ∀ j < inn.len, (∀ k < 4, ∀ b, may (byteAddr inn j k) b → b = m (byteAddr inn j k)) →
        ws[j]? = (wordsOf m inn)[j]? := by
  obtain ⟨ws, hl, hV, hr⟩ := C48_write f h h0 hu
  refine ⟨ws, hl, hr, fun j hj hc => ?_⟩
  rw [List.getElem?_eq_getElem (by omega), List.getElem?_eq_getElem (by rw [wordsOf_length]; exact hj),
    mayRead_const hj hc (hV j (by omega))]

private theorem delta_get (prev : U32) (xs : List U32) :
    (∀ x, xs[0]? = some x → (delta prev xs)[0]? = some (x - prev)) ∧
    ∀ j x y, xs[j]? = some x → xs[j + 1]? = some y → (delta prev xs)[j + 1]? = some (y - x) := by
  induction xs generalizing prev with
  | nil => exact ⟨by simp, by simp⟩
  | cons a xs ih =>
    refine ⟨fun x hx => by cases hx; rfl, fun j x y hx hy => ?_⟩
    cases j with
    | zero => cases hx; exact (ih a).1 y hy
    | succ j => exact (ih a).2 j x y hx hy

/-- C48, the delta writers: a difference between two numbers nobody changes is exact. -/
theorem C48_writeDelta_unchanged (f : Fn) (prev : U32) {fresh : Block} {inn : U32s} {m m' : Mem} {may : Ptr → Byte → Prop}
    {r : Bytes} (h : WriterPre fresh inn m) (h0 : ∀ q, ¬ Mine fresh q → may q (m q))
    (hu : Under (Mine fresh) may (f.writeDelta fresh inn prev) m (.ret r) m') :
    ∃ ws : List U32, ws.length = inn.len ∧ bytesOf m' r = encode ws ∧
      ∀ j < inn.len, (∀ i, i = j ∨ i + 1 = j → ∀ k < 4, ∀ b, may (byteAddr inn i k) b → b = m (byteAddr inn i k)) →
        ws[j]? = (delta prev (wordsOf m inn))[j]? := by
  obtain ⟨ws, hl, hV, hr⟩ := C48_writeDelta f prev h h0 hu
  refine ⟨ws, hl, hr, fun j hj hc => ?_⟩
  obtain ⟨a, b, ha, hb, e⟩ := hV j (by omega)
  have hw := wordsOf_length m inn
  rw [List.getElem?_eq_getElem (by omega), e, mayRead_const hj (hc j (.inl rfl)) ha]
  rcases hb with ⟨rfl, rfl⟩ | ⟨h0, hb⟩
  · exact ((delta_get _ _).1 _ (List.getElem?_eq_getElem _)).symm
  · obtain ⟨i, rfl⟩ : ∃ i, j = i + 1 := ⟨j - 1, by omega⟩
    rw [mayRead_const (by omega) (hc i (.inr rfl)) hb]
    exact ((delta_get _ _).2 i _ _ (List.getElem?_eq_getElem _) (List.getElem?_eq_getElem _)).symm

/-! ## Goroutines -/

private def anyFp (fresh : Block) (h : fresh.isConst = false) : Fp where
  R _ := True
  W q := q.blk = fresh
  tabs _ _ := trivial
  heap q hq := by rw [show q.blk = fresh from hq]; exact h

private theorem write_spares (f : Fn) {fresh : Block} {inn : U32s} {m : Mem} (h : WriterPre fresh inn m) :
    SparesTables (f.write fresh inn) := by
  have hl : inn.len < 2 ^ 60 := Nat.lt_of_le_of_lt h.valid.len_le h.valid.small
  have hi : RdL (anyFp fresh h.fresh_heap) inn := ⟨h.valid.len_le, fun _ _ _ _ => trivial⟩
  have hs := (n_writeAllScalar (P := fun _ => False) (fresh := fresh) hl hi fun _ a _ => a).spares
  have hf := (n_writeAllFast (P := fun _ => False) (fresh := fresh) hl hi fun _ a _ => a).spares
  cases f with
  | scalar => exact hs
  | fast => exact hf
  | auto c =>
    rcases writeAll_cases c fresh inn with e | e <;> simp only [Fn.write, e]
    · exact hf
    · exact hs

private theorem writeDelta_spares (f : Fn) (prev : U32) {fresh : Block} {inn : U32s} {m : Mem} (h : WriterPre fresh inn m) :
    SparesTables (f.writeDelta fresh inn prev) := by
  have hl : inn.len < 2 ^ 60 := Nat.lt_of_le_of_lt h.valid.len_le h.valid.small
  have hi : RdL (anyFp fresh h.fresh_heap) inn := ⟨h.valid.len_le, fun _ _ _ _ => trivial⟩
  have hs := (n_writeAllDeltaScalar (P := fun _ => False) (fresh := fresh) (prev := prev) hl hi fun _ a _ => a).spares
  have hf := (n_writeAllDeltaFast (P := fun _ => False) (fresh := fresh) (prev := prev) hl hi fun _ a _ => a).spares
  cases f with
  | scalar => exact hs
  | fast => exact hf
  | auto c =>
    rcases writeAllDelta_cases c fresh inn prev with e | e <;> simp only [Fn.writeDelta, e]
    · exact hf
    · exact hs

section
variable {κ : Type} [DecidableEq κ] {β : κ → Type}

private theorem threads_under {c : Conf (Around β)} {fresh : Block} (hT : TablesLoaded c.mem)
    (hn : SparesTables (c.prog none)) (ho : ∀ k, Avoids (Mine fresh) (c.prog (some k))) (sched : List (Option κ)) :
    Under (Mine fresh) (c.Held sched) (c.prog none) c.mem ((c.exec sched).prog none) (c.exec sched).mem := by
  refine Conf.exec_under ?_ hT ?_ sched
  · intro j
    cases j with
    | none => exact hn
    | some k => exact (ho k).spares fun q hq => .inr hq
  · intro j hj
    cases j with
    | none => exact absurd rfl hj
    | some k => exact ho k

/-- C48 for goroutines: thread `none` encodes, any number of other threads do anything except storing to the tables and to
the buffer that the writer has just allocated; any schedule.  When the writer has returned `r`, the stream in `r` is the
encoding of numbers each of whose bytes was at its place at some moment. -/
theorem C48_write_threads (f : Fn) {fresh : Block} {inn : U32s} {c : Conf (Around β)} (h : WriterPre fresh inn c.mem)
    (hw : c.prog none = f.write fresh inn) (ho : ∀ k, Avoids (Mine fresh) (c.prog (some k))) (sched : List (Option κ))
    {r : Bytes} (hr : (c.exec sched).prog none = .ret r) :
    ∃ ws : List U32, ws.length = inn.len ∧ (∀ (j : Nat) (hj : j < ws.length), MayRead (c.Held sched) inn j ws[j]) ∧
      bytesOf (c.exec sched).mem r = encode ws := by
  have hu := threads_under h.tables (by rw [hw]; exact write_spares f h) ho sched
  rw [hw, hr] at hu
  exact C48_write f h (fun q _ => ⟨[], List.nil_prefix, rfl⟩) hu

/-- C48 for goroutines, the delta writers. -/
theorem C48_writeDelta_threads (f : Fn) (prev : U32) {fresh : Block} {inn : U32s} {c : Conf (Around β)}
    (h : WriterPre fresh inn c.mem) (hw : c.prog none = f.writeDelta fresh inn prev)
    (ho : ∀ k, Avoids (Mine fresh) (c.prog (some k))) (sched : List (Option κ)) {r : Bytes}
    (hr : (c.exec sched).prog none = .ret r) :
    ∃ ws : List U32, ws.length = inn.len ∧
      (∀ (j : Nat) (hj : j < ws.length), ∃ a b, MayRead (c.Held sched) inn j a ∧
        (j = 0 ∧ b = prev ∨ 0 < j ∧ MayRead (c.Held sched) inn (j - 1) b) ∧ ws[j] = a - b) ∧
      bytesOf (c.exec sched).mem r = encode ws := by
  have hu := threads_under h.tables (by rw [hw]; exact writeDelta_spares f prev h) ho sched
  rw [hw, hr] at hu
  exact C48_writeDelta f prev h (fun q _ => ⟨[], List.nil_prefix, rfl⟩) hu

end

/-! ## Concrete histories -/

def exRWIn : U32s := ⟨.heap 0, 0, 2, 2⟩

/-- A writer of the numbers 5 and 9, and a thread that replaces the 5 by a 6. -/
def exRW (p : Prog Bytes) : Conf (Around (fun _ : Unit => Unit)) where
  prog
    | none => p
    | some () => .store ⟨.heap 0, 0⟩ 6 (.ret ())
  mem := memWith [5, 9] []

theorem exRWPre : WriterPre (.heap 7) exRWIn (memWith [5, 9] []) :=
  ⟨memWith_tables _ _, ⟨by decide, rfl, by decide⟩, rfl, by decide⟩

theorem exRWAvoid (p : Prog Bytes) : ∀ k, Avoids (Mine (.heap 7)) ((exRW p).prog (some k)) := fun _ =>
  ⟨fun h => (by rcases h with e | e <;> cases e), trivial⟩

/-- The stream a thread has returned. -/
def streamOf (c : Conf (Around (fun _ : Unit => Unit))) : Option (List Byte) :=
  match c.prog none with
  | .ret r => some (bytesOf c.mem r)
  | _ => none

/-- The other thread interferes after `n` accesses of the writer. -/
def exSched (n : Nat) : List (Option Unit) := List.replicate n none ++ some () :: List.replicate 60 none

-- `WriteAllScalar`: 5 and 9 or 6 and 9, depending on when the change comes.
example : streamOf ((exRW (writeAllScalar (.heap 7) exRWIn)).exec (exSched 13)) = some (encode [5, 9]) ∧
    streamOf ((exRW (writeAllScalar (.heap 7) exRWIn)).exec (exSched 9)) = some (encode [6, 9]) := by decide +kernel

example (r : Bytes) (hr : ((exRW (writeAllScalar (.heap 7) exRWIn)).exec (exSched 13)).prog none = .ret r) :=
  C48_write_threads .scalar exRWPre rfl (exRWAvoid _) (exSched 13) hr

/-- The same for the delta writers is false: number 1 of the input is 9 at every moment, but the stream decodes to 8
there, because number 0 was read twice and changed in between. -/
theorem C48_writeDelta_neighbour :
    streamOf ((exRW (writeAllDeltaScalar (.heap 7) exRWIn 0)).exec (exSched 13)) = some (encode (delta 0 [5, 8])) ∧
      ∀ n, (wordsOf ((exRW (writeAllDeltaScalar (.heap 7) exRWIn 0)).exec ((exSched 13).take n)).mem exRWIn)[1]? = some 9 := by
  refine ⟨by decide +kernel, fun n => ?_⟩
  have h : ∀ n < 75, (wordsOf ((exRW (writeAllDeltaScalar (.heap 7) exRWIn 0)).exec ((exSched 13).take n)).mem
    exRWIn)[1]? = some 9 := by decide +kernel
  by_cases hn : n < 75
  · exact h n hn
  · rw [List.take_of_length_le (by simp [exSched]; omega), ← List.take_of_length_le (i := 74) (l := exSched 13) (by simp [exSched])]
    exact h 74 (by omega)

end SVB.Props
