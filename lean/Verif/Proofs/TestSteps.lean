import Verif.Model.Tests
import Verif.Props.Blocks
import Verif.Props.Writers
import Verif.Props.Readers
import Verif.Props.Util

/-!
# What the steps of the tests do

Every step of a test of `/repo` either allocates a block or writes to one block; the lemmas give its result, the new contents of
that block, and that nothing else changes (`Same`).
-/

set_option autoImplicit false

namespace SVB.Tests
open SVB.Spec SVB.Props

/-! ## Memory outside one block -/

/-- Nothing but block `b` has changed. -/
def Same (b : Block) (m m' : Mem) : Prop := ∀ q : Ptr, q.blk ≠ b → m' q = m q

theorem Same.refl (b : Block) (m : Mem) : Same b m m := fun _ _ => rfl

theorem Same.trans {b : Block} {m m' m'' : Mem} (h : Same b m m') (h' : Same b m' m'') : Same b m m'' :=
  fun q hq => (h' q hq).trans (h q hq)

theorem Same.words {b : Block} {m m' : Mem} (h : Same b m m') {s : U32s} (hs : s.blk ≠ b) (n : Nat) :
    wordsN m' s n = wordsN m s n :=
  wordsN_congr' fun q hq => h q (by rw [hq.1]; exact hs)

theorem Same.bytes {b : Block} {m m' : Mem} (h : Same b m m') {s : Bytes} (hs : s.blk ≠ b) :
    bytesOf m' s = bytesOf m s := by
  unfold bytesOf
  exact List.map_congr_left fun i _ => h _ hs

theorem Same.tables {k : Nat} {m m' : Mem} (h : Same (.heap k) m m') (hT : TablesLoaded m) : TablesLoaded m' :=
  hT.frame fun q hq => h q fun e => by rw [e] at hq; exact Bool.noConfusion hq

/-- Anything may be read, block `b` may be written, no panic. -/
def only (b : Block) : Ctx := ⟨fun _ => True, fun q => q.blk = b, fun _ _ => False⟩

theorem run_only {α : Type} {b : Block} {p : Prog α} {m : Mem} {Q : α → Mem → Prop} (h : wp (only b) p m Q) :
    ∃ a m', run p m = (.ok a, m') ∧ Same b m m' ∧ Q a m' := by
  obtain ⟨a, m', hr, hq, hf, -⟩ := run_of_wp h (fun _ _ h => h)
  exact ⟨a, m', hr, fun q hq => hf q hq, hq⟩

theorem bytesOf_prefix (m : Mem) (b : Block) (o l c n c' : Nat) (h : n ≤ l) :
    bytesOf m ⟨b, o, n, c'⟩ = (bytesOf m (⟨b, o, l, c⟩ : Bytes)).take n := by
  rw [bytesOf_take (by simpa using h)]; rfl

theorem wordsOf_eq (m : Mem) (s : U32s) : wordsOf m s = wordsN m s s.len := rfl

/-! ## Allocation -/

theorem wp_zeroFill {b : Block} {n : Nat} {m : Mem} {Q : Unit → Mem → Prop} (h : ∀ m', Same b m m' → Q () m') :
    wp (only b) (zeroFill ⟨b, 0⟩ n) m Q :=
  wp_conseq (wp_frame (zeroFill_spec b 0 n m)) (fun _ h => h.elim) (fun _ h => h.1) (fun _ _ _ h => h)
    (fun _ m' hf _ => h m' fun q hq => hf q fun hs => hq hs.1)

theorem makeBytes_run (b : Block) (m : Mem) {i : Int} (n : Nat) (hi : i = n) :
    ∃ m', run (makeBytes b i) m = (.ok ⟨b, 0, n, n⟩, m') ∧ Same b m m' := by
  subst hi
  have h : wp (only b) (makeBytes b n) m (fun a _ => a = ⟨b, 0, n, n⟩) := by
    unfold makeBytes
    rw [if_pos (by omega), Prog.bind_eq, wp_bind]
    exact wp_zeroFill fun m' _ => rfl
  obtain ⟨a, m', hr, hf, rfl⟩ := run_only h
  exact ⟨m', hr, hf⟩

theorem wp_makeWords {b : Block} {m : Mem} {n : Nat} {Q : U32s → Mem → Prop} (h : ∀ m', Same b m m' → Q ⟨b, 0, n, n⟩ m') :
    wp (only b) (makeWords b n) m Q := by
  unfold makeWords
  rw [if_pos (by omega), Prog.bind_eq, wp_bind]
  exact wp_zeroFill fun m' hf => h m' hf

theorem makeWords_run (b : Block) (m : Mem) {i : Int} (n : Nat) (hi : i = n) :
    ∃ m', run (makeWords b i) m = (.ok ⟨b, 0, n, n⟩, m') ∧ Same b m m' := by
  subst hi
  obtain ⟨a, m', hr, hf, rfl⟩ := run_only (wp_makeWords (m := m) (b := b) (n := n) (Q := fun a _ => a = ⟨b, 0, n, n⟩) fun _ _ => rfl)
  exact ⟨m', hr, hf⟩

/-! ## Lists to slices and back -/

theorem wp_putWords {s : U32s} (vs : List U32) : ∀ {i : Nat} {m : Mem} {Q : Unit → Mem → Prop}, i + vs.length ≤ s.len →
    (∀ m', Same s.blk m m' → wordsN m' s (i + vs.length) = wordsN m s i ++ vs → Q () m') →
    wp (only s.blk) (putWords s vs i) m Q := by
  induction vs with
  | nil => intro i m Q _ hQ; exact hQ m (.refl _ _) (by simp)
  | cons v vs ih =>
    intro i m Q hl hQ
    rw [List.length_cons] at hl
    simp only [putWords, Prog.bind_eq]
    rw [wp_bind]
    refine wp_setW_ok i rfl (by omega) (fun k _ => rfl) (ih (by omega) fun m' hf hw => hQ m' ?_ ?_)
    · exact Same.trans (fun q hq => set32_other _ _ _ _ _ fun h => hq h.1) hf
    · rw [List.length_cons, show i + (vs.length + 1) = i + 1 + vs.length by omega, hw, wordsN_succ, wordAt_set32_self,
        List.append_assoc, wordsN_congr' (m' := m)]
      · rfl
      · exact fun q hq => set32_other _ _ _ _ _ fun h => by have := hq.2.2; omega

theorem wp_putBytes {s : Bytes} (vs : List Byte) : ∀ {i : Nat} {m : Mem} {Q : Unit → Mem → Prop}, i + vs.length ≤ s.len →
    (∀ m', Same s.blk m m' → bytesOf m' ⟨s.blk, s.off, i + vs.length, s.cap⟩ = bytesOf m ⟨s.blk, s.off, i, s.cap⟩ ++ vs → Q () m') →
    wp (only s.blk) (putBytes s vs i) m Q := by
  induction vs with
  | nil => intro i m Q _ hQ; exact hQ m (.refl _ _) (by simp)
  | cons v vs ih =>
    intro i m Q hl hQ
    rw [List.length_cons] at hl
    simp only [putBytes, Prog.bind_eq]
    rw [wp_bind]
    refine wp_setB_ok i rfl (by omega) rfl (ih (by omega) fun m' hf hw => hQ m' ?_ ?_)
    · exact Same.trans (fun q hq => if_neg fun h => hq (by rw [h])) hf
    · rw [List.length_cons, show i + (vs.length + 1) = i + 1 + vs.length by omega, hw]
      have e : bytesOf (m.set ⟨s.blk, s.off + i⟩ v) ⟨s.blk, s.off, i + 1, s.cap⟩ = bytesOf m ⟨s.blk, s.off, i, s.cap⟩ ++ [v] := by
        simp only [bytesOf, List.range_succ, List.map_append, List.map_cons, List.map_nil, Mem.set, if_true]
        congr 1
        refine List.map_congr_left fun j hj => if_neg fun h => ?_
        have := List.mem_range.1 hj
        have := congrArg Ptr.off h
        simp only at this; omega
      rw [e, List.append_assoc]; rfl

theorem litWords_run (b : Block) (m : Mem) (vs : List U32) : ∃ m', run (litWords vs b) m = (.ok ⟨b, 0, vs.length, vs.length⟩, m') ∧
    Same b m m' ∧ wordsN m' ⟨b, 0, vs.length, vs.length⟩ vs.length = vs := by
  have h : wp (only b) (litWords vs b) m (fun a m' => a = ⟨b, 0, vs.length, vs.length⟩ ∧
      wordsN m' ⟨b, 0, vs.length, vs.length⟩ vs.length = vs) := by
    simp only [litWords, Prog.bind_eq]
    rw [wp_bind]
    refine wp_makeWords fun m1 _ => ?_
    rw [wp_bind]
    refine wp_putWords (s := ⟨b, 0, vs.length, vs.length⟩) vs (by simp) fun m2 _ hw => ⟨rfl, ?_⟩
    simpa [wordsN] using hw
  obtain ⟨a, m', hr, hf, rfl, hw⟩ := run_only h
  exact ⟨m', hr, hf, hw⟩

theorem litBytes_run (b : Block) (m : Mem) (vs : List Byte) : ∃ m', run (litBytes vs b) m = (.ok ⟨b, 0, vs.length, vs.length⟩, m') ∧
    Same b m m' ∧ bytesOf m' ⟨b, 0, vs.length, vs.length⟩ = vs := by
  obtain ⟨m1, r1, f1⟩ := makeBytes_run b m (i := vs.length) vs.length rfl
  have h := wp_putBytes (s := ⟨b, 0, vs.length, vs.length⟩) vs (i := 0) (m := m1)
    (Q := fun _ m' => bytesOf m' ⟨b, 0, vs.length, vs.length⟩ = vs) (by simp) fun m2 _ hw => by simpa [bytesOf] using hw
  obtain ⟨a, m', r2, f2, hw⟩ := run_only h
  refine ⟨m', ?_, f1.trans f2, hw⟩
  simp only [litBytes, Prog.bind_eq]
  rw [run_bind, r1]
  simp only
  rw [run_bind, r2]
  rfl

theorem getW_run (s : U32s) (m : Mem) {j : Int} (i : Nat) (hj : j = i) (h : i < s.len) :
    run (getW s j) m = (.ok (wordAt m s.blk (s.off + 4 * i)), m) := by
  subst hj
  unfold getW
  rw [if_pos (by omega)]
  simp only [load32, load8, Prog.bind_eq, Prog.bind, run, wordAt, Ptr.add, Int.toNat_natCast]
  rfl

theorem getB_run (s : Bytes) (m : Mem) (i : Nat) (h : i < s.len) :
    run (getB s i) m = (.ok (m ⟨s.blk, s.off + i⟩), m) := by
  unfold getB
  rw [if_pos (by omega)]
  simp only [load8, run, Int.toNat_natCast]

theorem getWords_run (s : U32s) (m : Mem) (n : Nat) : ∀ i, i + n ≤ s.len →
    ∃ vs, run (getWords s n i) m = (.ok vs, m) ∧ wordsN m s (i + n) = wordsN m s i ++ vs := by
  induction n with
  | zero => intro i _; exact ⟨[], rfl, by simp⟩
  | succ n ih =>
    intro i h
    obtain ⟨vs, hr, hw⟩ := ih (i + 1) (by omega)
    refine ⟨wordAt m s.blk (s.off + 4 * i) :: vs, ?_, ?_⟩
    · simp only [getWords, Prog.bind_eq]
      rw [run_bind, getW_run s m i rfl (by omega)]
      simp only
      rw [run_bind, hr]
      rfl
    · rw [show i + (n + 1) = i + 1 + n by omega, hw, wordsN_succ, List.append_assoc]; rfl

theorem getWords_all (s : U32s) (m : Mem) : run (getWords s s.len 0) m = (.ok (wordsOf m s), m) := by
  obtain ⟨vs, hr, hw⟩ := getWords_run s m s.len 0 (by omega)
  have : vs = wordsOf m s := by rw [Nat.zero_add] at hw; rw [wordsOf_eq, hw]; simp [wordsN]
  rw [← this, hr]

/-! ## Package `util` -/

theorem sortWords_run {W : World} (hW : W.Ok) (s : U32s) (m : Mem) :
    ∃ m', run (sortWords W s) m = (.ok (), m') ∧ Same s.blk m m' ∧ wordsOf m' s = W.sort (wordsOf m s) := by
  have hl : (W.sort (wordsOf m s)).length = s.len := by rw [(hW.sort _).length_eq, wordsOf_length]
  obtain ⟨a, m', r2, f2, hw⟩ := run_only (wp_putWords (s := s) (W.sort (wordsOf m s)) (i := 0) (m := m)
    (Q := fun _ m' => wordsOf m' s = W.sort (wordsOf m s)) (by omega)
    fun m2 _ hw => by rw [Nat.zero_add, hl] at hw; rw [wordsOf_eq, hw]; simp [wordsN])
  refine ⟨m', ?_, f2, hw⟩
  simp only [sortWords, Prog.bind_eq]
  rw [run_bind, getWords_all]
  exact r2

theorem genWords_run (W : World) (d : Nat) (b : Block) (m : Mem) {i : Int} (n : Nat) (hi : i = n) :
    ∃ m', run (genWords W d i b) m = (.ok ⟨b, 0, n, n⟩, m') ∧ Same b m m' ∧
      wordsN m' ⟨b, 0, n, n⟩ n = (List.range n).map fun j => W.rand (d + 2 * j) := by
  subst hi
  have h : wp (only b) (genWords W d n b) m (fun a m' => a = ⟨b, 0, n, n⟩ ∧
      wordsN m' ⟨b, 0, n, n⟩ n = (List.range n).map fun j => W.rand (d + 2 * j)) := by
    simp only [genWords, Prog.bind_eq]
    rw [wp_bind]
    refine wp_makeWords fun m1 _ => ?_
    rw [wp_bind]
    refine wp_loop (fun (i : Int) m' => ∃ j : Nat, i = j ∧ j ≤ n ∧
      wordsN m' ⟨b, 0, n, n⟩ j = (List.range j).map fun j => W.rand (d + 2 * j)) (fun i => n - i.toNat) ?_ ?_ ?_ ?_ ?_
    · rintro i m' ⟨j, rfl, hj, hw⟩ hc
      have hc : j < n := by simpa using hc
      rw [wp_bind]
      refine wp_setW_ok j rfl hc (fun k _ => rfl) ⟨⟨j + 1, by omega, hc, ?_⟩, by simp only [Int.toNat_natCast]; omega⟩
      rw [wordsN_succ, wordAt_set32_self, List.range_succ, List.map_append, ← hw, wordsN_congr' (m' := m')]
      · simp
      · exact fun q hq => set32_other _ _ _ _ _ fun h => by have := hq.2.2; omega
    · rintro i m' ⟨j, rfl, hj, hw⟩ hc
      have hc : j < n := by simpa using hc
      simp only [Int.toNat_natCast]; omega
    · rintro i m' ⟨j, rfl, hj, hw⟩ hc
      have hc : n ≤ j := by simpa using hc
      obtain rfl : j = n := by omega
      exact ⟨rfl, hw⟩
    · exact ⟨0, rfl, Nat.zero_le _, by simp [wordsN]⟩
    · simp
  obtain ⟨a, m', hr, hf, rfl, hw⟩ := run_only h
  exact ⟨m', hr, hf, hw⟩

theorem utilDelta_run {inn out : U32s} (m : Mem) (hd : inn.blk ≠ out.blk) (hl : inn.len = out.len) :
    ∃ m', run (utilDelta inn out) m = (.ok (), m') ∧ Same out.blk m m' ∧ wordsOf m' out = delta 0 (wordsOf m inn) := by
  obtain ⟨m', hr, hw, hf⟩ := (C34_delta (m := m) (inn := inn) (out := out) (.inl hd)).1 (by omega)
  exact ⟨m', hr, fun q hq => hf q fun h => hq h.1, by rw [wordsOf_eq, ← hl]; exact hw⟩

/-! ## Equality -/

theorem equalWords_run {a b : U32s} {m : Mem} (n : Nat) : ∀ i, i + n ≤ a.len → i + n ≤ b.len →
    (∀ j < i + n, wordAt m a.blk (a.off + 4 * j) = wordAt m b.blk (b.off + 4 * j)) →
    run (equalWords a b n i) m = (.ok true, m) := by
  induction n with
  | zero => intro i _ _ _; rfl
  | succ n ih =>
    intro i ha hb h
    simp only [equalWords, Prog.bind_eq]
    rw [run_bind, getW_run a m i rfl (by omega)]
    simp only
    rw [run_bind, getW_run b m i rfl (by omega)]
    simp only
    rw [if_pos (h i (by omega))]
    exact ih (i + 1) (by omega) (by omega) fun j hj => h j (by omega)

theorem equalBytes_run {a b : Bytes} {m : Mem} (n : Nat) : ∀ i, i + n ≤ a.len → i + n ≤ b.len →
    (∀ j < i + n, m ⟨a.blk, a.off + j⟩ = m ⟨b.blk, b.off + j⟩) →
    run (equalBytes a b n i) m = (.ok true, m) := by
  induction n with
  | zero => intro i _ _ _; rfl
  | succ n ih =>
    intro i ha hb h
    simp only [equalBytes, Prog.bind_eq]
    rw [run_bind, getB_run a m i (by omega)]
    simp only
    rw [run_bind, getB_run b m i (by omega)]
    simp only
    rw [if_pos (h i (by omega))]
    exact ih (i + 1) (by omega) (by omega) fun j hj => h j (by omega)

theorem equalWords_false {a b : U32s} {m : Mem} (n : Nat) : ∀ i, i + n ≤ a.len → i + n ≤ b.len →
    (∃ j, i ≤ j ∧ j < i + n ∧ wordAt m a.blk (a.off + 4 * j) ≠ wordAt m b.blk (b.off + 4 * j)) →
    run (equalWords a b n i) m = (.ok false, m) := by
  induction n with
  | zero => rintro i _ _ ⟨j, h1, h2, -⟩; omega
  | succ n ih =>
    rintro i ha hb ⟨j, h1, h2, h⟩
    simp only [equalWords, Prog.bind_eq]
    rw [run_bind, getW_run a m i rfl (by omega)]
    simp only
    rw [run_bind, getW_run b m i rfl (by omega)]
    simp only
    split
    · next he =>
      refine ih (i + 1) (by omega) (by omega) ⟨j, ?_, by omega, h⟩
      rcases Nat.eq_or_lt_of_le h1 with rfl | h1
      · exact absurd he h
      · exact h1
    · rfl

theorem equalBytes_false {a b : Bytes} {m : Mem} (n : Nat) : ∀ i, i + n ≤ a.len → i + n ≤ b.len →
    (∃ j, i ≤ j ∧ j < i + n ∧ m ⟨a.blk, a.off + j⟩ ≠ m ⟨b.blk, b.off + j⟩) →
    run (equalBytes a b n i) m = (.ok false, m) := by
  induction n with
  | zero => rintro i _ _ ⟨j, h1, h2, -⟩; omega
  | succ n ih =>
    rintro i ha hb ⟨j, h1, h2, h⟩
    simp only [equalBytes, Prog.bind_eq]
    rw [run_bind, getB_run a m i (by omega)]
    simp only
    rw [run_bind, getB_run b m i (by omega)]
    simp only
    split
    · next he =>
      refine ih (i + 1) (by omega) (by omega) ⟨j, ?_, by omega, h⟩
      rcases Nat.eq_or_lt_of_le h1 with rfl | h1
      · exact absurd he h
      · exact h1
    · rfl

theorem deepEqualW_run {a b : U32s} {m : Mem} (h : wordsOf m a = wordsOf m b) :
    run (deepEqualW a b) m = (.ok true, m) := by
  have hl : a.len = b.len := by rw [← wordsOf_length m a, h, wordsOf_length]
  unfold deepEqualW
  rw [if_pos hl]
  refine equalWords_run _ 0 (by omega) (by omega) fun j hj => ?_
  rw [words_of m a j (by omega), words_of m b j (by omega), h]

theorem deepEqualB_run {a b : Bytes} {m : Mem} (h : bytesOf m a = bytesOf m b) :
    run (deepEqualB a b) m = (.ok true, m) := by
  have hl : a.len = b.len := by rw [← bytesOf_length m a, h, bytesOf_length]
  unfold deepEqualB
  rw [if_pos hl]
  refine equalBytes_run _ 0 (by omega) (by omega) fun j hj => ?_
  rw [← bytesOf_getD m a j (by omega), ← bytesOf_getD m b j (by omega), h]

theorem upto_run {e : Nat} {s : Slice e} {i : Int} (m : Mem) (n : Nat) (hi : i = n) (hn : n ≤ s.cap) :
    run (s.range 0 i) m = (.ok ⟨s.blk, s.off, n, s.cap⟩, m) := by
  subst hi
  unfold Slice.range
  rw [if_pos (by omega)]
  simp [run]

/-! ## Blocks of eight -/

theorem put8_run (f : Fn) {inn : U32s} {k : Nat} {m : Mem} (hT : TablesLoaded m) (hd : inn.blk ≠ .heap k) (hi : inn.len = 8) :
    ∃ m', run (f.put8 inn ⟨.heap k, 0, 32, 32⟩) m = (.ok (ctrl16 (wordsOf m inn)), m') ∧ Same (.heap k) m m' ∧
      bytesOf m' ⟨.heap k, 0, (dataBytes (wordsOf m inn)).length, 32⟩ = dataBytes (wordsOf m inn) := by
  obtain ⟨m', hr, hb, -, hf⟩ := C17_put8 f (inn := inn) (out := ⟨.heap k, 0, 32, 32⟩) (m := m) ⟨hT, rfl, .inl hd⟩ (by omega)
    (Nat.le_refl _)
  have hl := (dataBytes_bounds (wordsN m inn 8)).2
  rw [wordsN_length] at hl
  rw [wordsOf_eq, hi]
  refine ⟨m', hr, fun q hq => hf q fun h => hq h.1, ?_⟩
  rw [bytesOf_prefix m' (.heap k) 0 32 32 _ 32 (by omega), hb]

theorem put8Delta_run (f : Fn) {inn : U32s} {k : Nat} {m : Mem} (hT : TablesLoaded m) (hd : inn.blk ≠ .heap k)
    (hi : inn.len = 8) (prev : U32) :
    ∃ m', run (f.put8Delta inn ⟨.heap k, 0, 32, 32⟩ prev) m = (.ok (ctrl16 (delta prev (wordsOf m inn))), m') ∧
      Same (.heap k) m m' ∧
      bytesOf m' ⟨.heap k, 0, (dataBytes (delta prev (wordsOf m inn))).length, 32⟩ = dataBytes (delta prev (wordsOf m inn)) := by
  obtain ⟨m', hr, hb, -, hf⟩ := C17_put8Delta f (inn := inn) (out := ⟨.heap k, 0, 32, 32⟩) (m := m) prev ⟨hT, rfl, .inl hd⟩
    (by omega) (Nat.le_refl _)
  have hl := (dataBytes_bounds (delta prev (wordsN m inn 8))).2
  rw [delta_length, wordsN_length] at hl
  rw [wordsOf_eq, hi]
  refine ⟨m', hr, fun q hq => hf q fun h => hq h.1, ?_⟩
  rw [bytesOf_prefix m' (.heap k) 0 32 32 _ 32 (by omega), hb]

theorem sizeTwo_run {m : Mem} (hT : TablesLoaded m) {xs : List U32} (h : xs.length = 8) :
    run (controlByteToSizeTwo (ctrl16 xs)) m = (.ok ((dataBytes xs).length : Int), m) ∧ (dataBytes xs).length ≤ 32 := by
  have hl := (dataBytes_bounds xs).2
  refine ⟨?_, by omega⟩
  rw [controlByteToSizeTwo_run _ hT, ctrl16_toNat (by omega)]
  have := codeLens_partial xs 0
  rw [h, Nat.add_zero, Nat.add_zero] at this
  rw [this]

theorem get8_run (f : Fn) {inn : Bytes} {k : Nat} {m : Mem} (hT : TablesLoaded m) (hd : inn.blk ≠ .heap k) {xs : List U32}
    (hx : xs.length = 8) (hb : (bytesOf m inn).take (dataBytes xs).length = dataBytes xs) :
    ∃ m', run (f.get8 inn ⟨.heap k, 0, 8, 8⟩ (ctrl16 xs)) m = (.ok (), m') ∧ Same (.heap k) m m' ∧
      wordsOf m' ⟨.heap k, 0, 8, 8⟩ = xs := by
  obtain ⟨p, e⟩ := block_back hx hb
  have hc := ctrl16_toNat (g := xs) (by omega)
  obtain ⟨⟨m', r, w⟩, -, hf⟩ := (get8_res f (ctrl16 xs) (inn := inn) (out := ⟨.heap k, 0, 8, 8⟩) (m := m) ⟨hT, rfl, .inl hd⟩
    (by rw [hc]; exact p) (Nat.le_refl _)).imp1
  rw [r] at hf
  rw [hc, e] at w
  exact ⟨m', r, fun q hq => hf q fun h => hq h.1, w⟩

theorem get8Delta_run (f : Fn) {inn : Bytes} {k : Nat} {m : Mem} (hT : TablesLoaded m) (hd : inn.blk ≠ .heap k)
    {xs : List U32} (prev : U32) (hx : xs.length = 8)
    (hb : (bytesOf m inn).take (dataBytes (delta prev xs)).length = dataBytes (delta prev xs)) :
    ∃ m', run (f.get8Delta inn ⟨.heap k, 0, 8, 8⟩ (ctrl16 (delta prev xs)) prev) m = (.ok (), m') ∧ Same (.heap k) m m' ∧
      wordsOf m' ⟨.heap k, 0, 8, 8⟩ = xs := by
  have hl : (delta prev xs).length = 8 := by rw [delta_length, hx]
  obtain ⟨p, e⟩ := block_back hl hb
  have hc := ctrl16_toNat (g := delta prev xs) (by omega)
  obtain ⟨⟨m', r, w⟩, -, hf⟩ := (get8Delta_res f (ctrl16 (delta prev xs)) prev (inn := inn) (out := ⟨.heap k, 0, 8, 8⟩) (m := m)
    ⟨hT, rfl, .inl hd⟩ (by rw [hc]; exact p) (Nat.le_refl _)).imp1
  rw [r] at hf
  rw [hc, ← undelta_range, e, undelta_delta] at w
  exact ⟨m', r, fun q hq => hf q fun h => hq h.1, w⟩

/-! ## Blocks of four or fewer -/

theorem put4_run {inn : U32s} {k : Nat} {m : Mem} (hi : inn.len = 4) :
    ∃ m', run (put4uint32Scalar inn ⟨.heap k, 0, 16, 16⟩) m = (.ok (ctrlByte (wordsOf m inn)), m') ∧ Same (.heap k) m m' ∧
      bytesOf m' ⟨.heap k, 0, (dataBytes (wordsOf m inn)).length, 16⟩ = dataBytes (wordsOf m inn) := by
  have hl := (dataBytes_bounds (wordsN m inn 4)).2
  rw [wordsN_length] at hl
  have h := put4_res (inn := inn) (out := ⟨.heap k, 0, 16, 16⟩) (m := m)
  obtain ⟨m', r, hb⟩ := h.good ⟨by omega, hl⟩
  have hf := h.frame
  rw [r] at hf
  rw [wordsOf_eq, hi]
  refine ⟨m', r, fun q hq => hf q fun h => hq h.1, ?_⟩
  rw [bytesOf_prefix m' (.heap k) 0 16 16 _ 16 (by omega), hb]

theorem size_run {m : Mem} (hT : TablesLoaded m) {xs : List U32} (h : xs.length ≤ 4) :
    run (controlByteToSize (ctrlByte xs)) m = (.ok (((dataBytes xs).length + (4 - xs.length) : Nat) : Int), m) := by
  rw [controlByteToSize_run _ hT, ctrlByte_toNat h]
  have := codeLens_partial xs (4 - xs.length)
  rw [show xs.length + (4 - xs.length) = 4 by omega] at this
  rw [this]

theorem putUint32_run {inn : U32s} {k : Nat} {m : Mem} (hT : TablesLoaded m) (hd : inn.blk ≠ .heap k) {n : Nat} (hn : n ≤ 4)
    {i : Int} (hi : i = n) (hl : inn.len = n) :
    ∃ m', run (putUint32Scalar inn ⟨.heap k, 0, 4 * n, 4 * n⟩ i) m = (.ok (ctrlByte (wordsOf m inn)), m') ∧
      Same (.heap k) m m' ∧
      bytesOf m' ⟨.heap k, 0, (dataBytes (wordsOf m inn)).length, 4 * n⟩ = dataBytes (wordsOf m inn) := by
  have hb := (dataBytes_bounds (wordsN m inn n)).2
  rw [wordsN_length] at hb
  obtain ⟨m', r, -, h1, hf, -⟩ := C20_put i (n := n) (by omega) (inn := inn) (out := ⟨.heap k, 0, 4 * n, 4 * n⟩) (m := m)
    ⟨hT, rfl, .inl hd⟩ (by omega) hb
  rw [wordsOf_eq, hl]
  refine ⟨m', r, fun q hq => hf q fun h => hq h.1, ?_⟩
  rw [bytesOf_prefix m' (.heap k) 0 (4 * n) (4 * n) _ (4 * n) hb, h1]

theorem putUint32Delta_run {inn : U32s} {k : Nat} {m : Mem} (hT : TablesLoaded m) (hd : inn.blk ≠ .heap k) {n : Nat} (hn : n ≤ 4)
    {i : Int} (hi : i = n) (hl : inn.len = n) (prev : U32) :
    ∃ m', run (putUint32DeltaScalar inn ⟨.heap k, 0, 4 * n, 4 * n⟩ i prev) m = (.ok (ctrlByte (delta prev (wordsOf m inn))), m') ∧
      Same (.heap k) m m' ∧
      bytesOf m' ⟨.heap k, 0, (dataBytes (delta prev (wordsOf m inn))).length, 4 * n⟩ =
        dataBytes (delta prev (wordsOf m inn)) := by
  have hb := (dataBytes_bounds (delta prev (wordsN m inn n))).2
  rw [delta_length, wordsN_length] at hb
  obtain ⟨m', r, -, h1, hf, -⟩ := C20_putDelta i (n := n) (by omega) (inn := inn) (out := ⟨.heap k, 0, 4 * n, 4 * n⟩) (m := m)
    prev ⟨hT, rfl, .inl hd⟩ (by omega) hb
  rw [wordsOf_eq, hl]
  refine ⟨m', r, fun q hq => hf q fun h => hq h.1, ?_⟩
  rw [bytesOf_prefix m' (.heap k) 0 (4 * n) (4 * n) _ (4 * n) hb, h1]

theorem take_of_prefix {m : Mem} {b : Block} {l c c' : Nat} {xs : List U32} (hl : (dataBytes xs).length ≤ l)
    (h : bytesOf m ⟨b, 0, (dataBytes xs).length, c⟩ = dataBytes xs) :
    (bytesOf m ⟨b, 0, l, c'⟩).take (dataBytes xs).length = dataBytes xs := by
  rw [← bytesOf_prefix m b 0 l c' _ c hl, h]

theorem getUint32_run {inn : Bytes} {k : Nat} {m : Mem} (hd : inn.blk ≠ .heap k) {n : Nat} (hn : n ≤ 4) {i : Int} (hi : i = n)
    {xs : List U32} (hx : xs.length = n) (hb : (bytesOf m inn).take (dataBytes xs).length = dataBytes xs) :
    ∃ r m', run (getUint32Scalar inn ⟨.heap k, 0, n, n⟩ (ctrlByte xs) i) m = (.ok r, m') ∧ Same (.heap k) m m' ∧
      wordsOf m' ⟨.heap k, 0, n, n⟩ = xs := by
  obtain ⟨p, e⟩ := block_back hx hb
  have hg := getUint32_res (ctrlByte xs) (count := i) (n := n) (inn := inn) (out := ⟨.heap k, 0, n, n⟩) (m := m) (by omega) (.inl hd)
  rw [ctrlByte_toNat (by omega), e] at hg
  obtain ⟨m', r, w⟩ := hg.good ⟨Nat.le_refl _, p⟩
  have hf := hg.frame
  rw [r] at hf
  exact ⟨_, m', r, fun q hq => hf q fun h => hq h.1, w⟩

theorem getUint32Delta_run {inn : Bytes} {k : Nat} {m : Mem} (hd : inn.blk ≠ .heap k) {n : Nat} (hn : n ≤ 4) {i : Int}
    (hi : i = n) {xs : List U32} (prev : U32) (hx : xs.length = n)
    (hb : (bytesOf m inn).take (dataBytes (delta prev xs)).length = dataBytes (delta prev xs)) :
    ∃ r m', run (getUint32DeltaScalar inn ⟨.heap k, 0, n, n⟩ (ctrlByte (delta prev xs)) i prev) m = (.ok r, m') ∧
      Same (.heap k) m m' ∧ wordsOf m' ⟨.heap k, 0, n, n⟩ = xs := by
  have hl : (delta prev xs).length = n := by rw [delta_length, hx]
  obtain ⟨p, e⟩ := block_back hl hb
  have hg := getUint32Delta_res (ctrlByte (delta prev xs)) prev (count := i) (n := n) (inn := inn) (out := ⟨.heap k, 0, n, n⟩)
    (m := m) (by omega) (.inl hd)
  rw [ctrlByte_toNat (by omega), ← undelta_range, e, undelta_delta] at hg
  obtain ⟨m', r, w⟩ := hg.good ⟨Nat.le_refl _, p⟩
  have hf := hg.frame
  rw [r] at hf
  exact ⟨_, m', r, fun q hq => hf q fun h => hq h.1, w⟩

/-! ## Streams -/

theorem write_run (f : Fn) {j k n : Nat} {m : Mem} (hT : TablesLoaded m) (hd : j ≠ k) (hn : n < 2 ^ 60) :
    ∃ m' l c, run (f.write (.heap k) ⟨.heap j, 0, n, n⟩) m = (.ok ⟨.heap k, 0, l, c⟩, m') ∧ l ≤ c ∧ Same (.heap k) m m' ∧
      bytesOf m' ⟨.heap k, 0, l, c⟩ = encode (wordsOf m ⟨.heap j, 0, n, n⟩) := by
  have hp : WriterPre (.heap k) ⟨.heap j, 0, n, n⟩ m :=
    ⟨hT, ⟨Nat.le_refl _, rfl, hn⟩, rfl, fun h => hd (by injection h with h; exact h.symm)⟩
  obtain ⟨m', h1, h2, h3, -⟩ := (write_result f hp).ex
  obtain ⟨r, m₁, h4, -, -, h5, h6⟩ := C22_write_size f hp
  rw [h1] at h4
  cases h4
  exact ⟨m', _, _, h1, h5, fun q hq => h3 q fun h => hq h.1, h2⟩

theorem writeDelta_run (f : Fn) {j k n : Nat} {m : Mem} (hT : TablesLoaded m) (hd : j ≠ k) (hn : n < 2 ^ 60) (prev : U32) :
    ∃ m' l c, run (f.writeDelta (.heap k) ⟨.heap j, 0, n, n⟩ prev) m = (.ok ⟨.heap k, 0, l, c⟩, m') ∧ l ≤ c ∧
      Same (.heap k) m m' ∧ bytesOf m' ⟨.heap k, 0, l, c⟩ = encode (delta prev (wordsOf m ⟨.heap j, 0, n, n⟩)) := by
  have hp : WriterPre (.heap k) ⟨.heap j, 0, n, n⟩ m :=
    ⟨hT, ⟨Nat.le_refl _, rfl, hn⟩, rfl, fun h => hd (by injection h with h; exact h.symm)⟩
  obtain ⟨m', h1, h2, h3, -⟩ := (writeDelta_result f prev hp).ex
  obtain ⟨r, m₁, h4, -, -, h5, h6⟩ := C22_writeDelta_size f prev hp
  rw [h1] at h4
  cases h4
  exact ⟨m', _, _, h1, h5, fun q hq => h3 q fun h => hq h.1, h2⟩

theorem read_run (f : Fn) {j k n l c : Nat} {m : Mem} (hT : TablesLoaded m) (hd : j ≠ k) (hn : n < 2 ^ 60) (hl : l ≤ c)
    {i : Int} (hi : i = n) {xs : List U32} (hx : xs.length = n) (hb : bytesOf m ⟨.heap j, 0, l, c⟩ = encode xs) :
    ∃ m', run (f.read i ⟨.heap j, 0, l, c⟩ ⟨.heap k, 0, n, n⟩) m = (.ok (), m') ∧ Same (.heap k) m m' ∧
      wordsOf m' ⟨.heap k, 0, n, n⟩ = xs := by
  subst hi
  have hp : ReaderPre n ⟨.heap j, 0, l, c⟩ ⟨.heap k, 0, n, n⟩ m :=
    ⟨hT, hl, ⟨Nat.le_refl _, rfl, hn⟩, .inl fun h => hd (by injection h), Nat.le_refl _⟩
  have hr := read_result f hp
  have he := decode_encode xs []
  rw [List.append_nil, hx] at he
  rw [hb, he] at hr
  obtain ⟨⟨m', h1, h2⟩, hf⟩ := hr
  rw [h1] at hf
  exact ⟨m', h1, fun q hq => hf q fun h => hq h.1, h2⟩

theorem readDelta_run (f : Fn) {j k n l c : Nat} {m : Mem} (hT : TablesLoaded m) (hd : j ≠ k) (hn : n < 2 ^ 60) (hl : l ≤ c)
    {i : Int} (hi : i = n) {xs : List U32} (prev : U32) (hx : xs.length = n)
    (hb : bytesOf m ⟨.heap j, 0, l, c⟩ = encode (delta prev xs)) :
    ∃ m', run (f.readDelta i ⟨.heap j, 0, l, c⟩ ⟨.heap k, 0, n, n⟩ prev) m = (.ok (), m') ∧ Same (.heap k) m m' ∧
      wordsOf m' ⟨.heap k, 0, n, n⟩ = xs := by
  subst hi
  have hp : ReaderPre n ⟨.heap j, 0, l, c⟩ ⟨.heap k, 0, n, n⟩ m :=
    ⟨hT, hl, ⟨Nat.le_refl _, rfl, hn⟩, .inl fun h => hd (by injection h), Nat.le_refl _⟩
  have hr := readDelta_result f prev hp
  have he := decode_encode (delta prev xs) []
  rw [List.append_nil, delta_length, hx] at he
  rw [hb, decodeDelta, he, Option.map_some, undelta_delta] at hr
  obtain ⟨⟨m', h1, h2⟩, hf⟩ := hr
  rw [h1] at hf
  exact ⟨m', h1, fun q hq => hf q fun h => hq h.1, h2⟩

/-! ## Appending -/

theorem append_run (W : World) {s : U32s} {j k : Nat} (hs : s.blk = .heap j) (hj : j < k) (v : U32)
    {m : Mem} (hT : TablesLoaded m) :
    ∃ r j' m', run (append W s v (.heap k)) m = (.ok r, m') ∧ TablesLoaded m' ∧ r.blk = .heap j' ∧ j' < k + 1 ∧
      r.len = s.len + 1 ∧ r.len ≤ r.cap ∧ wordsOf m' r = wordsOf m s ++ [v] := by
  unfold append
  split
  · next h =>
    obtain ⟨_, m', r1, f1, hw⟩ := run_only (wp_setW_ok (s := ⟨s.blk, s.off, s.len + 1, s.cap⟩) (v := v) (m := m)
      (c := only s.blk) (i := s.len) (Q := fun _ m' => wordsN m' s (s.len + 1) = wordsN m s s.len ++ [v]) s.len rfl
      (Nat.lt_succ_self _) (fun _ _ => rfl) (by
        rw [wordsN_succ, wordAt_set32_self, wordsN_congr' (m' := m)]
        exact fun q hq => set32_other _ _ _ _ _ fun h => by have := hq.2.2; simp only at h; omega))
    refine ⟨⟨s.blk, s.off, s.len + 1, s.cap⟩, j, m', ?_, (hs ▸ f1).tables hT, hs, by omega, rfl, h, hw⟩
    simp only [Prog.bind_eq]
    rw [run_bind, r1]
    rfl
  · obtain ⟨_, m1, r1, f1, -⟩ := run_only (wp_zeroFill (b := .heap k) (n := 4 * (s.len + 1 + W.room (s.len + 1))) (m := m)
      (Q := fun _ _ => True) fun _ _ => trivial)
    obtain ⟨_, m', r2, f2, hw⟩ := run_only (wp_putWords
      (s := ⟨.heap k, 0, s.len + 1, s.len + 1 + W.room (s.len + 1)⟩) (wordsOf m s ++ [v]) (i := 0) (m := m1)
      (Q := fun _ m' => wordsOf m' ⟨.heap k, 0, s.len + 1, s.len + 1 + W.room (s.len + 1)⟩ = wordsOf m s ++ [v])
      (by simp [wordsOf_length])
      fun m2 _ hw => by
        rw [List.length_append, wordsOf_length, Nat.zero_add] at hw
        rw [wordsOf_eq]
        exact hw.trans (by simp [wordsN]))
    refine ⟨⟨.heap k, 0, s.len + 1, s.len + 1 + W.room (s.len + 1)⟩, k, m', ?_, (f1.trans f2).tables hT, rfl, by omega, rfl,
      Nat.le_add_right _ _, hw⟩
    simp only [Prog.bind_eq]
    rw [run_bind, getWords_all]
    simp only
    rw [run_bind, r1]
    simp only
    rw [run_bind, r2]
    rfl

end SVB.Tests
