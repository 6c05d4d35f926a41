import Verif.Props.Readers
import Verif.Props.RacyWriter
import Verif.Proofs.SnapReaders
import Verif.Proofs.SnapSpec

/-!
# C50: what a reader delivers when the stream changes while it runs

`Under keep may p m p' m'` (`Model/Rely.lean`): a history of the call `p` from memory `m`, in which others change memory
at any moment but leave the addresses `keep` alone, and every other address only ever holds bytes that `may` allows.
-/

set_option autoImplicit false

namespace SVB.Props
open Spec Asm

/-- Types of the results of a thread `none` that decodes and further threads. -/
def Beside {κ : Type} (β : κ → Type) : Option κ → Type
  | none => Unit
  | some k => β k

/-- Memory that the others leave alone during a call of a vectorised reader: the output, the tables and the control bytes
of the stream. -/
def MineCtrl (n : Nat) (st : Bytes) (out : U32s) (q : Ptr) : Prop :=
  Mine out.blk q ∨ (q.blk = st.blk ∧ st.off ≤ q.off ∧ q.off < st.off + ctrlLen n)

/-- The call ended, with outcome `o` and memory `m'`, as if the stream had been `s` all the time. -/
def EndsAs (o : Outcome Unit) (m m' : Mem) (out : U32s) (n : Nat) (r : Option (List U32)) : Prop :=
  (∀ xs, r = some xs → o = .ok () ∧ wordsN m' out n = xs) ∧
  (r = none → ∃ k, o = .panic k ∧ BoundsPanic k) ∧
  ∀ q : Ptr, q.blk = out.blk → ¬ inFirst out n q → m' q = m q

/-- `s` is a possible reading of the stream: every byte of it may be found at its place. -/
def Reading (keep : Ptr → Prop) (may : Ptr → Byte → Prop) (st : Bytes) (m : Mem) (s : List Byte) : Prop :=
  s.length = st.len ∧ ∀ (j : Nat) (hj : j < s.length),
    (keep ⟨st.blk, st.off + j⟩ → s[j] = m ⟨st.blk, st.off + j⟩) ∧ (¬ keep ⟨st.blk, st.off + j⟩ → may ⟨st.blk, st.off + j⟩ s[j])

private def outFp {out : U32s} (h : Valid out) : Fp where
  R _ := True
  W q := q.blk = out.blk
  tabs _ _ := trivial
  heap q hq := by rw [show q.blk = out.blk from hq]; exact h.heap

private theorem read_tri (f : Fn) {n : Nat} {st : Bytes} {out : U32s} {m : Mem} (h : ReaderPre n st out m) :
    Tri (outFp h.vout) (f.read n st out) (fun _ => True) := by
  have hl : n < 2 ^ 60 := Nat.lt_of_le_of_lt (Nat.le_trans h.room h.vout.len_le) h.vout.small
  have hi : RdOk (outFp h.vout) st := ⟨h.stream_cap, fun _ _ _ _ => trivial⟩
  have hr : RdOk (outFp h.vout) out := ⟨h.vout.len_le, fun _ _ _ _ => trivial⟩
  have ho : WrOk (outFp h.vout) out := ⟨h.vout.len_le, fun _ a _ _ => a⟩
  have hs := tri_readAllScalar (count := n) (by omega) (by omega) hi ho
  have hf := tri_readAllFast (count := n) (by omega) (by omega) hi ⟨h.stream_cap, fun _ _ _ _ => trivial⟩ hr ho
    ⟨h.vout.len_le, fun _ a _ _ => a⟩
  cases f with
  | scalar => exact hs
  | fast => exact hf
  | auto c =>
    rcases readAll_cases c n st out with e | e <;> simp only [Fn.read, e]
    · exact hf
    · exact hs

private theorem readDelta_tri (f : Fn) (prev : U32) {n : Nat} {st : Bytes} {out : U32s} {m : Mem}
    (h : ReaderPre n st out m) : Tri (outFp h.vout) (f.readDelta n st out prev) (fun _ => True) := by
  have hl : n < 2 ^ 60 := Nat.lt_of_le_of_lt (Nat.le_trans h.room h.vout.len_le) h.vout.small
  have hi : RdOk (outFp h.vout) st := ⟨h.stream_cap, fun _ _ _ _ => trivial⟩
  have hr : RdOk (outFp h.vout) out := ⟨h.vout.len_le, fun _ _ _ _ => trivial⟩
  have ho : WrOk (outFp h.vout) out := ⟨h.vout.len_le, fun _ a _ _ => a⟩
  have hs := tri_readAllDeltaScalar (count := n) (prev := prev) (by omega) (by omega) hi ho hr
  have hf := tri_readAllDeltaFast (count := n) (prev := prev) (by omega) (by omega) hi
    ⟨h.stream_cap, fun _ _ _ _ => trivial⟩ hr ho ⟨h.vout.len_le, fun _ a _ _ => a⟩
  cases f with
  | scalar => exact hs
  | fast => exact hf
  | auto c =>
    rcases readAllDelta_cases c n st out prev with e | e <;> simp only [Fn.readDelta, e]
    · exact hf
    · exact hs

/-- What holds of memory all the time. -/
private def Fixed (own : Ptr → Prop) (st : Bytes) (m0 m : Mem) : Prop :=
  TablesLoaded m ∧ ∀ q : Ptr, q.blk = st.blk → own q → m q = m0 q

private theorem fixed_own {own : Ptr → Prop} {n : Nat} {st : Bytes} {out : U32s} {m : Mem} (h : ReaderPre n st out m)
    (hne : st.blk ≠ out.blk) (hown : ∀ q, Mine out.blk q → own q) : Own own (Fixed own st m) out.blk where
  const q hq := hown q (.inr hq)
  out q hq := hown q (.inl hq)
  heap := h.vout.heap
  tabs _ h := h.1
  st q v mm hq hm := by
    refine ⟨hm.1.frame fun x hx => Mem.set_ne _ _ ?_, fun x hx ho => ?_⟩
    · rintro rfl; rw [hq, h.vout.heap] at hx; cases hx
    · rw [Mem.set_ne _ _ (by rintro rfl; exact hne (hx.symm.trans hq))]; exact hm.2 x hx ho

private theorem racy_read {own : Ptr → Prop} {may : Ptr → Byte → Prop} {p : Prog Unit} {n : Nat} {st : Bytes} {out : U32s}
    {m m' : Mem} {o : Outcome Unit} {dec : List Byte → Option (List U32)} {F : Fp} {P : Panic → Prop}
    (h : ReaderPre n st out m) (hown : ∀ q, Mine out.blk q → own q)
    (hs : Snap own may (Fixed own st m) (fun _ => True) p (fun _ _ => True)) (ht : TriP P F p (fun _ => True))
    (hW : ∀ q, F.W q → q.blk = out.blk)
    (hres : ∀ ms, ReaderPre n st out ms → ReadResult p ms out n (dec (bytesOf ms st)))
    (h0 : ∀ q, ¬ own q → may q (m q)) (hu : Under own may p m o.done m') :
    ∃ s, Reading own may st m s ∧ EndsAs o m m' out n (dec s) := by
  obtain ⟨ms, ms', a1, a2, a3, a4⟩ := hs.sound hu (fun q hq => hown q (.inr hq)) (fun q hq => hown q (.inl (hW q hq))) ht
    ⟨h.tables, fun _ _ _ => rfl⟩ h.tables h0
  have hp : ReaderPre n st out ms :=
    ⟨h.tables.frame fun q hq => a1 q (hown q (.inr hq)), h.stream_cap, h.vout, h.disj, h.room⟩
  obtain ⟨r1, r2⟩ := hres ms hp
  have hin : ∀ q : Ptr, q.blk = out.blk → own q := fun q hq => hown q (.inl hq)
  refine ⟨bytesOf ms st, ⟨by simp [bytesOf], fun j hj => ?_⟩, fun xs hx => ?_, fun hx => ?_, fun q hq hn => ?_⟩
  · simp only [bytesOf, List.getElem_map, List.getElem_range]
    exact ⟨fun hk => a1 _ hk, fun hk => a2 _ hk⟩
  · rw [hx] at r1
    obtain ⟨mm, e1, e2⟩ := r1
    rw [a3] at e1
    cases e1
    refine ⟨rfl, e2 ▸ ?_⟩
    unfold wordsN
    refine List.map_congr_left fun i _ => ?_
    rw [a4 _ (hin _ rfl), a4 _ (hin _ rfl), a4 _ (hin _ rfl), a4 _ (hin _ rfl)]
  · rw [hx] at r1
    obtain ⟨k, mm, e1, e2⟩ := r1
    rw [a3] at e1
    cases e1
    exact ⟨k, rfl, e2⟩
  · have := r2 q hn
    rw [a3] at this
    rw [← a4 q (hin q hq), ← a1 q (hin q hq)]
    exact this

/-- C50, `ReadAllScalar`: the call ends as if the stream had been `s` all the time, where each byte of `s` may be found at
its place. -/
theorem C50_readScalar {n : Nat} {st : Bytes} {out : U32s} {m m' : Mem} {may : Ptr → Byte → Prop} {o : Outcome Unit}
    (h : ReaderPre n st out m) (hne : st.blk ≠ out.blk) (h0 : ∀ q, ¬ Mine out.blk q → may q (m q))
    (hu : Under (Mine out.blk) may (readAllScalar n st out) m o.done m') :
    ∃ s, Reading (Mine out.blk) may st m s ∧ EndsAs o m m' out n (decode n s) := by
  have hl : n < 2 ^ 60 := Nat.lt_of_le_of_lt (Nat.le_trans h.room h.vout.len_le) h.vout.small
  exact racy_read h (fun _ h => h) (snap_readAllScalar (by omega) (fixed_own h hne fun _ h => h)
    ⟨rfl, h.vout.len_le⟩ fun _ _ => trivial) (read_tri .scalar h) (fun _ h => h) (fun ms hm => read_result .scalar hm) h0 hu

/-- C50, `ReadAllDeltaScalar`. -/
theorem C50_readDeltaScalar {n : Nat} {st : Bytes} {out : U32s} {m m' : Mem} {may : Ptr → Byte → Prop} {o : Outcome Unit}
    (prev : U32) (h : ReaderPre n st out m) (hne : st.blk ≠ out.blk) (h0 : ∀ q, ¬ Mine out.blk q → may q (m q))
    (hu : Under (Mine out.blk) may (readAllDeltaScalar n st out prev) m o.done m') :
    ∃ s, Reading (Mine out.blk) may st m s ∧ EndsAs o m m' out n (decodeDelta prev n s) := by
  have hl : n < 2 ^ 60 := Nat.lt_of_le_of_lt (Nat.le_trans h.room h.vout.len_le) h.vout.small
  exact racy_read h (fun _ h => h) (snap_readAllDeltaScalar (by omega) (fixed_own h hne fun _ h => h)
    ⟨rfl, h.vout.len_le⟩ fun _ _ => trivial) (readDelta_tri .scalar prev h) (fun _ h => h)
    (fun ms hm => readDelta_result .scalar prev hm) h0 hu

private theorem ctrls_fixed {n : Nat} {st : Bytes} {out : U32s} {m : Mem} :
    Ctrls (MineCtrl n st out) (Fixed (MineCtrl n st out) st m) m st ((n + 3) / 4) where
  own c hc := .inr ⟨rfl, Nat.le_add_right _ _, by simp only [ctrlLen]; omega⟩
  val mm hm c hc := hm.2 _ rfl (.inr ⟨rfl, Nat.le_add_right _ _, by simp only [ctrlLen]; omega⟩)

/-- C50, `ReadAll`, `ReadAllScalar`, `ReadAllFast`: the same, provided that the control bytes do not change. -/
theorem C50_read (f : Fn) {n : Nat} {st : Bytes} {out : U32s} {m m' : Mem} {may : Ptr → Byte → Prop} {o : Outcome Unit}
    (h : ReaderPre n st out m) (hne : st.blk ≠ out.blk) (h0 : ∀ q, ¬ MineCtrl n st out q → may q (m q))
    (hu : Under (MineCtrl n st out) may (f.read n st out) m o.done m') :
    ∃ s, Reading (MineCtrl n st out) may st m s ∧ EndsAs o m m' out n (decode n s) := by
  have hl : n < 2 ^ 60 := Nat.lt_of_le_of_lt (Nat.le_trans h.room h.vout.len_le) h.vout.small
  have ho := fixed_own (own := MineCtrl n st out) h hne fun _ h => .inl h
  refine racy_read h (fun _ h => .inl h) ?_ (read_tri f h) (fun _ h => h) (fun ms hm => read_result f hm) h0 hu
  have hs := snap_readAllScalar (may := may) (D := fun _ => True) (n := n) (st := st) (out := out) (by omega) ho
    ⟨rfl, h.vout.len_le⟩ fun _ _ => trivial
  have hf := snap_readAllFast (may := may) (D := fun _ => True) (n := n) (st := st) (out := out) (by omega) ho
    ⟨rfl, h.vout.len_le⟩ ctrls_fixed fun _ _ => trivial
  cases f with
  | scalar => exact hs
  | fast => exact hf
  | auto c =>
    rcases readAll_cases c n st out with e | e <;> simp only [Fn.read, e]
    · exact hf
    · exact hs

/-- C50, the delta readers: the same, provided that the control bytes do not change. -/
theorem C50_readDelta (f : Fn) (prev : U32) {n : Nat} {st : Bytes} {out : U32s} {m m' : Mem} {may : Ptr → Byte → Prop}
    {o : Outcome Unit} (h : ReaderPre n st out m) (hne : st.blk ≠ out.blk)
    (h0 : ∀ q, ¬ MineCtrl n st out q → may q (m q))
    (hu : Under (MineCtrl n st out) may (f.readDelta n st out prev) m o.done m') :
    ∃ s, Reading (MineCtrl n st out) may st m s ∧ EndsAs o m m' out n (decodeDelta prev n s) := by
  have hl : n < 2 ^ 60 := Nat.lt_of_le_of_lt (Nat.le_trans h.room h.vout.len_le) h.vout.small
  have ho := fixed_own (own := MineCtrl n st out) h hne fun _ h => .inl h
  refine racy_read h (fun _ h => .inl h) ?_ (readDelta_tri f prev h) (fun _ h => h)
    (fun ms hm => readDelta_result f prev hm) h0 hu
  have hs := snap_readAllDeltaScalar (may := may) (D := fun _ => True) (n := n) (st := st) (out := out) (prev := prev)
    (by omega) ho ⟨rfl, h.vout.len_le⟩ fun _ _ => trivial
  have hf := snap_readAllDeltaFast (may := may) (D := fun _ => True) (n := n) (st := st) (out := out) (prev := prev)
    (by omega) ho ⟨rfl, h.vout.len_le⟩ ctrls_fixed fun _ _ => trivial
  cases f with
  | scalar => exact hs
  | fast => exact hf
  | auto c =>
    rcases readAllDelta_cases c n st out prev with e | e <;> simp only [Fn.readDelta, e]
    · exact hf
    · exact hs

/-! ## Numbers nobody changes -/

/-- Nobody changes number `j` of the stream: its bytes only ever hold what they held at first. -/
def Untouched (may : Ptr → Byte → Prop) (n : Nat) (st : Bytes) (m : Mem) (j : Nat) : Prop :=
  ∀ k < (lengths n (bytesOf m st)).getD j 0, ∀ b,
    may ⟨st.blk, st.off + (numPos n (bytesOf m st) j + k)⟩ b → b = m ⟨st.blk, st.off + (numPos n (bytesOf m st) j + k)⟩

private theorem reading_local {n : Nat} {st : Bytes} {out : U32s} {m : Mem} {may : Ptr → Byte → Prop} {s : List Byte}
    {xs : List U32} (hr : Reading (MineCtrl n st out) may st m s) (hd : decode n (bytesOf m st) = some xs) :
    ∃ ys, decode n s = some ys ∧ ys.length = xs.length ∧ ∀ j, Untouched may n st m j → ys[j]? = xs[j]? := by
  have hl : s.length = (bytesOf m st).length := by simp [bytesOf, hr.1]
  have hb : ∀ (i : Nat) (hi : i < s.length), (s[i] = m ⟨st.blk, st.off + i⟩) → s[i]? = (bytesOf m st)[i]? := by
    intro i hi e
    rw [List.getElem?_eq_getElem hi, List.getElem?_eq_getElem (by omega), e]
    simp [bytesOf]
  obtain ⟨ys, h1, h2, h3⟩ := decode_local hl (fun i hi => by
    by_cases h : i < s.length
    · exact hb i h ((hr.2 i h).1 (.inr ⟨rfl, Nat.le_add_right _ _, Nat.add_lt_add_left hi _⟩))
    · rw [List.getElem?_eq_none (by omega), List.getElem?_eq_none (by omega)]) hd
  refine ⟨ys, h1, h2, fun j hj => h3 j fun k hk => ?_⟩
  by_cases h : numPos n (bytesOf m st) j + k < s.length
  · refine hb _ h ?_
    by_cases hm : MineCtrl n st out ⟨st.blk, st.off + (numPos n (bytesOf m st) j + k)⟩
    · exact (hr.2 _ h).1 hm
    · exact hj k hk _ ((hr.2 _ h).2 hm)
  · rw [List.getElem?_eq_none (by omega), List.getElem?_eq_none (by omega)]

/-- C50, numbers nobody changes: when the stream held `xs` at first and its control bytes stay, the call returns, and
every number whose own bytes stay is delivered exactly, whatever happens to its neighbours. -/
theorem C50_read_unchanged (f : Fn) {n : Nat} {st : Bytes} {out : U32s} {m m' : Mem} {may : Ptr → Byte → Prop}
    {o : Outcome Unit} {xs : List U32} (h : ReaderPre n st out m) (hne : st.blk ≠ out.blk)
    (h0 : ∀ q, ¬ MineCtrl n st out q → may q (m q))
    (hu : Under (MineCtrl n st out) may (f.read n st out) m o.done m') (hd : decode n (bytesOf m st) = some xs) :
    o = .ok () ∧ ∀ j, Untouched may n st m j → (wordsN m' out n)[j]? = xs[j]? := by
  obtain ⟨s, h1, h2, -, -⟩ := C50_read f h hne h0 hu
  obtain ⟨ys, e1, -, e2⟩ := reading_local h1 hd
  obtain ⟨a, b⟩ := h2 ys e1
  exact ⟨a, fun j hj => b ▸ e2 j hj⟩

/-- C50, the delta readers: number `j` of the result is exact when nobody changes the differences up to number `j`. -/
theorem C50_readDelta_unchanged (f : Fn) (prev : U32) {n : Nat} {st : Bytes} {out : U32s} {m m' : Mem}
    {may : Ptr → Byte → Prop} {o : Outcome Unit} {xs : List U32} (h : ReaderPre n st out m) (hne : st.blk ≠ out.blk)
    (h0 : ∀ q, ¬ MineCtrl n st out q → may q (m q))
    (hu : Under (MineCtrl n st out) may (f.readDelta n st out prev) m o.done m')
    (hd : decodeDelta prev n (bytesOf m st) = some xs) :
    o = .ok () ∧ ∀ j, (∀ i ≤ j, Untouched may n st m i) → (wordsN m' out n)[j]? = xs[j]? := by
  obtain ⟨s, h1, h2, -, -⟩ := C50_readDelta f prev h hne h0 hu
  unfold decodeDelta at hd h2
  cases e : decode n (bytesOf m st) with
  | none => rw [e] at hd; cases hd
  | some ds =>
    rw [e] at hd
    cases hd
    obtain ⟨ys, e1, -, e2⟩ := reading_local h1 e
    obtain ⟨a, b⟩ := h2 (undelta prev ys) (by rw [e1]; rfl)
    exact ⟨a, fun j hj => b ▸ undelta_local fun i hi => e2 i (hj i hi)⟩

/-! ## Goroutines -/

section
variable {κ : Type} [DecidableEq κ] {β : κ → Type}

private theorem threads_under' {c : Conf (Beside β)} {K : Ptr → Prop} (hK : ∀ q : Ptr, q.blk.isConst = true → K q)
    (hT : TablesLoaded c.mem) (hn : SparesTables (c.prog none)) (ho : ∀ k, Avoids K (c.prog (some k)))
    (sched : List (Option κ)) :
    Under K (c.Held sched) (c.prog none) c.mem ((c.exec sched).prog none) (c.exec sched).mem := by
  refine Conf.exec_under ?_ hT ?_ sched
  · intro j
    cases j with
    | none => exact hn
    | some k => exact (ho k).spares hK
  · intro j hj
    cases j with
    | none => exact absurd rfl hj
    | some k => exact ho k

/-- C50 for goroutines, `ReadAllScalar`: thread `none` decodes, any number of other threads do anything except storing to
the tables and to the output; any schedule.  When the reader has stopped, it ends as if the stream had been `s` all the
time, where each byte of `s` was at its place at some moment. -/
theorem C50_readScalar_threads {n : Nat} {st : Bytes} {out : U32s} {c : Conf (Beside β)} (h : ReaderPre n st out c.mem)
    (hne : st.blk ≠ out.blk) (hw : c.prog none = readAllScalar n st out)
    (ho : ∀ k, Avoids (Mine out.blk) (c.prog (some k))) (sched : List (Option κ)) {o : Outcome Unit}
    (hr : (c.exec sched).prog none = o.done) :
    ∃ s, Reading (Mine out.blk) (c.Held sched) st c.mem s ∧ EndsAs o c.mem (c.exec sched).mem out n (decode n s) := by
  have hu := threads_under' (fun _ h => .inr h) h.tables (by rw [hw]; exact (read_tri .scalar h).spares) ho sched
  rw [hw, hr] at hu
  exact C50_readScalar h hne (fun q _ => ⟨[], List.nil_prefix, rfl⟩) hu

/-- C50 for goroutines, `ReadAllDeltaScalar`. -/
theorem C50_readDeltaScalar_threads (prev : U32) {n : Nat} {st : Bytes} {out : U32s} {c : Conf (Beside β)}
    (h : ReaderPre n st out c.mem) (hne : st.blk ≠ out.blk) (hw : c.prog none = readAllDeltaScalar n st out prev)
    (ho : ∀ k, Avoids (Mine out.blk) (c.prog (some k))) (sched : List (Option κ)) {o : Outcome Unit}
    (hr : (c.exec sched).prog none = o.done) :
    ∃ s, Reading (Mine out.blk) (c.Held sched) st c.mem s ∧
      EndsAs o c.mem (c.exec sched).mem out n (decodeDelta prev n s) := by
  have hu := threads_under' (fun _ h => .inr h) h.tables
    (by rw [hw]; exact (readDelta_tri .scalar prev h).spares) ho sched
  rw [hw, hr] at hu
  exact C50_readDeltaScalar prev h hne (fun q _ => ⟨[], List.nil_prefix, rfl⟩) hu

/-- C50 for goroutines, every reader: the other threads do not store to the control bytes either. -/
theorem C50_read_threads (f : Fn) {n : Nat} {st : Bytes} {out : U32s} {c : Conf (Beside β)}
    (h : ReaderPre n st out c.mem) (hne : st.blk ≠ out.blk) (hw : c.prog none = f.read n st out)
    (ho : ∀ k, Avoids (MineCtrl n st out) (c.prog (some k))) (sched : List (Option κ)) {o : Outcome Unit}
    (hr : (c.exec sched).prog none = o.done) :
    ∃ s, Reading (MineCtrl n st out) (c.Held sched) st c.mem s ∧
      EndsAs o c.mem (c.exec sched).mem out n (decode n s) := by
  have hu := threads_under' (fun _ h => .inl (.inr h)) h.tables (by rw [hw]; exact (read_tri f h).spares) ho sched
  rw [hw, hr] at hu
  exact C50_read f h hne (fun q _ => ⟨[], List.nil_prefix, rfl⟩) hu

/-- C50 for goroutines, every delta reader. -/
theorem C50_readDelta_threads (f : Fn) (prev : U32) {n : Nat} {st : Bytes} {out : U32s} {c : Conf (Beside β)}
    (h : ReaderPre n st out c.mem) (hne : st.blk ≠ out.blk) (hw : c.prog none = f.readDelta n st out prev)
    (ho : ∀ k, Avoids (MineCtrl n st out) (c.prog (some k))) (sched : List (Option κ)) {o : Outcome Unit}
    (hr : (c.exec sched).prog none = o.done) :
    ∃ s, Reading (MineCtrl n st out) (c.Held sched) st c.mem s ∧
      EndsAs o c.mem (c.exec sched).mem out n (decodeDelta prev n s) := by
  have hu := threads_under' (fun _ h => .inl (.inr h)) h.tables
    (by rw [hw]; exact (readDelta_tri f prev h).spares) ho sched
  rw [hw, hr] at hu
  exact C50_readDelta f prev h hne (fun q _ => ⟨[], List.nil_prefix, rfl⟩) hu

end

/-! ## Control bytes that change under a vectorised reader -/

private theorem turn_avoids {ι : Type} [DecidableEq ι] {α : ι → Type} {K : Ptr → Prop} {c : Conf α} (hT : TablesLoaded c.mem)
    (h : ∀ j, Avoids K (c.prog j)) (j : ι) :
    (∀ k, Avoids K ((c.turn j).prog k)) ∧ ∀ q, K q → (c.turn j).mem q = c.mem q := by
  have hj := h j
  unfold Conf.turn
  split <;> rename_i hp
  · exact ⟨h, fun _ _ => rfl⟩
  · exact ⟨h, fun _ _ => rfl⟩
  · rw [hp] at hj
    refine ⟨fun k => ?_, fun _ _ => rfl⟩
    by_cases e : k = j
    · subst e; simp only [↓reduceDIte]; exact hj _ hT
    · simp only [e, ↓reduceDIte]; exact h k
  · rw [hp] at hj
    refine ⟨fun k => ?_, fun q hq => Mem.set_ne _ _ (by rintro rfl; exact hj.1 hq)⟩
    by_cases e : k = j
    · subst e; simp only [↓reduceDIte]; exact hj.2
    · simp only [e, ↓reduceDIte]; exact h k

private theorem held_avoids {ι : Type} [DecidableEq ι] {α : ι → Type} {K : Ptr → Prop} {c : Conf α}
    (hK : ∀ q : Ptr, q.blk.isConst = true → K q) (hT : TablesLoaded c.mem) (h : ∀ j, Avoids K (c.prog j)) {q : Ptr} (hq : K q)
    {sched : List ι} {b : Byte} (hb : c.Held sched q b) : b = c.mem q := by
  obtain ⟨s, -, rfl⟩ := hb
  clear sched
  induction s generalizing c with
  | nil => rfl
  | cons j s ih =>
    obtain ⟨h1, h2⟩ := turn_avoids hT h j
    have := ih (c := c.turn j) (hT.frame fun q hq => h2 q (hK q hq)) h1
    exact this.trans (h2 q hq)

private theorem tri_avoids {α : Type} {P : Panic → Prop} {F : Fp} {p : Prog α} {Q : α → Prop} {K : Ptr → Prop}
    (h : TriP P F p Q) (hK : ∀ q, F.W q → ¬ K q) : Avoids K p := by
  induction p with
  | ret => trivial
  | panic => trivial
  | load q k ih => exact fun m hm => ih _ (h.2 _ ⟨m, hm, rfl⟩)
  | store q v k ih => exact ⟨hK _ h.1, ih h.2⟩

def exRRSt : Bytes := ⟨.heap 1, 0, 29, 29⟩
def exRROut : U32s := ⟨.heap 2, 0, 17, 17⟩
/-- Data bytes: 1 to 24. -/
def exRRData : List Byte := [1, 2, 3, 4, 5, 6, 7, 8, 9, 10, 11, 12, 13, 14, 15, 16, 17, 18, 19, 20, 21, 22, 23, 24]
/-- Five control bytes, seventeen numbers of one byte each and seven spare bytes. -/
def exRRMem : Mem := memWith [] ([0, 0, 0, 0, 0] ++ exRRData)

/-- A reader of the seventeen numbers, and a thread that stores a 3 to the first control byte: the first number would have
four bytes. -/
def exRR (p : Prog Unit) : Conf (Beside (fun _ : Unit => Unit)) where
  prog
    | none => p
    | some () => .store ⟨.heap 1, 0⟩ 3 (.ret ())
  mem := exRRMem

theorem exRRPre : ReaderPre 17 exRRSt exRROut exRRMem :=
  ⟨memWith_tables _ _, by decide, ⟨by decide, rfl, by decide⟩, .inl (by decide), by decide⟩

/-- The other thread interferes after `n` accesses of the reader. -/
def exRRSched (n : Nat) : List (Option Unit) := List.replicate n none ++ some () :: List.replicate 200 none

/-- What a thread that has returned leaves in the output. -/
def outOf (c : Conf (Beside (fun _ : Unit => Unit))) : Option (List U32) :=
  match c.prog none with
  | .ret _ => some (wordsN c.mem exRROut 17)
  | _ => none

/-- Every byte of the stream except the first is all the time what it is at first. -/
private theorem exRR_reading {p : Prog Unit} {Q : Unit → Prop} {P : Panic → Prop}
    (hp : TriP P (outFp exRRPre.vout) p Q) {sched : List (Option Unit)} {s : List Byte}
    (hs : Reading (Mine exRROut.blk) ((exRR p).Held sched) exRRSt exRRMem s) :
    ∃ b, s = b :: ([0, 0, 0, 0] ++ exRRData) := by
  have hK : ∀ q : Ptr, q.blk.isConst = true → q.blk ≠ .heap 2 ∧ q ≠ ⟨.heap 1, 0⟩ := by
    intro q hq
    exact ⟨fun e => (by rw [e] at hq; cases hq), fun e => (by rw [e] at hq; cases hq)⟩
  have ha : ∀ j, Avoids (fun q => q.blk ≠ .heap 2 ∧ q ≠ ⟨.heap 1, 0⟩) ((exRR p).prog j) := by
    intro j
    cases j with
    | none => exact tri_avoids hp fun q (hq : q.blk = .heap 2) h => h.1 hq
    | some k => exact ⟨fun h => h.2 rfl, trivial⟩
  obtain ⟨hl, hb⟩ := hs
  have hn : ∀ i, ¬ Mine exRROut.blk ⟨exRRSt.blk, i⟩ := by rintro i (e | e) <;> cases e
  have he : ∀ (i : Nat) (hi : i < s.length), 0 < i → s[i] = exRRMem ⟨.heap 1, i⟩ := by
    intro i hi h0
    have := held_avoids hK (c := exRR p) (memWith_tables _ _) ha (q := ⟨.heap 1, exRRSt.off + i⟩)
      ⟨fun e => (by cases e), fun e => (by injection e with _ e; simp only [exRRSt] at e; omega)⟩ ((hb i hi).2 (hn _))
    rw [this]
    simp [exRR, exRRSt]
  cases s with
  | nil => cases hl
  | cons b t =>
    refine ⟨b, congrArg _ (List.ext_getElem ?_ fun i h1 h2 => ?_)⟩
    · simp only [List.length_cons] at hl
      exact Nat.succ.inj hl
    · have := he (i + 1) (by simpa using h1) (by omega)
      rw [List.getElem_cons_succ] at this
      rw [this]
      exact (by decide : ∀ i (h : i < ([0, 0, 0, 0] ++ exRRData).length),
        exRRMem ⟨.heap 1, i + 1⟩ = ([0, 0, 0, 0] ++ exRRData)[i]) i h2

private theorem outOf_some {c : Conf (Beside (fun _ : Unit => Unit))} {xs : List U32} (h : outOf c = some xs) :
    c.prog none = (Outcome.ok () : Outcome Unit).done ∧ wordsN c.mem exRROut 17 = xs := by
  unfold outOf at h
  split at h
  · rename_i e; cases h; exact ⟨e, rfl⟩
  · cases h

private theorem exRR_fast : outOf ((exRR (readAllFast 17 exRRSt exRROut)).exec (exRRSched 50)) =
    some [1, 2, 3, 4, 5, 6, 7, 8, 12, 13, 14, 15, 16, 17, 18, 19, 20] := by decide +kernel

/-- C50 is false of `ReadAllFast` when control bytes change: the assembly loop takes the shuffles from the control bytes
as they were, the Go code advances in the data by the control bytes as they are.  The reader delivers the numbers
1, …, 8, 12, …, 20, which no stream with these data bytes holds, whatever its first control byte. -/
theorem C50_readFast_mixed : ∃ (sched : List (Option Unit)) (o : Outcome Unit),
    ((exRR (readAllFast 17 exRRSt exRROut)).exec sched).prog none = o.done ∧
      ¬ ∃ s, Reading (Mine exRROut.blk) ((exRR (readAllFast 17 exRRSt exRROut)).Held sched) exRRSt exRRMem s ∧
        EndsAs o exRRMem ((exRR (readAllFast 17 exRRSt exRROut)).exec sched).mem exRROut 17 (decode 17 s) := by
  have h1 := (outOf_some exRR_fast).1
  have h2 := (outOf_some exRR_fast).2
  refine ⟨exRRSched 50, .ok (), h1, ?_⟩
  rintro ⟨s, hs, he, hn, -⟩
  obtain ⟨b, rfl⟩ := exRR_reading (read_tri .fast exRRPre) hs
  cases e : decode 17 (b :: ([0, 0, 0, 0] ++ exRRData)) with
  | none => obtain ⟨k, hk, -⟩ := hn e; cases hk
  | some xs =>
    have := (he xs e).2.symm.trans h2
    subst this
    exact (by decide +kernel : ∀ b : Byte, decode 17 (b :: ([0, 0, 0, 0] ++ exRRData)) ≠
      some [1, 2, 3, 4, 5, 6, 7, 8, 12, 13, 14, 15, 16, 17, 18, 19, 20]) b e

/-- The reader has returned. -/
def finished (c : Conf (Beside (fun _ : Unit => Unit))) : Bool :=
  match c.prog none with
  | .ret _ => true
  | _ => false

private theorem ret_of {c : Conf (Beside (fun _ : Unit => Unit))} (h : finished c = true) :
    c.prog none = (Outcome.ok () : Outcome Unit).done := by
  unfold finished at h
  split at h
  · rename_i e; exact e
  · cases h

private theorem exRR_deltaFast :
    finished ((exRR (readAllDeltaFast 17 exRRSt exRROut 0)).exec (exRRSched 50)) = true ∧
    (wordsN ((exRR (readAllDeltaFast 17 exRRSt exRROut 0)).exec (exRRSched 50)).mem exRROut 4) = [1, 3, 6, 10] ∧
    (wordsN ((exRR (readAllDeltaFast 17 exRRSt exRROut 0)).exec (exRRSched 50)).mem exRROut 17)[8]? = some 48 := by
  decide +kernel

/-- The same of `ReadAllDeltaFast`: the first four numbers are 1, 3, 6, 10 and number 8 is 48 instead of 45. -/
theorem C50_readDeltaFast_mixed : ∃ (sched : List (Option Unit)) (o : Outcome Unit),
    ((exRR (readAllDeltaFast 17 exRRSt exRROut 0)).exec sched).prog none = o.done ∧
      ¬ ∃ s, Reading (Mine exRROut.blk) ((exRR (readAllDeltaFast 17 exRRSt exRROut 0)).Held sched) exRRSt exRRMem s ∧
        EndsAs o exRRMem ((exRR (readAllDeltaFast 17 exRRSt exRROut 0)).exec sched).mem exRROut 17
          (decodeDelta 0 17 s) := by
  have h0 := exRR_deltaFast.1
  have h1 := exRR_deltaFast.2.1
  have h2 := exRR_deltaFast.2.2
  refine ⟨exRRSched 50, .ok (), ?_, ?_⟩
  · exact ret_of h0
  rintro ⟨s, hs, he, hn, -⟩
  obtain ⟨b, rfl⟩ := exRR_reading (readDelta_tri .fast 0 exRRPre) hs
  cases e : decodeDelta 0 17 (b :: ([0, 0, 0, 0] ++ exRRData)) with
  | none => obtain ⟨k, hk, -⟩ := hn e; cases hk
  | some xs =>
    have := (he xs e).2
    have h1' : xs.take 4 = [1, 3, 6, 10] := by
      rw [← this, ← h1]; simp only [wordsN, ← List.map_take]; rfl
    rw [this] at h2
    have hf : ∀ b : Byte, ((decodeDelta 0 17 (b :: ([0, 0, 0, 0] ++ exRRData))).all fun xs =>
      xs.take 4 ≠ [1, 3, 6, 10] ∨ xs[8]? ≠ some 48) = true := by decide +kernel
    have := hf b
    rw [e] at this
    simp only [Option.all_some, decide_eq_true_eq] at this
    exact this.elim (fun h => h h1') fun h => h h2

/-! ## Concrete histories -/

theorem exRRAvoid (p : Prog Unit) : ∀ k, Avoids (Mine exRROut.blk) ((exRR p).prog (some k)) := fun _ =>
  ⟨fun h => (by rcases h with e | e <;> cases e), trivial⟩

-- `ReadAllScalar` beside the same thread: the decoding with the new control byte or with the old one.
example : outOf ((exRR (readAllScalar 17 exRRSt exRROut)).exec (exRRSched 0)) = decode 17 ([3, 0, 0, 0, 0] ++ exRRData) ∧
    outOf ((exRR (readAllScalar 17 exRRSt exRROut)).exec (exRRSched 50)) = decode 17 ([0, 0, 0, 0, 0] ++ exRRData) := by
  decide +kernel

private theorem exRR_scalar : outOf ((exRR (readAllScalar 17 exRRSt exRROut)).exec (exRRSched 0)) =
    some [0x04030201, 5, 6, 7, 8, 9, 10, 11, 12, 13, 14, 15, 16, 17, 18, 19, 20] := by decide +kernel

example : ∃ s, Reading (Mine exRROut.blk) ((exRR (readAllScalar 17 exRRSt exRROut)).Held (exRRSched 0)) exRRSt exRRMem s ∧
    EndsAs (.ok ()) exRRMem ((exRR (readAllScalar 17 exRRSt exRROut)).exec (exRRSched 0)).mem exRROut 17 (decode 17 s) :=
  C50_readScalar_threads exRRPre (by decide) rfl (exRRAvoid _) (exRRSched 0)
    (outOf_some exRR_scalar).1

/-- A reader, and a thread that stores a 99 to the data byte of number 2. -/
def exRD (p : Prog Unit) : Conf (Beside (fun _ : Unit => Unit)) where
  prog
    | none => p
    | some () => .store ⟨.heap 1, 7⟩ 99 (.ret ())
  mem := exRRMem

theorem exRDAvoid (p : Prog Unit) : ∀ k, Avoids (MineCtrl 17 exRRSt exRROut) ((exRD p).prog (some k)) := fun _ =>
  ⟨fun h => (by
    rcases h with (e | e) | ⟨-, -, e⟩
    · cases e
    · cases e
    · exact absurd e (by decide)), trivial⟩

-- `ReadAllFast`: number 2 is 99 when the change comes before the load and 3 when it comes after it.
example : outOf ((exRD (readAllFast 17 exRRSt exRROut)).exec (exRRSched 0)) =
      decode 17 ([0, 0, 0, 0, 0] ++ exRRData.set 2 99) ∧
    outOf ((exRD (readAllFast 17 exRRSt exRROut)).exec (exRRSched 50)) = decode 17 ([0, 0, 0, 0, 0] ++ exRRData) := by
  decide +kernel

example (o : Outcome Unit) (hr : ((exRD (readAllFast 17 exRRSt exRROut)).exec (exRRSched 50)).prog none = o.done) :=
  C50_read_threads .fast exRRPre (by decide) rfl (exRDAvoid _) (exRRSched 50) hr

end SVB.Props
