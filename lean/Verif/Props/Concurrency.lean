import Verif.Proofs.Conc
import Verif.Proofs.Results
import Verif.Props.Readers

/-! # Concurrent calls: C29 -/

set_option autoImplicit false

namespace SVB.Props
open Spec

/-- One call of a stream function: a writer with the block its result will be allocated in, or a reader. -/
inductive Call where
  | write (f : Fn) (fresh : Block) (inn : U32s)
  | writeDelta (f : Fn) (fresh : Block) (inn : U32s) (prev : U32)
  | read (f : Fn) (n : Nat) (st : Bytes) (out : U32s)
  | readDelta (f : Fn) (n : Nat) (st : Bytes) (out : U32s) (prev : U32)

def Call.Res : Call → Type
  | .write .. | .writeDelta .. => Bytes
  | .read .. | .readDelta .. => Unit

def Call.prog : (c : Call) → Prog c.Res
  | .write f fresh inn => f.write fresh inn
  | .writeDelta f fresh inn prev => f.writeDelta fresh inn prev
  | .read f n st out => f.read n st out
  | .readDelta f n st out prev => f.readDelta n st out prev

/-- Each call meets the ordinary conditions for a call on its own.  A stream may be too short. -/
def Call.Pre (m : Mem) : Call → Prop
  | .write _ fresh inn => WriterPre fresh inn m
  | .writeDelta _ fresh inn _ => WriterPre fresh inn m
  | .read _ n st out => ReaderPre n st out m
  | .readDelta _ n st out _ => ReaderPre n st out m

/-- How many bytes after the end of the stream a reader may load (C13): none for the scalar readers; for the
others at most three bytes more than the encoding needs, or 32 if the stream is too short. -/
def slack (f : Fn) (m : Mem) (st : Bytes) (n : Nat) : Nat :=
  match f with
  | .scalar => 0
  | _ => if needed m st n ≤ st.len then needed m st n + (4 - n % 4) % 4 - st.len else 32

/-- What a call reads besides the tables and its own output. -/
def Call.source (m : Mem) : Call → Ptr → Prop
  | .write _ _ inn => inSlice inn
  | .writeDelta _ _ inn _ => inSlice inn
  | .read f n st _ => fun q => q.blk = st.blk ∧ st.off ≤ q.off ∧ q.off < st.off + st.len + slack f m st n
  | .readDelta f n st _ _ => fun q => q.blk = st.blk ∧ st.off ≤ q.off ∧ q.off < st.off + st.len + slack f m st n

/-- What a call writes: the new allocation, or the first `n` numbers of `out`. -/
def Call.target : Call → Ptr → Prop
  | .write _ fresh inn => fun q => q.blk = fresh ∧ q.off < ctrlLen inn.len + 4 * inn.len
  | .writeDelta _ fresh inn _ => fun q => q.blk = fresh ∧ q.off < ctrlLen inn.len + 4 * inn.len
  | .read _ n _ out => inFirst out n
  | .readDelta _ n _ out _ => inFirst out n

/-- Private outputs: no call writes where another one reads or writes. -/
def Private {ι : Type} (calls : ι → Call) (m : Mem) : Prop :=
  ∀ i j q, i ≠ j → (calls i).target q → ¬ (calls j).source m q ∧ ¬ (calls j).target q

private theorem slack_fast {f : Fn} {n : Nat} {st : Bytes} {m : Mem} {q : Ptr} (hf : f ≠ .scalar)
    (h : overR st n m q) : q.off < st.off + st.len + slack f m st n := by
  obtain ⟨-, h1, h2, h3, -⟩ := h
  have key : q.off < st.off + st.len +
      if needed m st n ≤ st.len then needed m st n + (4 - n % 4) % 4 - st.len else 32 := by
    split
    · rename_i hl
      have hs := lengths_sum m st n (by unfold needed at hl; omega)
      unfold needed at hl ⊢
      rw [hs] at hl ⊢
      have hB : rB st n = st.off + ctrlLen n := rfl
      omega
    · exact h2
  cases f with
  | scalar => exact absurd rfl hf
  | fast => exact key
  | auto c => exact key

theorem Call.foot (c : Call) {m : Mem} (h : c.Pre m) :
    ∀ e ∈ trace c.prog m,
      (Ctx.mk (fun q => c.source m q ∨ inTables q ∨ c.target q) c.target fun _ _ => True).allows e := by
  intro e he
  have hw : ∀ {fresh : Block} {inn : U32s} {S : Ptr → Prop}, (wctx fresh inn).allows e →
      (Ctx.mk (fun q => inSlice inn q ∨ inTables q ∨ S q)
        (fun q => q.blk = fresh ∧ q.off < ctrlLen inn.len + 4 * inn.len) fun _ _ => True).allows e := by
    intro fresh inn S h
    refine allows_mono ?_ ?_ h
    · rintro q (h | h)
      · exact .inl h
      · exact .inr (.inl h)
    · rintro q ⟨h1, -, h2⟩; exact ⟨h1, h2⟩
  cases c with
  | write f fresh inn => exact hw ((write_result f h).foot e he)
  | writeDelta f fresh inn prev => exact hw ((writeDelta_result f prev h).foot e he)
  | read f n st out =>
    by_cases hf : f = .scalar
    · subst hf
      refine allows_mono (c := rctx st out n m fun _ => False) ?_ ?_ (readScalar_foot h e he)
      case refine_2 => exact fun _ h => h
      rintro q (⟨h1, h2, h3⟩ | h1 | h1)
      · exact .inl ⟨h1, h2, by omega⟩
      · exact .inr (.inl h1)
      · exact h1.elim
    · refine allows_mono (c := rctx st out n m (overR st n m)) ?_ ?_ (read_foot f h e he)
      case refine_2 => exact fun _ h => h
      rintro q (⟨h1, h2, h3⟩ | h1 | h1)
      · exact .inl ⟨h1, h2, by omega⟩
      · exact .inr (.inl h1)
      · exact .inl ⟨h1.1, by have := h1.2.1; omega, slack_fast hf h1⟩
  | readDelta f n st out prev =>
    by_cases hf : f = .scalar
    · subst hf
      refine allows_mono (c := rctx st out n m (inFirst out n)) ?_ ?_ (readDeltaScalar_foot prev h e he)
      case refine_2 => exact fun _ h => h
      rintro q (⟨h1, h2, h3⟩ | h1 | h1)
      · exact .inl ⟨h1, h2, by omega⟩
      · exact .inr (.inl h1)
      · exact .inr (.inr h1)
    · refine allows_mono (c := rctx st out n m fun q => inFirst out n q ∨ overR st n m q) ?_ ?_ (readDelta_foot f prev h e he)
      case refine_2 => exact fun _ h => h
      rintro q (⟨h1, h2, h3⟩ | h1 | h1 | h1)
      · exact .inl ⟨h1, h2, by omega⟩
      · exact .inr (.inl h1)
      · exact .inr (.inr h1)
      · exact .inl ⟨h1.1, by have := h1.2.1; omega, slack_fast hf h1⟩

theorem Call.target_heap (c : Call) {m : Mem} (h : c.Pre m) {q : Ptr} (hq : c.target q) : ¬ inTables q := by
  have key : q.blk.isConst = false → ¬ inTables q := by
    intro h1 h2
    unfold inTables at h2
    cases hb : q.blk <;> simp [hb, Block.isConst] at h1 h2
  apply key
  cases c with
  | write f fresh inn => rw [hq.1]; exact h.fresh_heap
  | writeDelta f fresh inn prev => rw [hq.1]; exact h.fresh_heap
  | read f n st out => rw [hq.1]; exact h.vout.heap
  | readDelta f n st out prev => rw [hq.1]; exact h.vout.heap

/-- C29: any number of calls running at the same time, on shared inputs but with private outputs.  Under every
schedule (`sched` lists whose turn it is; nothing is assumed except that each call gets enough turns to
finish) each call ends with the outcome it would have alone, its output holds what it would hold had it run
alone, and memory that belongs to no output is unchanged. -/
theorem C29_as_if_alone {ι : Type} [DecidableEq ι] (calls : ι → Call) (m : Mem) (hpre : ∀ i, (calls i).Pre m)
    (hpriv : Private calls m) (sched : List ι)
    (hfair : ∀ i, (trace (calls i).prog m).length ≤ sched.count i) :
    (∀ i, (Conf.exec ⟨fun i => (calls i).prog, m⟩ sched).prog i = (run (calls i).prog m).1.done ∧
      ∀ q, (calls i).target q →
        (Conf.exec ⟨fun i => (calls i).prog, m⟩ sched).mem q = (run (calls i).prog m).2 q) ∧
    ∀ q, (∀ i, ¬ (calls i).target q) → (Conf.exec ⟨fun i => (calls i).prog, m⟩ sched).mem q = m q := by
  have hs : Separate (fun i q => (calls i).source m q ∨ inTables q ∨ (calls i).target q)
      (fun i => (calls i).target) := by
    refine ⟨fun i j q hij hw => ?_, fun i j q hij hw => (hpriv i j q hij hw).2⟩
    rintro (h | h | h)
    · exact (hpriv i j q hij hw).1 h
    · exact Call.target_heap _ (hpre i) hw h
    · exact (hpriv i j q hij hw).2 h
  have := noninterference hs (p := fun i => (calls i).prog) (m := m) (fun i => Call.foot _ (hpre i)) sched hfair
  exact ⟨fun i => ⟨(this.1 i).1, fun q hq => (this.1 i).2 q (.inr hq)⟩, this.2⟩

/-- The intended result of a call, in terms of the format. -/
def Call.Correct (m m' : Mem) : (c : Call) → Prog c.Res → Prop
  | .write _ fresh inn, p => ∃ r : Bytes, p = .ret r ∧ r.blk = fresh ∧ bytesOf m' r = encode (wordsOf m inn)
  | .writeDelta _ fresh inn prev, p => ∃ r : Bytes, p = .ret r ∧ r.blk = fresh ∧
      bytesOf m' r = encode (delta prev (wordsOf m inn))
  | .read _ n st out, p =>
      match decode n (bytesOf m st) with
      | some xs => p = .ret () ∧ wordsN m' out n = xs
      | none => ∃ k, p = .panic k ∧ BoundsPanic k
  | .readDelta _ n st out prev, p =>
      match decodeDelta prev n (bytesOf m st) with
      | some xs => p = .ret () ∧ wordsN m' out n = xs
      | none => ∃ k, p = .panic k ∧ BoundsPanic k

private theorem wordsN_congr {m m' : Mem} {out : U32s} {n : Nat} (h : ∀ q, inFirst out n q → m q = m' q) :
    wordsN m out n = wordsN m' out n := by
  unfold wordsN
  refine List.map_congr_left fun i hi => ?_
  have := List.mem_range.1 hi
  rw [h ⟨_, _⟩ ⟨rfl, by simp only; omega, by simp only; omega⟩,
    h ⟨_, _⟩ ⟨rfl, by simp only; omega, by simp only; omega⟩,
    h ⟨_, _⟩ ⟨rfl, by simp only; omega, by simp only; omega⟩,
    h ⟨_, _⟩ ⟨rfl, by simp only; omega, by simp only; omega⟩]

private theorem bytesOf_congr {m m' : Mem} {s : Bytes} (h : ∀ q, inSlice s q → m q = m' q) :
    bytesOf m s = bytesOf m' s := by
  unfold bytesOf
  refine List.map_congr_left fun i hi => ?_
  have := List.mem_range.1 hi
  exact h ⟨_, _⟩ ⟨rfl, by simp only; omega, by simp only; omega⟩

private theorem write_correct {p : Prog Bytes} {fresh : Block} {inn : U32s} {xs : List U32} {m m' : Mem}
    (h : WriteResult p fresh inn xs m) (hl : xs.length = inn.len)
    (hm : ∀ q, q.blk = fresh ∧ q.off < ctrlLen inn.len + 4 * inn.len → m' q = (run p m).2 q) :
    ∃ r : Bytes, (run p m).1.done = .ret r ∧ r.blk = fresh ∧ bytesOf m' r = encode xs := by
  obtain ⟨m1, h1, h2, -⟩ := h.ex
  rw [h1] at hm ⊢
  refine ⟨_, rfl, rfl, ?_⟩
  refine .trans ?_ h2
  have hle := encode_length xs
  have := offs_bounds (fn xs) (Nat.zero_le xs.length)
  have h0 : offs (fn xs) 0 = 0 := rfl
  rw [hl] at hle this
  refine bytesOf_congr fun q hq => hm q ⟨hq.1, ?_⟩
  have := hq.2.2
  simp only [] at this
  omega

private theorem read_correct {p : Prog Unit} {out : U32s} {n : Nat} {r : Option (List U32)} {m m' : Mem}
    (h : ReadResult p m out n r) (hm : ∀ q, inFirst out n q → m' q = (run p m).2 q) :
    match (motive := Option (List U32) → Prop) r with
      | some xs => (run p m).1.done = .ret () ∧ wordsN m' out n = xs
      | none => ∃ k, (run p m).1.done = .panic k ∧ BoundsPanic k := by
  cases r with
  | some xs =>
    obtain ⟨m1, h1, h2⟩ := h.1
    rw [h1] at hm ⊢
    exact ⟨rfl, by rw [← h2]; exact wordsN_congr hm⟩
  | none =>
    obtain ⟨k, m1, h1, h2⟩ := h.1
    rw [h1]
    exact ⟨k, rfl, h2⟩

/-- C29, results spelled out: under every schedule every call finishes with the correct encoding or decoding of
what its source held at the start. -/
theorem C29_correct {ι : Type} [DecidableEq ι] (calls : ι → Call) (m : Mem) (hpre : ∀ i, (calls i).Pre m)
    (hpriv : Private calls m) (sched : List ι)
    (hfair : ∀ i, (trace (calls i).prog m).length ≤ sched.count i) (i : ι) :
    (calls i).Correct m (Conf.exec ⟨fun i => (calls i).prog, m⟩ sched).mem
      ((Conf.exec ⟨fun i => (calls i).prog, m⟩ sched).prog i) := by
  obtain ⟨h1, h2⟩ := (C29_as_if_alone calls m hpre hpriv sched hfair).1 i
  rw [h1]
  have hp := hpre i
  generalize (Conf.exec ⟨fun i => (calls i).prog, m⟩ sched).mem = m' at h2
  generalize calls i = c at h2 hp
  cases c with
  | write f fresh inn => exact write_correct (write_result f hp) (wordsOf_length m inn) h2
  | writeDelta f fresh inn prev =>
    exact write_correct (writeDelta_result f prev hp) (by rw [delta_length, wordsOf_length]) h2
  | read f n st out => exact read_correct (read_result f hp) h2
  | readDelta f n st out prev => exact read_correct (readDelta_result f prev hp) h2

/-! Private outputs are easy to come by: every output in an allocation of its own. -/

/-- The allocation a call writes to. -/
def Call.outBlock : Call → Block
  | .write _ fresh _ | .writeDelta _ fresh _ _ => fresh
  | .read _ _ _ out | .readDelta _ _ _ out _ => out.blk

/-- The allocation a call reads from. -/
def Call.inBlock : Call → Block
  | .write _ _ inn | .writeDelta _ _ inn _ => inn.blk
  | .read _ _ st _ | .readDelta _ _ st _ _ => st.blk

theorem C29_private_of_own_blocks {ι : Type} (calls : ι → Call) (m : Mem)
    (h : ∀ i j, i ≠ j → (calls i).outBlock ≠ (calls j).inBlock ∧ (calls i).outBlock ≠ (calls j).outBlock) :
    Private calls m := by
  have ht : ∀ (c : Call) q, c.target q → q.blk = c.outBlock := by
    intro c q hq; cases c <;> exact hq.1
  have hs : ∀ (c : Call) q, c.source m q → q.blk = c.inBlock := by
    intro c q hq; cases c <;> exact hq.1
  intro i j q hij hq
  exact ⟨fun h' => (h i j hij).1 ((ht _ _ hq).symm.trans (hs _ _ h')),
    fun h' => (h i j hij).2 ((ht _ _ hq).symm.trans (ht _ _ h'))⟩

/-! Concrete instance: three goroutines read the stream `exStream` (one scalar, one vectorised, one delta) and
one writer encodes numbers in the same allocation as nobody's output; two of the readers decode into two parts
of one array. -/

def exCalls : Fin 4 → Call
  | 0 => .read .scalar 19 exSt ⟨.heap 5, 0, 19, 40⟩
  | 1 => .read .fast 19 exSt ⟨.heap 5, 76, 19, 21⟩
  | 2 => .readDelta .fast 19 exSt ⟨.heap 6, 0, 19, 19⟩ 7
  | 3 => .writeDelta .fast (.heap 7) ⟨.heap 0, 0, 30, 30⟩ 3

theorem exCalls_ok : (∀ i, (exCalls i).Pre exRMem) ∧ Private exCalls exRMem := by
  have hr : ∀ (b : Nat) (o c : Nat), b ≠ 1 → 19 ≤ c → c < 100 →
      ReaderPre 19 exSt ⟨.heap b, o, 19, c⟩ exRMem := fun b o c hb h1 h2 =>
    ⟨memWith_tables _ _, by decide, ⟨h1, rfl, by simp only; omega⟩,
      .inl (fun h => hb (by injection h with h; exact h.symm)), Nat.le_refl _⟩
  refine ⟨fun i => ?_, fun i j q hij => ?_⟩
  · match i with
    | 0 => exact hr 5 0 40 (by decide) (by decide) (by decide)
    | 1 => exact hr 5 76 21 (by decide) (by decide) (by decide)
    | 2 => exact hr 6 0 19 (by decide) (by decide) (by decide)
    | 3 => exact ⟨memWith_tables _ _, ⟨by decide, rfl, by decide⟩, rfl, by decide⟩
  · match i, j with
    | 0, 1 | 0, 2 | 0, 3 | 1, 0 | 1, 2 | 1, 3 | 2, 0 | 2, 1 | 2, 3 | 3, 0 | 3, 1 | 3, 2 =>
      rintro ⟨h1, h2⟩
      exact ⟨fun h => absurd (h1.symm.trans h.1) (by decide), fun h => by
        first
          | exact absurd (h1.symm.trans h.1) (by decide)
          | (have := h.2; simp only at h2 this; omega)⟩
    | 0, 0 | 1, 1 | 2, 2 | 3, 3 => exact absurd rfl hij

end SVB.Props
