import Verif.Props.Safety
import Verif.Props.Writers
import Verif.Proofs.SafeWriter
import Verif.Proofs.WorkDead
import Verif.Proofs.Race

/-!
# C47: calls whose arguments are being changed by other goroutines

`Raced p m t p' m'` (`Model/Race.lean`): the call `p`, started in memory `m`, can get to the state `p'` with the
accesses `t` of its own, while others change any memory except the tables at any moment.
-/

set_option autoImplicit false

namespace SVB.Props
open Spec Asm

/-- What a call of `p` in memory `m` can do at worst, whatever others do to its arguments meanwhile. -/
structure RaceSafe {α : Type} (p : Prog α) (m : Mem) (R W : Ptr → Prop) (stops : Panic → Prop) (result : α → Prop)
    (most : Nat) : Prop where
  loads : ∀ t p' m', Raced p m t p' m' → ∀ q, Event.rd q ∈ t → R q
  stores : ∀ t p' m', Raced p m t p' m' → ∀ q, Event.wr q ∈ t → W q
  panics : ∀ t k m', Raced p m t (.panic k) m' → stops k
  returns : ∀ t a m', Raced p m t (.ret a) m' → result a
  length : ∀ t p' m', Raced p m t p' m' → t.length ≤ most

private theorem safe_of {α : Type} {P : Panic → Prop} {F : Fp} {p : Prog α} {Q : α → Prop} {S : Nat → α → Prop}
    {k : Nat} {m : Mem} (h : TriP P F p Q) (hb : Bd S k p) (hT : TablesLoaded m) : RaceSafe p m F.R F.W P Q k :=
  ⟨fun _ _ _ hr => (hr.tri h hT).1, fun _ _ _ hr => (hr.tri h hT).2.1, fun _ _ _ hr => (hr.tri h hT).2.2,
    fun _ _ _ hr => (hr.tri h hT).2.2, fun _ _ _ hr => hr.bd hb⟩

private theorem RaceSafe.mono {α : Type} {p : Prog α} {m : Mem} {R R' W W' : Ptr → Prop} {P P' : Panic → Prop}
    {Q Q' : α → Prop} {k k' : Nat} (h : RaceSafe p m R W P Q k) (hR : ∀ q, R q → R' q) (hW : ∀ q, W q → W' q)
    (hP : ∀ x, P x → P' x) (hQ : ∀ a, Q a → Q' a) (hk : k ≤ k') : RaceSafe p m R' W' P' Q' k' :=
  ⟨fun _ _ _ hr q hq => hR q (h.loads _ _ _ hr q hq), fun _ _ _ hr q hq => hW q (h.stores _ _ _ hr q hq),
    fun _ _ _ hr => hP _ (h.panics _ _ _ hr), fun _ _ _ hr => hQ _ (h.returns _ _ _ hr),
    fun _ _ _ hr => Nat.le_trans (h.length _ _ _ hr) hk⟩

/-- C47, meaning of `RaceSafe` for goroutines: any number of threads on one memory, arbitrary programs except that none
of them stores to the tables, any schedule.  What thread `i` does is one of the histories `Raced` describes. -/
theorem C47_threads {ι : Type} [DecidableEq ι] {α : ι → Type} (c : Conf α) (hT : TablesLoaded c.mem)
    (h : ∀ j, SparesTables (c.prog j)) (sched : List ι) (i : ι) :
    Raced (c.prog i) c.mem (c.accesses i sched) ((c.exec sched).prog i) (c.exec sched).mem :=
  Conf.exec_raced h hT sched i

/-- C47, threads that have not stopped use every turn for one access; so `RaceSafe.length` bounds the number of turns
until a call has stopped. -/
theorem C47_turns {ι : Type} [DecidableEq ι] {α : ι → Type} (c : Conf α) (hT : TablesLoaded c.mem)
    (h : ∀ j, SparesTables (c.prog j)) (i : ι) {R W : Ptr → Prop} {P : Panic → Prop} {Q : α i → Prop} {k : Nat}
    (hs : RaceSafe (c.prog i) c.mem R W P Q k) (sched : List ι) (hk : k < sched.count i) :
    (∃ a, (c.exec sched).prog i = .ret a ∧ Q a) ∨ ∃ x, (c.exec sched).prog i = .panic x ∧ P x := by
  have hr := C47_threads c hT h sched i
  have hl := hs.length _ _ _ hr
  cases hp : (c.exec sched).prog i with
  | ret a => rw [hp] at hr; exact .inl ⟨a, rfl, hs.returns _ _ _ hr⟩
  | panic x => rw [hp] at hr; exact .inr ⟨x, rfl, hs.panics _ _ _ hr⟩
  | load q f => have := c.accesses_length sched i (by rw [hp]; simp [Prog.next]); omega
  | store q v f => have := c.accesses_length sched i (by rw [hp]; simp [Prog.next]); omega

/-! ## Writers -/

/-- What every writer does to memory, and what it can return. -/
def WriterRace (p : Prog Bytes) (fresh : Block) (inn : U32s) (m : Mem) (k : Nat) : Prop :=
  RaceSafe p m (fun q => inSlice inn q ∨ inTables q)
    (fun q => q.blk = fresh ∧ q.off < ctrlLen inn.len + 4 * inn.len)
    (fun _ => False)
    (fun r => r.blk = fresh ∧ r.off = 0 ∧ r.len ≤ r.cap ∧ r.cap = ctrlLen inn.len + 4 * inn.len ∧
      ctrlLen inn.len + inn.len ≤ r.len)
    k

private def wFp (fresh : Block) (inn : U32s) (h : fresh.isConst = false) : Fp where
  R q := inSlice inn q ∨ inTables q
  W q := q.blk = fresh ∧ q.off < ctrlLen inn.len + 4 * inn.len
  tabs _ h := .inr h
  heap q hq := by rw [hq.1]; exact h

private theorem wrace {fresh : Block} {inn : U32s} {m : Mem} {p : Prog Bytes} {S : Nat → Bytes → Prop} {k k' : Nat}
    (h : WriterPre fresh inn m)
    (ht : RdL (wFp fresh inn h.fresh_heap) inn →
      (∀ q : Ptr, q.blk = fresh → q.off < ctrlLen inn.len + 4 * inn.len → (wFp fresh inn h.fresh_heap).W q) →
      TriP (fun _ => False) (wFp fresh inn h.fresh_heap) p (WRes fresh inn.len))
    (hb : Bd S k p) (hk : k ≤ k') : WriterRace p fresh inn m k' := by
  have hi : RdL (wFp fresh inn h.fresh_heap) inn := ⟨h.valid.len_le, fun q a b c => .inl ⟨a, b, c⟩⟩
  refine (safe_of (ht hi fun q a b => ⟨a, b⟩) hb h.tables).mono (fun _ h => h) (fun _ h => h) (fun _ h => h) ?_ hk
  rintro r ⟨h1, h2, h3, h4, h5⟩
  have hC : ctrlLen inn.len = (inn.len + 3) / 4 := rfl
  exact ⟨h1, h2, h5, by omega, by omega⟩

/-- C47, `WriteAll`, `WriteAllScalar`, `WriteAllFast`: others may change the numbers while they are being encoded. The
call never panics, reads only the numbers and the tables, writes only its own new buffer and returns a stream of between
one and four bytes per number plus the control bytes. -/
theorem C47_write (f : Fn) {fresh : Block} {inn : U32s} {m : Mem} (h : WriterPre fresh inn m) :
    WriterRace (f.write fresh inn) fresh inn m (54 * ctrlLen inn.len + 4 * inn.len) := by
  have hl : inn.len < 2 ^ 60 := Nat.lt_of_le_of_lt h.valid.len_le h.valid.small
  have hs : WriterRace (writeAllScalar fresh inn) fresh inn m (54 * ctrlLen inn.len + 4 * inn.len) :=
    wrace h (fun a b => n_writeAllScalar hl a b) (cost_writeAllScalar fresh inn hl) (by omega)
  have hf : WriterRace (writeAllFast fresh inn) fresh inn m (54 * ctrlLen inn.len + 4 * inn.len) :=
    wrace h (fun a b => n_writeAllFast hl a b) (cost_writeAllFast fresh inn hl) (by omega)
  cases f with
  | scalar => exact hs
  | fast => exact hf
  | auto c =>
    rcases writeAll_cases c fresh inn with e | e <;> simp only [Fn.write, e]
    · exact hf
    · exact hs

/-- C47, the delta writers.  (They load most numbers twice, so that the two uses of a number may disagree; still nothing
worse happens.) -/
theorem C47_writeDelta (f : Fn) {fresh : Block} {inn : U32s} {m : Mem} (prev : U32) (h : WriterPre fresh inn m) :
    WriterRace (f.writeDelta fresh inn prev) fresh inn m (56 * ctrlLen inn.len + 4 * inn.len) := by
  have hl : inn.len < 2 ^ 60 := Nat.lt_of_le_of_lt h.valid.len_le h.valid.small
  have hs : WriterRace (writeAllDeltaScalar fresh inn prev) fresh inn m (56 * ctrlLen inn.len + 4 * inn.len) :=
    wrace h (fun a b => n_writeAllDeltaScalar hl a b) (cost_writeAllDeltaScalar fresh inn prev hl) (by omega)
  have hf : WriterRace (writeAllDeltaFast fresh inn prev) fresh inn m (56 * ctrlLen inn.len + 4 * inn.len) :=
    wrace h (fun a b => n_writeAllDeltaFast hl a b) (cost_writeAllDeltaFast fresh inn prev hl) (by omega)
  cases f with
  | scalar => exact hs
  | fast => exact hf
  | auto c =>
    rcases writeAllDelta_cases c fresh inn prev with e | e <;> simp only [Fn.writeDelta, e]
    · exact hf
    · exact hs

/-! ## Readers -/

/-- The work bound of a reader: linear in the count and in the length of the stream. -/
def readWork (per : Nat) (count : Int) (st : Bytes) : Nat := per * min st.len ((count.toNat + 3) / 4) + 33

private theorem bd_min {α : Type} {p : Prog α} {per a b c x : Nat} {S S' : Nat → α → Prop} (h1 : Bd S a p)
    (ha : a ≤ per * x + 33) (h2 : x ≤ b ∨ ∃ d, Bd S' d p ∧ d ≤ per * b + 33) (hc : c = per * min b x + 33) :
    Bd (fun _ _ => True) c p := by
  subst hc
  rcases Nat.le_total x b with h | h
  · rw [Nat.min_eq_right h]; exact (h1.mono ha).conseq fun _ _ _ => trivial
  · rw [Nat.min_eq_left h]
    rcases h2 with h2 | ⟨d, h2, h3⟩
    · have : b = x := by omega
      subst this
      exact (h1.mono ha).conseq fun _ _ _ => trivial
    · exact (h2.mono h3).conseq fun _ _ _ => trivial

/-- C47, `ReadAllScalar`: others may change the stream (and the output) while it is being decoded. -/
theorem C47_readAllScalar {count : Int} {st : Bytes} {out : U32s} {m : Mem} (hc : IsInt64 count)
    (h : AnyArgs st out m) :
    RaceSafe (readAllScalar count st out) m (fun q => inCap st q ∨ inTables q) (inCap out) BoundsPanic
      (fun _ => True) (readWork 52 count st) := by
  refine safe_of (tri_readAllScalar hc.1 hc.2 (capFp'_src h) (capFp'_out h)) (S := fun _ _ => True) ?_ h.tables
  refine bd_min (S' := fun _ _ => True) (x := (count.toNat + 3) / 4) (cost_readAllScalar st out hc.1 hc.2) (by omega) ?_ rfl
  rcases hdr_fits hc.1 hc.2 st.len with h | h
  · exact .inl h
  · exact .inr ⟨_, dead_readAllScalar h, by omega⟩

/-- C47, `ReadAllDeltaScalar`. -/
theorem C47_readAllDeltaScalar {count : Int} {st : Bytes} {out : U32s} {m : Mem} (prev : U32) (hc : IsInt64 count)
    (h : AnyArgs st out m) :
    RaceSafe (readAllDeltaScalar count st out prev) m (fun q => inCap st q ∨ inCap out q ∨ inTables q) (inCap out)
      BoundsPanic (fun _ => True) (readWork 58 count st) := by
  refine safe_of (tri_readAllDeltaScalar hc.1 hc.2 (capFp_src h) (capFp_out h) (capFp_dst h))
    (S := fun _ _ => True) ?_ h.tables
  refine bd_min (S' := fun _ _ => True) (x := (count.toNat + 3) / 4) (cost_readAllDeltaScalar st out prev hc.1 hc.2) (by omega) ?_ rfl
  rcases hdr_fits hc.1 hc.2 st.len with h | h
  · exact .inl h
  · exact .inr ⟨_, dead_readAllDeltaScalar prev h, by omega⟩

/-- C47, `ReadAllFast`.  It loads every control byte twice, once to find the length of a group and once to decode it;
the two may disagree when others write to the stream.  Even then the loads end 32 bytes after the stream (or at its
capacity) and the stores 32 bytes after `out` (or at its capacity). -/
theorem C47_readAllFast {count : Int} {st : Bytes} {out : U32s} {m : Mem} (hc : IsInt64 count)
    (h : AnyArgs st out m) :
    RaceSafe (readAllFast count st out) m (fun q => inCap st q ∨ within st 32 q ∨ inCap out q ∨ inTables q)
      (fun q => inCap out q ∨ within out 32 q) BoundsPanic (fun _ => True) (readWork 52 count st) := by
  refine safe_of (tri_readAllFast hc.1 hc.2 (fastFp_src h) (fastFp_srcX h) (fastFp_dst h) (fastFp_out h)
      (fastFp_outX h)) (S := fun _ _ => True) ?_ h.tables
  refine bd_min (S' := fun _ _ => True) (x := (count.toNat + 3) / 4) (cost_readAllFast st out hc.1 hc.2) (by omega) ?_ rfl
  rcases hdr_fits hc.1 hc.2 st.len with h | h
  · exact .inl h
  · exact .inr ⟨_, dead_readAllFast h, by omega⟩

/-- C47, `ReadAllDeltaFast`. -/
theorem C47_readAllDeltaFast {count : Int} {st : Bytes} {out : U32s} {m : Mem} (prev : U32) (hc : IsInt64 count)
    (h : AnyArgs st out m) :
    RaceSafe (readAllDeltaFast count st out prev) m
      (fun q => inCap st q ∨ within st 32 q ∨ inCap out q ∨ inTables q)
      (fun q => inCap out q ∨ within out 32 q) BoundsPanic (fun _ => True) (readWork 58 count st) := by
  refine safe_of (tri_readAllDeltaFast hc.1 hc.2 (fastFp_src h) (fastFp_srcX h) (fastFp_dst h) (fastFp_out h)
      (fastFp_outX h)) (S := fun _ _ => True) ?_ h.tables
  refine bd_min (S' := fun _ _ => True) (x := (count.toNat + 3) / 4) (cost_readAllDeltaFast st out prev hc.1 hc.2) (by omega) ?_ rfl
  rcases hdr_fits hc.1 hc.2 st.len with h | h
  · exact .inl h
  · exact .inr ⟨_, dead_readAllDeltaFast prev h, by omega⟩

/-- C47, `ReadAll` and `ReadAllDelta` on every processor. -/
theorem C47_readAll (c : Cpu) {count : Int} {st : Bytes} {out : U32s} {m : Mem} (prev : U32) (hc : IsInt64 count)
    (h : AnyArgs st out m) :
    RaceSafe (readAll c count st out) m (fun q => inCap st q ∨ within st 32 q ∨ inCap out q ∨ inTables q)
      (fun q => inCap out q ∨ within out 32 q) BoundsPanic (fun _ => True) (readWork 52 count st) ∧
    RaceSafe (readAllDelta c count st out prev) m (fun q => inCap st q ∨ within st 32 q ∨ inCap out q ∨ inTables q)
      (fun q => inCap out q ∨ within out 32 q) BoundsPanic (fun _ => True) (readWork 58 count st) := by
  constructor
  · rcases readAll_cases c count st out with e | e <;> rw [e]
    · exact C47_readAllFast hc h
    · exact (C47_readAllScalar hc h).mono (fun q h => h.elim .inl fun h => .inr (.inr (.inr h))) (fun _ => .inl)
        (fun _ h => h) (fun _ h => h) (Nat.le_refl _)
  · rcases readAllDelta_cases c count st out prev with e | e <;> rw [e]
    · exact C47_readAllDeltaFast prev hc h
    · exact (C47_readAllDeltaScalar prev hc h).mono (fun q h => h.elim .inl fun h => .inr (.inr h)) (fun _ => .inl)
        (fun _ h => h) (fun _ h => h) (Nat.le_refl _)

/-! ## Block functions -/

/-- C47, scalar block encoders, any arguments. -/
theorem C47_put {inn : U32s} {out : Bytes} {m : Mem} (count : Int) (prev : U32) (h : AnyArgs inn out m) :
    let R := fun q => inCap inn q ∨ inTables q
    RaceSafe (put4uint32Scalar inn out) m R (inCap out) BoundsPanic (fun _ => True) 36 ∧
    RaceSafe (put4uint32DeltaScalar inn out prev) m R (inCap out) BoundsPanic (fun _ => True) 48 ∧
    RaceSafe (put8uint32Scalar inn out) m R (inCap out) BoundsPanic (fun _ => True) 73 ∧
    RaceSafe (put8uint32DeltaScalar inn out prev) m R (inCap out) BoundsPanic (fun _ => True) 101 ∧
    RaceSafe (putUint32Scalar inn out count) m R (inCap out) BoundsPanic (fun _ => True) 32 ∧
    RaceSafe (putUint32DeltaScalar inn out count prev) m R (inCap out) BoundsPanic (fun _ => True) 48 :=
  ⟨safe_of (tri_put4 (capFp'_src h) (capFp'_out h)) (cost_put4 _ _) h.tables,
    safe_of (tri_put4Delta (capFp'_src h) (capFp'_out h)) (cost_put4Delta _ _ _) h.tables,
    safe_of (tri_put8 (capFp'_src h) (capFp'_out h)) (cost_put8 _ _) h.tables,
    safe_of (tri_put8Delta (capFp'_src h) (capFp'_out h)) (cost_put8Delta _ _ _) h.tables,
    safe_of (tri_putN (capFp'_src h) (capFp'_out h)) (cost_put _ _ _) h.tables,
    safe_of (tri_putNDelta (capFp'_src h) (capFp'_out h)) (cost_putDelta _ _ _ _) h.tables⟩

/-- C47, scalar block decoders, any arguments. -/
theorem C47_get {inn : Bytes} {out : U32s} {m : Mem} (ctrl : Byte) (ctrl2 : U16) (count : Int) (prev : U32)
    (h : AnyArgs inn out m) :
    let R := fun q => inCap inn q ∨ inTables q
    let R' := fun q => inCap inn q ∨ inCap out q ∨ inTables q
    RaceSafe (get4uint32Scalar inn out ctrl) m R (inCap out) BoundsPanic (fun _ => True) 36 ∧
    RaceSafe (get4uint32DeltaScalar inn out ctrl prev) m R' (inCap out) BoundsPanic (fun _ => True) 52 ∧
    RaceSafe (get8uint32Scalar inn out ctrl2) m R (inCap out) BoundsPanic (fun _ => True) 73 ∧
    RaceSafe (get8uint32DeltaScalar inn out ctrl2 prev) m R' (inCap out) BoundsPanic (fun _ => True) 109 ∧
    RaceSafe (getUint32Scalar inn out ctrl count) m R (inCap out) BoundsPanic (fun _ => True) 32 ∧
    RaceSafe (getUint32DeltaScalar inn out ctrl count prev) m R (inCap out) BoundsPanic (fun _ => True) 32 :=
  ⟨(safe_of (tri_get4 (capFp'_src h) (capFp'_out h)) (cost_get4 _ _ _) h.tables).mono (fun _ h => h) (fun _ h => h)
      (fun _ h => h) (fun _ _ => trivial) (Nat.le_refl _),
    (safe_of (tri_get4Delta (capFp_src h) (capFp_out h) (capFp_dst h)) (cost_get4Delta _ _ _ _) h.tables).mono
      (fun _ h => h) (fun _ h => h) (fun _ h => h) (fun _ _ => trivial) (Nat.le_refl _),
    (safe_of (tri_get8 (capFp'_src h) (capFp'_out h)) (cost_get8 _ _ _) h.tables).mono (fun _ h => h) (fun _ h => h)
      (fun _ h => h) (fun _ _ => trivial) (Nat.le_refl _),
    (safe_of (tri_get8Delta (capFp_src h) (capFp_out h) (capFp_dst h)) (cost_get8Delta _ _ _ _) h.tables).mono
      (fun _ h => h) (fun _ h => h) (fun _ h => h) (fun _ _ => trivial) (Nat.le_refl _),
    (safe_of (tri_getN (capFp'_src h) (capFp'_out h)) (cost_get _ _ _ _) h.tables).mono (fun _ h => h) (fun _ h => h)
      (fun _ h => h) (fun _ _ => trivial) (Nat.le_refl _),
    (safe_of (tri_getNDelta (capFp'_src h) (capFp'_out h)) (cost_getDelta _ _ _ _ _) h.tables).mono (fun _ h => h)
      (fun _ h => h) (fun _ h => h) (fun _ _ => trivial) (Nat.le_refl _)⟩

/-- The 32 bytes from the start of a slice. -/
def next32 {e : Nat} (s : Slice e) (q : Ptr) : Prop := q.blk = s.blk ∧ s.off ≤ q.off ∧ q.off < s.off + 32

private def fp32 {e f : Nat} (src : Slice e) (dst : Slice f) (h : dst.blk.isConst = false) : Fp where
  R q := next32 src q ∨ inTables q
  W := next32 dst
  tabs _ h := .inr h
  heap q hq := by rw [hq.1]; exact h

/-- C47, the assembly: 32 bytes of either argument, whatever the contents (only the block to write must not be one of
the tables); no panic of any kind. -/
theorem C47_asm {nums : U32s} {bytes : Bytes} {m : Mem} (ctrl : U16) (prev : U32) (hT : TablesLoaded m)
    (hn : nums.blk.isConst = false) (hb : bytes.blk.isConst = false) :
    let R := fun q => next32 nums q ∨ inTables q
    let R' := fun q => next32 bytes q ∨ inTables q
    RaceSafe (put8uint32Fast nums bytes) m R (next32 bytes) (fun _ => False) (fun _ => True) 101 ∧
    RaceSafe (put8uint32DeltaFast nums bytes prev) m R (next32 bytes) (fun _ => False) (fun _ => True) 101 ∧
    RaceSafe (get8uint32Fast bytes nums ctrl) m R' (next32 nums) (fun _ => False) (fun _ => True) 97 ∧
    RaceSafe (get8uint32DeltaFast bytes nums ctrl prev) m R' (next32 nums) (fun _ => False) (fun _ => True) 97 :=
  ⟨safe_of (F := fp32 nums bytes hb) (tri_put8F (fun _ a b c => .inl ⟨a, b, c⟩) (fun _ a b c => ⟨a, b, c⟩))
      (Asm.cost_put8Fast nums bytes _ _) hT,
    safe_of (F := fp32 nums bytes hb) (tri_put8DF (fun _ a b c => .inl ⟨a, b, c⟩) (fun _ a b c => ⟨a, b, c⟩))
      (Asm.cost_put8DeltaFast nums bytes prev _ _) hT,
    safe_of (F := fp32 bytes nums hn) (tri_get8F (fun _ a b c => .inl ⟨a, b, c⟩) (fun _ a b c => ⟨a, b, c⟩))
      (Asm.cost_get8Fast bytes nums ctrl _ _) hT,
    safe_of (F := fp32 bytes nums hn) (tri_get8DF (fun _ a b c => .inl ⟨a, b, c⟩) (fun _ a b c => ⟨a, b, c⟩))
      (Asm.cost_get8DeltaFast bytes nums ctrl prev _ _) hT⟩

attribute [local irreducible] SparesTables in
/-- C47: none of the functions stores to the tables, so they may run next to each other in `C47_threads`. -/
theorem C47_spares (f : Fn) {fresh : Block} {inn : U32s} {m : Mem} (prev : U32) (h : WriterPre fresh inn m) {count : Int}
    {st : Bytes} {out : U32s} (hc : IsInt64 count) (h' : AnyArgs st out m) :
    SparesTables (f.write fresh inn) ∧ SparesTables (f.writeDelta fresh inn prev) ∧
    SparesTables (f.read count st out) ∧ SparesTables (f.readDelta count st out prev) := by
  have hi : RdL (wFp fresh inn h.fresh_heap) inn := ⟨h.valid.len_le, fun q a b c => .inl ⟨a, b, c⟩⟩
  have ho : ∀ q : Ptr, q.blk = fresh → q.off < ctrlLen inn.len + 4 * inn.len → (wFp fresh inn h.fresh_heap).W q :=
    fun q a b => ⟨a, b⟩
  have hl : inn.len < 2 ^ 60 := Nat.lt_of_le_of_lt h.valid.len_le h.valid.small
  have w1 := (n_writeAllScalar (P := fun _ => False) hl hi ho).spares
  have w2 := (n_writeAllFast (P := fun _ => False) hl hi ho).spares
  have w3 := (n_writeAllDeltaScalar (P := fun _ => False) (prev := prev) hl hi ho).spares
  have w4 := (n_writeAllDeltaFast (P := fun _ => False) (prev := prev) hl hi ho).spares
  have r1 := (tri_readAllScalar hc.1 hc.2 (capFp'_src h') (capFp'_out h')).spares
  have r2 := (tri_readAllFast hc.1 hc.2 (fastFp_src h') (fastFp_srcX h') (fastFp_dst h') (fastFp_out h')
      (fastFp_outX h')).spares
  have r3 := (tri_readAllDeltaScalar (prev := prev) hc.1 hc.2 (capFp_src h') (capFp_out h') (capFp_dst h')).spares
  have r4 := (tri_readAllDeltaFast (prev := prev) hc.1 hc.2 (fastFp_src h') (fastFp_srcX h') (fastFp_dst h')
      (fastFp_out h') (fastFp_outX h')).spares
  cases f with
  | scalar => simp only [Fn.write, Fn.writeDelta, Fn.read, Fn.readDelta]; exact ⟨w1, w3, r1, r3⟩
  | fast => simp only [Fn.write, Fn.writeDelta, Fn.read, Fn.readDelta]; exact ⟨w2, w4, r2, r4⟩
  | auto c =>
    refine ⟨?_, ?_, ?_, ?_⟩
    · rcases writeAll_cases c fresh inn with e | e <;> simp only [Fn.write, e]
      · exact w2
      · exact w1
    · rcases writeAllDelta_cases c fresh inn prev with e | e <;> simp only [Fn.writeDelta, e]
      · exact w4
      · exact w3
    · rcases readAll_cases c count st out with e | e <;> simp only [Fn.read, e]
      · exact r2
      · exact r1
    · rcases readAllDelta_cases c count st out prev with e | e <;> simp only [Fn.readDelta, e]
      · exact r4
      · exact r3

/-! ## A race -/

/-- Two goroutines: `true` decodes one number, `false` overwrites the control byte of the stream with 3. -/
def exRace : Conf fun _ : Bool => Unit :=
  ⟨fun i => if i then readAllScalar 1 ⟨.heap 1, 0, 2, 2⟩ ⟨.heap 2, 0, 1, 1⟩ else store8 ⟨.heap 1, 0⟩ 3,
    memWith [] [0, 7]⟩

theorem exArgs : AnyArgs (⟨.heap 1, 0, 2, 2⟩ : Bytes) (⟨.heap 2, 0, 1, 1⟩ : U32s) exRace.mem :=
  ⟨memWith_tables _ _, by decide, by decide, rfl⟩

theorem exSpares : ∀ j, SparesTables (exRace.prog j) := by
  intro j
  cases j with
  | false => exact ⟨rfl, trivial⟩
  | true => exact (tri_readAllScalar (by decide) (by decide) (capFp'_src exArgs) (capFp'_out exArgs)).spares

example := C47_threads exRace exArgs.tables exSpares
example := C47_readAllScalar (count := 1) (by unfold IsInt64; omega) exArgs

def panicked {α : Type} : Prog α → Bool
  | .panic .index | .panic .slice => true
  | _ => false
def returned {α : Type} : Prog α → Bool
  | .ret _ => true
  | _ => false

-- Undisturbed the call decodes 7; if the control byte changes first, the announced four bytes are not there and the call
-- ends with a bounds panic.
example : returned ((exRace.exec (List.replicate 50 true)).prog true) = true ∧
    wordsN (exRace.exec (List.replicate 50 true)).mem ⟨.heap 2, 0, 1, 1⟩ 1 = [7] := by decide +kernel
example : panicked ((exRace.exec (false :: List.replicate 50 true)).prog true) = true := by decide +kernel

example := C47_writeDelta .fast 5 exWriter
example := C47_asm (nums := ⟨.heap 1, 0, 0, 0⟩) (bytes := ⟨.heap 2, 0, 0, 0⟩) 0 0 exArgs.tables rfl rfl

end SVB.Props
