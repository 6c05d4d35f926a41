import Verif.Proofs.CostUtil
import Verif.Props.Work
import Verif.Props.Concurrency

/-! # C77: bounds on the work in terms of the output, and when concurrent calls are done

C45 bounds the work of the readers by the count and by the length of the stream.  Here it is bounded by the room in `out`,
whatever the count and the stream.  With a bound on the work of each call, C29 says after how many turns concurrent calls
have finished. -/

set_option autoImplicit false

namespace SVB.Props
open Spec

/-! ## Readers -/

/-- The readers, by implementation: for any stream and any `int` as count.  The numbers that cost something are those asked
for and at most those `out` has room for. -/
theorem C77_read_impl (count : Int) (stream : Bytes) (out : U32s) (prev : U32) (m : Mem) (hc : IsInt64 count)
    (ho : out.len ≤ out.cap) :
    work (readAllScalar count stream out) m ≤ 10 * min count.toNat out.cap + 152 ∧
    work (readAllDeltaScalar count stream out prev) m ≤ 15 * min count.toNat out.cap + 232 ∧
    work (readAllFast count stream out) m ≤ 14 * min count.toNat out.cap + 524 ∧
    work (readAllDeltaFast count stream out prev) m ≤ 14 * min count.toNat out.cap + 540 :=
  ⟨(within_readAllScalar count stream out hc.1 hc.2 ho).trace m, (within_readAllDeltaScalar count stream out prev hc.1 hc.2 ho).trace m,
    (within_readAllFast count stream out hc.1 hc.2 ho).trace m, (within_readAllDeltaFast count stream out prev hc.1 hc.2 ho).trace m⟩

/-- Every reader, also `ReadAll` on any CPU. -/
theorem C77_read (f : Fn) (count : Int) (stream : Bytes) (out : U32s) (m : Mem) (hc : IsInt64 count)
    (ho : out.len ≤ out.cap) : work (f.read count stream out) m ≤ 14 * min count.toNat out.cap + 524 := by
  have h := C77_read_impl count stream out 0 m hc ho
  cases f with
  | scalar => exact Nat.le_trans h.1 (by omega)
  | fast => exact h.2.2.1
  | auto c =>
    show work (readAll c count stream out) m ≤ _
    unfold readAll
    split
    · exact (within_onAmd64 c (within_readAllFast count stream out hc.1 hc.2 ho)).trace m
    · exact Nat.le_trans h.1 (by omega)

/-- Every delta reader. -/
theorem C77_readDelta (f : Fn) (count : Int) (stream : Bytes) (out : U32s) (prev : U32) (m : Mem) (hc : IsInt64 count)
    (ho : out.len ≤ out.cap) : work (f.readDelta count stream out prev) m ≤ 15 * min count.toNat out.cap + 540 := by
  have h := C77_read_impl count stream out prev m hc ho
  cases f with
  | scalar => exact Nat.le_trans h.2.1 (by omega)
  | fast => exact Nat.le_trans h.2.2.2 (by omega)
  | auto c =>
    show work (readAllDelta c count stream out prev) m ≤ _
    unfold readAllDelta
    split
    · exact Nat.le_trans ((within_onAmd64 c (within_readAllDeltaFast count stream out prev hc.1 hc.2 ho)).trace m) (by omega)
    · exact Nat.le_trans h.2.1 (by omega)

/-- A count that promises more than there is room for costs no more than the room, however long the stream is. -/
theorem C77_hostile_count (f : Fn) (count : Int) (stream : Bytes) (out : U32s) (prev : U32) (m : Mem) (hc : IsInt64 count)
    (ho : out.len ≤ out.cap) :
    work (f.read count stream out) m ≤ 14 * out.cap + 524 ∧
    work (f.readDelta count stream out prev) m ≤ 15 * out.cap + 540 := by
  have h := C77_read f count stream out m hc ho
  have h' := C77_readDelta f count stream out prev m hc ho
  omega

/-! ## Varint writers -/

/-- Four bytes to load (eight for deltas, which load the number twice) and at most five to store. -/
theorem C77_putVarint (nums : U32s) (out : Bytes) (prev : U32) (m : Mem) :
    work (putVarint nums out) m ≤ 9 * nums.len ∧ work (putDeltaVarint nums out prev) m ≤ 13 * nums.len :=
  ⟨(within_putVarint nums out).trace m, (within_putDeltaVarint nums out prev).trace m⟩

/-! ## Concurrent calls -/

/-- Turns after which a call has finished, from the sizes alone. -/
def Call.turns : Call → Nat
  | .write _ _ inn => 54 * ((inn.len + 3) / 4) + 4 * inn.len
  | .writeDelta _ _ inn _ => 56 * ((inn.len + 3) / 4) + 4 * inn.len
  | .read _ n _ _ => 52 * ((n + 3) / 4) + 33
  | .readDelta _ n _ _ _ => 58 * ((n + 3) / 4) + 33

theorem Call.work_le_turns (c : Call) {m : Mem} (h : c.Pre m) : (trace c.prog m).length ≤ c.turns := by
  have reads : ∀ {n : Nat} {st : Bytes} {out : U32s}, ReaderPre n st out m → IsInt64 (n : Int) := by
    intro n st out h
    have h1 := h.vout.small
    have h2 := h.vout.len_le
    have h3 := h.room
    unfold IsInt64
    omega
  cases c with
  | write f fresh inn => exact C45_write f (Nat.lt_of_le_of_lt h.valid.len_le h.valid.small) m
  | writeDelta f fresh inn prev => exact C45_writeDelta f prev (Nat.lt_of_le_of_lt h.valid.len_le h.valid.small) m
  | read f n st out => exact C45_read f (reads h) st out m
  | readDelta f n st out prev => exact C45_readDelta f (reads h) st out prev m

private theorem count_flatten_ge {ι : Type} [DecidableEq ι] (i : ι) :
    ∀ rounds : List (List ι), (∀ l ∈ rounds, i ∈ l) → rounds.length ≤ rounds.flatten.count i := by
  intro rounds
  induction rounds with
  | nil => exact fun _ => Nat.le_refl _
  | cons l ls ih =>
    intro h
    rw [List.flatten_cons, List.count_append, List.length_cons]
    have := ih fun l' hl => h l' (.tail _ hl)
    have := List.count_pos_iff.2 (h l (.head _))
    omega

/-- Concurrent calls with private outputs: if in every round each call gets at least one turn, then all of them have
finished, with the right results, after as many rounds as the longest needs, a number known from the sizes beforehand. -/
theorem C77_rounds {ι : Type} [DecidableEq ι] (calls : ι → Call) (m : Mem) (hpre : ∀ i, (calls i).Pre m)
    (hpriv : Private calls m) (rounds : List (List ι)) (hr : ∀ l ∈ rounds, ∀ i, i ∈ l)
    (hn : ∀ i, (calls i).turns ≤ rounds.length) (i : ι) :
    (calls i).Correct m (Conf.exec ⟨fun i => (calls i).prog, m⟩ rounds.flatten).mem
      ((Conf.exec ⟨fun i => (calls i).prog, m⟩ rounds.flatten).prog i) :=
  C29_correct calls m hpre hpriv rounds.flatten (fun j =>
    Nat.le_trans (Call.work_le_turns _ (hpre j))
      (Nat.le_trans (hn j) (count_flatten_ge j rounds fun l hl => hr l hl j))) i

/-! ## Examples -/

/-- Memory in which every byte is 200. -/
def exCostMem : Mem := fun _ => 200

-- a count of 2⁶² for four numbers' room and a stream as long as can be
example (m : Mem) : work (Fn.fast.read (2 ^ 62) ⟨.heap 0, 0, 2 ^ 61, 2 ^ 61⟩ ⟨.heap 1, 0, 4, 4⟩) m ≤ 580 :=
  (C77_hostile_count .fast (2 ^ 62) ⟨.heap 0, 0, 2 ^ 61, 2 ^ 61⟩ ⟨.heap 1, 0, 4, 4⟩ 0 m (by unfold IsInt64; decide) (by decide)).1
example := C77_read (.auto ⟨true, true, false⟩) 40 ⟨.heap 0, 0, 170, 170⟩ ⟨.heap 1, 0, 40, 40⟩ exCostMem (by unfold IsInt64; decide) (by decide)
example := C77_readDelta .scalar (-7) ⟨.heap 0, 0, 170, 170⟩ ⟨.heap 1, 0, 40, 40⟩ 3 exCostMem (by unfold IsInt64; decide) (by decide)
-- the bounds for varints are reached
example : work (putVarint ⟨.heap 0, 0, 3, 3⟩ ⟨.heap 1, 0, 15, 15⟩) exCostMem = 9 * 3 := by decide +kernel
example : work (putDeltaVarint ⟨.heap 0, 0, 1, 1⟩ ⟨.heap 1, 0, 15, 15⟩ 7) exCostMem = 13 * 1 := by decide +kernel
-- the four goroutines of C29 are done after 568 rounds
example : ∀ i, (exCalls i).turns ≤ 568 := by decide
example (i : Fin 4) := C77_rounds exCalls exRMem exCalls_ok.1 exCalls_ok.2 (List.replicate 568 [2, 0, 3, 1])
  (fun l hl j => by
    rw [List.eq_of_mem_replicate hl]
    revert j
    decide)
  (fun j => by
    rw [List.length_replicate]
    revert j
    decide) i

end SVB.Props
