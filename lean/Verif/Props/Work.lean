import Verif.Props.Safety
import Verif.Proofs.WorkDead

/-!
# C45: the work of every function is linear

Work is the number of bytes loaded and stored, which bounds the number of loop iterations as every iteration of
every loop in `/repo` makes at least one access.  The bounds hold for every content of every slice and table, so no
input makes a call slow.
-/

set_option autoImplicit false

namespace SVB.Props
open Spec Asm

/-- Number of bytes loaded and stored. -/
def work {α : Type} (p : Prog α) (m : Mem) : Nat := (trace p m).length

theorem work_le {α : Type} {Q : Nat → α → Prop} {k : Nat} {p : Prog α} (h : Bd Q k p) (m : Mem) : work p m ≤ k :=
  h.sound m

/-- C45, writers: at most 54 accesses per started group of four numbers plus four per number, among them the zeroing of
the new buffer. -/
theorem C45_write (f : Fn) {fresh : Block} {inn : U32s} (hn : inn.len < 2 ^ 60) (m : Mem) :
    work (f.write fresh inn) m ≤ 54 * ctrlLen inn.len + 4 * inn.len := by
  have hs := work_le (cost_writeAllScalar fresh inn hn) m
  have hf := work_le (cost_writeAllFast fresh inn hn) m
  have : work (f.write fresh inn) m = work (writeAllScalar fresh inn) m ∨
      work (f.write fresh inn) m = work (writeAllFast fresh inn) m := by
    cases f with
    | scalar => exact .inl rfl
    | fast => exact .inr rfl
    | auto c => rcases writeAll_cases c fresh inn with e | e <;> simp only [Fn.write, e] <;> simp
  omega

/-- C45, delta writers. -/
theorem C45_writeDelta (f : Fn) {fresh : Block} {inn : U32s} (prev : U32) (hn : inn.len < 2 ^ 60) (m : Mem) :
    work (f.writeDelta fresh inn prev) m ≤ 56 * ctrlLen inn.len + 4 * inn.len := by
  have hs := work_le (cost_writeAllDeltaScalar fresh inn prev hn) m
  have hf := work_le (cost_writeAllDeltaFast fresh inn prev hn) m
  have : work (f.writeDelta fresh inn prev) m = work (writeAllDeltaScalar fresh inn prev) m ∨
      work (f.writeDelta fresh inn prev) m = work (writeAllDeltaFast fresh inn prev) m := by
    cases f with
    | scalar => exact .inl rfl
    | fast => exact .inr rfl
    | auto c => rcases writeAllDelta_cases c fresh inn prev with e | e <;> simp only [Fn.writeDelta, e] <;> simp
  omega

/-- C45, readers, in terms of `count`: any count, any slices, any contents. -/
theorem C45_read (f : Fn) {count : Int} (hc : IsInt64 count) (st : Bytes) (out : U32s) (m : Mem) :
    work (f.read count st out) m ≤ 52 * ((count.toNat + 3) / 4) + 33 := by
  have hs := work_le (cost_readAllScalar st out hc.1 hc.2) m
  have hf := work_le (cost_readAllFast st out hc.1 hc.2) m
  have : work (f.read count st out) m = work (readAllScalar count st out) m ∨
      work (f.read count st out) m = work (readAllFast count st out) m := by
    cases f with
    | scalar => exact .inl rfl
    | fast => exact .inr rfl
    | auto c => rcases readAll_cases c count st out with e | e <;> simp only [Fn.read, e] <;> simp
  omega

/-- C45, delta readers, in terms of `count`. -/
theorem C45_readDelta (f : Fn) {count : Int} (hc : IsInt64 count) (st : Bytes) (out : U32s) (prev : U32) (m : Mem) :
    work (f.readDelta count st out prev) m ≤ 58 * ((count.toNat + 3) / 4) + 33 := by
  have hs := work_le (cost_readAllDeltaScalar st out prev hc.1 hc.2) m
  have hf := work_le (cost_readAllDeltaFast st out prev hc.1 hc.2) m
  have : work (f.readDelta count st out prev) m = work (readAllDeltaScalar count st out prev) m ∨
      work (f.readDelta count st out prev) m = work (readAllDeltaFast count st out prev) m := by
    cases f with
    | scalar => exact .inl rfl
    | fast => exact .inr rfl
    | auto c => rcases readAllDelta_cases c count st out prev with e | e <;> simp only [Fn.readDelta, e] <;> simp
  omega

/-- C45, readers, in terms of the stream: however large the announced count, the work is linear in `len(stream)`. -/
theorem C45_read_stream (f : Fn) {count : Int} (hc : IsInt64 count) (st : Bytes) (out : U32s) (m : Mem) :
    work (f.read count st out) m ≤ 52 * st.len + 33 := by
  rcases hdr_fits hc.1 hc.2 st.len with h | h
  · have := C45_read f hc st out m
    omega
  · have hs := work_le (dead_readAllScalar (out := out) h) m
    have hf := work_le (dead_readAllFast (out := out) h) m
    have : work (f.read count st out) m = work (readAllScalar count st out) m ∨
        work (f.read count st out) m = work (readAllFast count st out) m := by
      cases f with
      | scalar => exact .inl rfl
      | fast => exact .inr rfl
      | auto c => rcases readAll_cases c count st out with e | e <;> simp only [Fn.read, e] <;> simp
    omega

/-- C45, delta readers, in terms of the stream. -/
theorem C45_readDelta_stream (f : Fn) {count : Int} (hc : IsInt64 count) (st : Bytes) (out : U32s) (prev : U32)
    (m : Mem) : work (f.readDelta count st out prev) m ≤ 58 * st.len + 33 := by
  rcases hdr_fits hc.1 hc.2 st.len with h | h
  · have := C45_readDelta f hc st out prev m
    omega
  · have hs := work_le (dead_readAllDeltaScalar (out := out) prev h) m
    have hf := work_le (dead_readAllDeltaFast (out := out) prev h) m
    have : work (f.readDelta count st out prev) m = work (readAllDeltaScalar count st out prev) m ∨
        work (f.readDelta count st out prev) m = work (readAllDeltaFast count st out prev) m := by
      cases f with
      | scalar => exact .inl rfl
      | fast => exact .inr rfl
      | auto c => rcases readAllDelta_cases c count st out prev with e | e <;> simp only [Fn.readDelta, e] <;> simp
    omega

/-- C45, block functions of at most four numbers, any arguments. -/
theorem C45_small (inn : U32s) (buf : Bytes) (ctrl : Byte) (count : Int) (prev : U32) (m : Mem) :
    work (put4uint32Scalar inn buf) m ≤ 36 ∧ work (put4uint32DeltaScalar inn buf prev) m ≤ 48 ∧
    work (get4uint32Scalar buf inn ctrl) m ≤ 36 ∧ work (get4uint32DeltaScalar buf inn ctrl prev) m ≤ 52 ∧
    work (putUint32Scalar inn buf count) m ≤ 32 ∧ work (putUint32DeltaScalar inn buf count prev) m ≤ 48 ∧
    work (getUint32Scalar buf inn ctrl count) m ≤ 32 ∧ work (getUint32DeltaScalar buf inn ctrl count prev) m ≤ 32 :=
  ⟨work_le (cost_put4 _ _) m, work_le (cost_put4Delta _ _ _) m, work_le (cost_get4 _ _ _) m,
    work_le (cost_get4Delta _ _ _ _) m, work_le (cost_put _ _ _) m, work_le (cost_putDelta _ _ _ _) m,
    work_le (cost_get _ _ _ _) m, work_le (cost_getDelta _ _ _ _ _) m⟩

/-- C45, block functions of eight numbers, every variant, any arguments. -/
theorem C45_eight (f : Fn) (inn : U32s) (buf : Bytes) (ctrl : U16) (prev : U32) (m : Mem) :
    work (f.put8 inn buf) m ≤ 101 ∧ work (f.put8Delta inn buf prev) m ≤ 101 ∧
    work (f.get8 buf inn ctrl) m ≤ 97 ∧ work (f.get8Delta buf inn ctrl prev) m ≤ 109 := by
  have a1 := work_le (cost_put8 inn buf) m
  have a2 := work_le (cost_put8Delta inn buf prev) m
  have a3 := work_le (cost_get8 buf inn ctrl) m
  have a4 := work_le (cost_get8Delta buf inn ctrl prev) m
  have b1 : work (put8uint32Fast inn buf) m ≤ 101 := work_le (Asm.cost_put8Fast inn buf _ _) m
  have b2 : work (put8uint32DeltaFast inn buf prev) m ≤ 101 := work_le (Asm.cost_put8DeltaFast inn buf prev _ _) m
  have b3 : work (get8uint32Fast buf inn ctrl) m ≤ 97 := work_le (Asm.cost_get8Fast buf inn ctrl _ _) m
  have b4 : work (get8uint32DeltaFast buf inn ctrl prev) m ≤ 97 :=
    work_le (Asm.cost_get8DeltaFast buf inn ctrl prev _ _) m
  cases f with
  | scalar => exact ⟨by simp only [Fn.put8]; omega, a2, by simp only [Fn.get8]; omega, a4⟩
  | fast => exact ⟨b1, b2, b3, by simp only [Fn.get8Delta]; omega⟩
  | auto c =>
    refine ⟨?_, ?_, ?_, ?_⟩
    · rcases put8uint32_cases c inn buf with e | e <;> simp only [Fn.put8, e] <;> omega
    · rcases put8uint32Delta_cases c inn buf prev with e | e <;> simp only [Fn.put8Delta, e] <;> omega
    · rcases get8uint32_cases c buf inn ctrl with e | e <;> simp only [Fn.get8, e] <;> omega
    · rcases get8uint32Delta_cases c buf inn ctrl prev with e | e <;> simp only [Fn.get8Delta, e] <;> omega

/-- C45, the varint helpers and `Delta`. -/
theorem C45_util (nums out : U32s) (buf : Bytes) (prev : U32) (m : Mem) :
    work (putVarint nums buf) m ≤ 14 * nums.len ∧ work (putDeltaVarint nums buf prev) m ≤ 18 * nums.len ∧
    work (getVarint buf out) m ≤ 15 * (out.len + 1) ∧ work (getDeltaVarint buf out prev) m ≤ 15 * (out.len + 1) ∧
    work (utilDelta nums out) m ≤ 12 * nums.len :=
  ⟨work_le (cost_putVarint _ _) m, work_le (cost_putDeltaVarint _ _ _) m, work_le (cost_getVarint _ _) m,
    work_le (cost_getDeltaVarint _ _ _) m, work_le (cost_utilDelta _ _) m⟩

-- A bad call with an absurd count: at most 189 accesses, in fact none.
example := C45_read_stream .fast (count := 9223372036854775000) (by unfold IsInt64; omega) exBadStream exBadOut exBadMem
example : work (readAllFast 9223372036854775000 exBadStream exBadOut) exBadMem = 0 := by decide +kernel
-- Work is not always so small: an ordinary call of the decoder for four numbers.
example : work (get4uint32Scalar ⟨.heap 1, 0, 4, 4⟩ ⟨.heap 2, 0, 4, 4⟩ 0) exBadMem = 24 := by decide +kernel
-- The bound for the encoder of eight numbers is attained.
example : work (put8uint32Fast ⟨.heap 1, 0, 8, 8⟩ ⟨.heap 2, 0, 32, 32⟩) exBadMem = 101 := by decide +kernel
example : work (writeAllScalar (.heap 3) ⟨.heap 1, 0, 5, 5⟩) exBadMem ≤ 128 :=
  C45_write .scalar (inn := ⟨.heap 1, 0, 5, 5⟩) (by decide) _

end SVB.Props
