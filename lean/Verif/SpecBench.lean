import Verif.Model.TestSem
import Verif.Spec
import Verif.SpecUtil
import Verif.Setting

/-!
# What the benchmarks of `/repo` are supposed to do

Vocabulary of C62, apart from the model of the benchmarks.
-/

set_option autoImplicit false

namespace SVB.Tests
open SVB.Spec

/-- `n` numbers drawn after `d` draws. -/
def drawn (W : World) (d n : Nat) : List U32 := (List.range n).map fun j => W.rand (d + 2 * j)

/-- The numbers a benchmark generates, sorted if it sorts them. -/
def World.nums (W : World) (sorted : Bool) (d n : Nat) : List U32 := if sorted then W.sort (drawn W d n) else drawn W d n

/-- The differences, if they are encoded. -/
def diffs (d : Bool) (xs : List U32) : List U32 := if d then delta 0 xs else xs

/-- The values of `b.N` for a function passed to `b.Run`: at least one, all positive and smaller than `fuel`. -/
def RoundsOk (W : World) (fuel : Nat) : Prop := ∀ s, W.rounds s ≠ [] ∧ ∀ n ∈ W.rounds s, 0 < n ∧ n < fuel

/-- What a benchmark measures, whether it encodes differences (`dl`), whether it sorts the numbers, and the variable of the file
to which it assigns the result. -/
inductive Job where
  /-- copying eight numbers -/
  | copy
  /-- encoding a block of eight numbers; the result is the control bits -/
  | put (dl sorted : Bool) (sink : Nat)
  /-- the same with variable-length integers; the result is the number of bytes -/
  | putVarint (dl sorted : Bool) (sink : Nat)
  /-- decoding a block of eight numbers (of either format) -/
  | get (sorted : Bool) (sink : Nat)
  /-- decoding streams of `1`, `10`, … `10^7` numbers (of either format) -/
  | readAll (sorted : Bool) (sink : Nat)
  /-- encoding as many numbers as streams -/
  | writeAll (dl sorted : Bool) (sink : Nat)
  /-- encoding as many numbers as variable-length integers -/
  | writeVarint (dl sorted : Bool) (sink : Nat)

/-- What the benchmark has done when it ends: the number of bytes it has reported to the testing package is that of the numbers
(for a stream benchmark: of the last and largest stream), and the result it has assigned last to its variable is the right one
for the numbers drawn (for a stream benchmark: the last `10^7` numbers, which follow `1111111` others, two draws for each). -/
def Job.Done (W : World) (j : Job) (s s' : St) (m' : Mem) : Prop :=
  match j with
  | .copy => s'.bytes = 4 * 8 ∧ s'.sinks = s.sinks ∧ wordsOf m' ⟨.heap (s.next + 1), 0, 8, 8⟩ = W.nums false s.draws 8
  | .put dl sorted x => s'.bytes = 4 * 8 ∧ s'.sinks = (x, .u16 (ctrl16 (diffs dl (W.nums sorted s.draws 8)))) :: s.sinks
  | .putVarint dl sorted x => s'.bytes = 4 * 8 ∧
      s'.sinks = (x, .int (varintsOf (diffs dl (W.nums sorted s.draws 8))).length) :: s.sinks
  | .get sorted x => s'.bytes = 4 * 8 ∧ ∃ out : U32s, s'.sinks = (x, .words out) :: s.sinks ∧
      wordsOf m' out = W.nums sorted s.draws 8
  | .readAll sorted x => s'.bytes = 4 * 10 ^ 7 ∧ ∃ out : U32s, s'.sinks.head? = some (x, .words out) ∧
      wordsOf m' out = W.nums sorted (s.draws + 2 * 1111111) (10 ^ 7)
  | .writeAll dl sorted x => s'.bytes = 4 * 10 ^ 7 ∧ ∃ stream : Bytes, s'.sinks.head? = some (x, .bytes stream) ∧
      bytesOf m' stream = encode (diffs dl (W.nums sorted (s.draws + 2 * 1111111) (10 ^ 7)))
  | .writeVarint dl sorted x => s'.bytes = 4 * 10 ^ 7 ∧
      s'.sinks.head? = some (x, .int (varintsOf (diffs dl (W.nums sorted (s.draws + 2 * 1111111) (10 ^ 7)))).length)

end SVB.Tests
