import Verif.Spec
import Verif.Model.Dispatch

/-!
# Vocabulary of the property theorems

Which functions are called, under which circumstances.  No proofs depend on anything here except through
the definitions themselves.
-/

set_option autoImplicit false

namespace SVB
open Spec

/-- The entry points of one kind: the portable one, the assembly-backed one, and the dispatching one on a
given CPU (`WriteAllScalar` / `WriteAllFast` / `WriteAll`, and so on). -/
inductive Fn where
  | scalar
  | fast
  | auto (c : Cpu)

/-- `WriteAllScalar`, `WriteAllFast`, `WriteAll`. -/
def Fn.write : Fn → Block → U32s → Prog Bytes
  | .scalar => writeAllScalar
  | .fast => writeAllFast
  | .auto c => writeAll c

/-- `WriteAllDeltaScalar`, `WriteAllDeltaFast`, `WriteAllDelta`. -/
def Fn.writeDelta : Fn → Block → U32s → U32 → Prog Bytes
  | .scalar => writeAllDeltaScalar
  | .fast => writeAllDeltaFast
  | .auto c => writeAllDelta c

/-- `ReadAllScalar`, `ReadAllFast`, `ReadAll`. -/
def Fn.read : Fn → Int → Bytes → U32s → Prog Unit
  | .scalar => readAllScalar
  | .fast => readAllFast
  | .auto c => readAll c

/-- `ReadAllDeltaScalar`, `ReadAllDeltaFast`, `ReadAllDelta`. -/
def Fn.readDelta : Fn → Int → Bytes → U32s → U32 → Prog Unit
  | .scalar => readAllDeltaScalar
  | .fast => readAllDeltaFast
  | .auto c => readAllDelta c

/-- `Put8uint32Scalar`, `Put8uint32Fast`, `Put8uint32`. -/
def Fn.put8 : Fn → U32s → Bytes → Prog U16
  | .scalar => put8uint32Scalar
  | .fast => put8uint32Fast
  | .auto c => put8uint32 c

/-- `Put8uint32DeltaScalar`, `Put8uint32DeltaFast`, `Put8uint32Delta`. -/
def Fn.put8Delta : Fn → U32s → Bytes → U32 → Prog U16
  | .scalar => put8uint32DeltaScalar
  | .fast => put8uint32DeltaFast
  | .auto c => put8uint32Delta c

/-- `Get8uint32Scalar`, `Get8uint32Fast`, `Get8uint32`. -/
def Fn.get8 : Fn → Bytes → U32s → U16 → Prog Unit
  | .scalar => get8uint32Scalar
  | .fast => get8uint32Fast
  | .auto c => get8uint32 c

/-- `Get8uint32DeltaScalar`, `Get8uint32DeltaFast`, `Get8uint32Delta`. -/
def Fn.get8Delta : Fn → Bytes → U32s → U16 → U32 → Prog Unit
  | .scalar => get8uint32DeltaScalar
  | .fast => get8uint32DeltaFast
  | .auto c => get8uint32Delta c

/-- A call of a block encoder or decoder: the tables have their contents, and the slice read does not
overlap the slice written, which is on the heap. -/
structure BlockPre {e f : Nat} (src : Slice e) (dst : Slice f) (m : Mem) : Prop where
  tables : TablesLoaded m
  heap : dst.blk.isConst = false
  disj : Disjoint src dst

/-- A call of a writer: the tables have their contents, `inn` is a proper slice, and the allocator
returns a heap block that is not the one holding `inn`. -/
structure WriterPre (fresh : Block) (inn : U32s) (m : Mem) : Prop where
  tables : TablesLoaded m
  valid : Valid inn
  fresh_heap : fresh.isConst = false
  fresh_ne : fresh ≠ inn.blk

/-- A call of a reader for `n` numbers: the tables have their contents, `st` and `out` are slices that do
not overlap (`len ≤ cap`; `out` a heap slice of realistic size), and `out` has room for `n` numbers. -/
structure ReaderPre (n : Nat) (st : Bytes) (out : U32s) (m : Mem) : Prop where
  tables : TablesLoaded m
  stream_cap : st.len ≤ st.cap
  vout : Valid out
  disj : Disjoint st out
  room : n ≤ out.len

/-- `p` is one of Go's run-time bounds panics. -/
def BoundsPanic (k : Panic) : Prop := k = .index ∨ k = .slice

/-- Address inside elements `0 … n-1` of `out`. -/
def inFirst (out : U32s) (n : Nat) (q : Ptr) : Prop :=
  q.blk = out.blk ∧ out.off ≤ q.off ∧ q.off < out.off + 4 * n

/-- Address inside elements `0 … n-1` of a slice. -/
def inPrefix {e : Nat} (s : Slice e) (n : Nat) (q : Ptr) : Prop :=
  q.blk = s.blk ∧ s.off ≤ q.off ∧ q.off < s.off + e * n

/-- A concrete memory: after program start, with the given numbers at the beginning of heap block 0 and
the given bytes at the beginning of heap block 1.  Used to exhibit concrete instances. -/
def memWith (ws : List U32) (bs : List Byte) : Mem := fun p =>
  match p.blk with
  | .heap 0 => (ws.getD (p.off / 4) 0).extractLsb' (8 * (p.off % 4)) 8
  | .heap 1 => bs.getD p.off 0
  | _ => initMem p

theorem initMem_tables : TablesLoaded initMem where
  encShuf c hc j hj := by
    show BitVec.ofNat 8 ((encodeShuffleTable.getD ((16 * c + j) / 16) []).getD ((16 * c + j) % 16) 0) = _
    rw [show (16 * c + j) / 16 = c by omega, show (16 * c + j) % 16 = j by omega]
  decShuf c hc j hj := by
    show BitVec.ofNat 8 ((decodeShuffleTable.getD ((16 * c + j) / 16) []).getD ((16 * c + j) % 16) 0) = _
    rw [show (16 * c + j) / 16 = c by omega, show (16 * c + j) % 16 = j by omega]
  numLen c hc j hj := by
    show BitVec.ofNat 8 ((perNumLenTable.getD ((4 * c + j) / 4) []).getD ((4 * c + j) % 4) 0) = _
    rw [show (4 * c + j) / 4 = c by omega, show (4 * c + j) % 4 = j by omega]
  ctrlLen c hc := rfl
  mask0101 := ⟨rfl, rfl⟩
  mask7F00 := ⟨rfl, rfl⟩

theorem memWith_tables (ws : List U32) (bs : List Byte) : TablesLoaded (memWith ws bs) where
  encShuf := initMem_tables.encShuf
  decShuf := initMem_tables.decShuf
  numLen := initMem_tables.numLen
  ctrlLen := initMem_tables.ctrlLen
  mask0101 := initMem_tables.mask0101
  mask7F00 := initMem_tables.mask7F00

end SVB
