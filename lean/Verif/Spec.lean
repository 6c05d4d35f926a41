import Verif.Model.Prog

/-!
# The Stream VByte format

What the code is supposed to compute, written without reference to the model of the code: only the
types `Byte`, `U32` and the memory views at the end come from `Verif/Model/Prog.lean`.
-/

namespace SVB.Spec

/-- Number of bytes of the shortest representation of `v` (at least one). -/
def byteLen (v : U32) : Nat :=
  if v.toNat < 256 then 1 else if v.toNat < 65536 then 2 else if v.toNat < 16777216 then 3 else 4

/-- The `byteLen v` low bytes of `v`, least significant first. -/
def leBytes (v : U32) : List Byte :=
  (List.range (byteLen v)).map fun k => BitVec.ofNat 8 (v.toNat / 256 ^ k)

/-- Control byte of (up to) four numbers: two bits per number, first number in the low bits, holding
the length minus one; missing numbers contribute 0. -/
def ctrlNat : List U32 → Nat
  | [] => 0
  | v :: vs => (byteLen v - 1) + 4 * ctrlNat vs

def ctrlByte (g : List U32) : Byte := BitVec.ofNat 8 (ctrlNat g)

/-- Control of (up to) eight numbers: two control bytes, the one of the first four numbers in the low
byte. -/
def ctrl16 (g : List U32) : U16 := BitVec.ofNat 16 (ctrlNat g)

/-- The lengths announced by the low `n` two-bit codes of a control value. -/
def codeLens (n c : Nat) : List Nat := (List.range n).map fun k => c / 4 ^ k % 4 + 1

/-- Control bytes of a sequence: one per group of four, the last group may be shorter. -/
def ctrls : List U32 → List Byte
  | [] => []
  | x :: xs => ctrlByte (x :: xs.take 3) :: ctrls (xs.drop 3)
termination_by xs => xs.length
decreasing_by simp only [List.length_drop, List.length_cons]; omega

/-- Data bytes of a sequence. -/
def dataBytes (xs : List U32) : List Byte := xs.flatMap leBytes

/-- The Stream VByte encoding: all control bytes, then all data bytes. -/
def encode (xs : List U32) : List Byte := ctrls xs ++ dataBytes xs

/-- Successive differences modulo 2^32, the first against `prev`. -/
def delta (prev : U32) : List U32 → List U32
  | [] => []
  | x :: xs => (x - prev) :: delta x xs

/-- Running sums modulo 2^32, starting from `prev`. -/
def undelta (prev : U32) : List U32 → List U32
  | [] => []
  | d :: ds => (d + prev) :: undelta (d + prev) ds

/-- Little-endian value of a byte string. -/
def leValue : List Byte → Nat
  | [] => 0
  | b :: bs => b.toNat + 256 * leValue bs

/-- Two-bit code number `k` of a control byte. -/
def code (c : Byte) (k : Nat) : Nat := c.toNat / 4 ^ k % 4

/-- Number of control bytes of `n` numbers. -/
def ctrlLen (n : Nat) : Nat := (n + 3) / 4

/-- Lengths of the first `n` numbers according to the control bytes at the head of `s`. -/
def lengths (n : Nat) (s : List Byte) : List Nat :=
  (List.range n).map fun i => code (s.getD (i / 4) 0) (i % 4) + 1

/-- Unused control bits of a stream of `n` numbers are zero. -/
def SpareZero (n : Nat) (s : List Byte) : Prop :=
  ∀ i, n ≤ i → i < 4 * ctrlLen n → code (s.getD (i / 4) 0) (i % 4) = 0

/-- Cut numbers of the given lengths off a byte string. -/
def readNums : List Nat → List Byte → Option (List U32)
  | [], _ => some []
  | l :: ls, bs =>
    if bs.length < l then none
    else (readNums ls (bs.drop l)).map (BitVec.ofNat 32 (leValue (bs.take l)) :: ·)

/-- Decoding of `n` numbers; `none` if `s` is too short.  Bytes after the last number are ignored. -/
def decode (n : Nat) (s : List Byte) : Option (List U32) :=
  if s.length < ctrlLen n then none else readNums (lengths n s) (s.drop (ctrlLen n))

/-- Decoding of `n` differences. -/
def decodeDelta (prev : U32) (n : Nat) (s : List Byte) : Option (List U32) :=
  (decode n s).map (undelta prev)

/-! ## Views of memory -/

/-- Contents of a byte slice. -/
def bytesOf (m : Mem) (s : Bytes) : List Byte :=
  (List.range s.len).map fun i => m ⟨s.blk, s.off + i⟩

/-- Contents of the first `n` elements of a `[]uint32`. -/
def wordsN (m : Mem) (s : U32s) (n : Nat) : List U32 :=
  (List.range n).map fun i =>
    m ⟨s.blk, s.off + 4 * i + 3⟩ ++ m ⟨s.blk, s.off + 4 * i + 2⟩ ++
      m ⟨s.blk, s.off + 4 * i + 1⟩ ++ m ⟨s.blk, s.off + 4 * i⟩

/-- Contents of a `[]uint32`. -/
def wordsOf (m : Mem) (s : U32s) : List U32 := wordsN m s s.len

/-- Address `p` belongs to the elements `0 … len-1` of `s`. -/
def inSlice {e : Nat} (s : Slice e) (p : Ptr) : Prop :=
  p.blk = s.blk ∧ s.off ≤ p.off ∧ p.off < s.off + e * s.len

/-- Address `p` lies inside one of the package's read-only tables (sizes: `/repo/pkg/shared/tables.go:5,
72, 107, 622` and `/repo/pkg/encode/encode_amd64.s:5-9`). -/
def inTables (p : Ptr) : Prop :=
  match p.blk with
  | .encShuf => p.off < 256 * 16
  | .decShuf => p.off < 256 * 16
  | .ctrlLen => p.off < 256
  | .numLen => p.off < 256 * 4
  | .mask0101 => p.off < 2
  | .mask7F00 => p.off < 2
  | .heap _ => False

/-- A slice the Go run-time can produce: `len ≤ cap`, on the heap (not one of the package's own
tables), and of realistic size (the address space is far below 2^60 bytes). -/
structure Valid {e : Nat} (s : Slice e) : Prop where
  len_le : s.len ≤ s.cap
  heap : s.blk.isConst = false
  small : s.cap < 2 ^ 60

/-- The elements of two slices do not overlap. -/
def Disjoint {e f : Nat} (s : Slice e) (t : Slice f) : Prop :=
  s.blk ≠ t.blk ∨ s.off + e * s.len ≤ t.off ∨ t.off + f * t.len ≤ s.off

end SVB.Spec
