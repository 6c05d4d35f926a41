import Verif.Setting
import Verif.Model.ReadmeCode

/-!
# A caller that encodes one slice in several goroutines

No code of the repository.  Each goroutine encodes a chunk of the numbers with a writer
(`/repo/pkg/stream/writer/writer.go:13-39`, `/repo/pkg/stream/writer/writer_amd64.go:10-13`); when all are done, the control
bytes of the chunks are copied to the front of a new buffer and their data after that.  `copy` is the one of
`Verif/Model/ReadmeCode.lean`.
-/

set_option autoImplicit false

namespace SVB

/-- One chunk: the writer, the block its result is allocated in, the first number, how many numbers. -/
structure Chunk where
  f : Fn
  fresh : Block
  lo : Nat
  n : Nat

/-- The number before a chunk. -/
def Chunk.before (c : Chunk) (inn : U32s) (prev : U32) : Prog U32 :=
  if c.lo = 0 then .ret prev else getW inn (c.lo - 1)

/-- What the goroutine of a chunk does; `prev` is the previous number of the whole, if deltas are wanted. -/
def Chunk.prog (c : Chunk) (inn : U32s) (prev : Option U32) : Prog Bytes := do
  let part ← inn.range c.lo (c.lo + c.n)
  match prev with
  | none => c.f.write c.fresh part
  | some p => do
    let q ← c.before inn p
    c.f.writeDelta c.fresh part q

/-- `for _, c := range chunks { pos += copy(buf[pos:], part(c)) }` -/
def copyParts (part : Nat × Bytes → Prog Bytes) (buf : Bytes) : Nat → List (Nat × Bytes) → Prog Nat
  | pos, [] => return pos
  | pos, p :: ps => do
    let d ← buf.from pos
    let s ← part p
    ReadmeCode.copyBytes d s
    copyParts part buf (pos + min d.len s.len) ps

/-- One stream from the streams of the chunks, each with its count. -/
def joinChunks (fresh : Block) (ps : List (Nat × Bytes)) : Prog Bytes := do
  let buf ← makeBytes fresh ((ps.map fun p => p.2.len).sum : Nat)
  let pos ← copyParts (fun p => p.2.range 0 ((p.1 + 3) / 4 : Nat)) buf 0 ps
  let _ ← copyParts (fun p => p.2.from ((p.1 + 3) / 4 : Nat)) buf pos ps
  return buf

end SVB
