import Verif.Model.Archive

/-!
# A caller that decodes pieces of one stream in several goroutines

No code of the repository.  The control bytes come first, so the data of every group can be found without decoding anything
before it; each piece is one call of a block function: `GetUint32Scalar` (`/repo/pkg/decode/decode.go:82-107`), or `Get8uint32`
in a variant (`/repo/pkg/decode/decode.go:30-61`, `/repo/pkg/decode/decode_amd64.go:24-29`), or their delta versions.
-/

set_option autoImplicit false

namespace SVB

/-- One piece: the group it begins with; one group, or two groups by a variant of `Get8uint32`; for a delta stream the number
before the piece. -/
structure Piece where
  k : Nat
  two : Option Fn
  prev : Option U32

/-- How many numbers a piece of a stream of `n` numbers holds; the last group may be short. -/
def Piece.size (p : Piece) (n : Nat) : Nat :=
  match p.two with
  | none => min 4 (n - 4 * p.k)
  | some _ => 8

/-- What one goroutine does: it adds up the sizes of the groups before its piece, and decodes the piece into its own part of
`out`.  The control value of two groups is made as in `/repo/pkg/stream/reader/reader_amd64.go:45`. -/
def Piece.prog (p : Piece) (n : Nat) (st : Bytes) (out : U32s) : Prog Unit := do
  let a ← ctrlSizes st p.k
  let c ← getB st p.k
  match p.two with
  | none => do
    let o ← out.from (4 * p.k)
    let d ← st.from (((n + 3) / 4 : Nat) + a)
    let _ ← match p.prev with
      | none => getUint32Scalar d o c (min 4 (n - 4 * p.k) : Nat)
      | some v => getUint32DeltaScalar d o c (min 4 (n - 4 * p.k) : Nat) v
    return ()
  | some f => do
    let c' ← getB st (p.k + 1)
    let o ← out.from (4 * p.k)
    let d ← st.from (((n + 3) / 4 : Nat) + a)
    match p.prev with
    | none => f.get8 d o (mk16 c c')
    | some v => f.get8Delta d o (mk16 c c') v

end SVB
