import Verif.Model.TestSem

/-!
# `util.SortUint32` from its text

`SortUint32` (`/repo/pkg/util/util.go:21-25`) passes a function literal to `sort.Slice`, so what it does depends on how `sort.Slice`
sorts.  A `Sorter` is what `sort.Slice` may do with a slice of some length: it asks the function about two indices, swaps two
elements (`reflect.Swapper`), or ends, and what it does next depends on the answers.  `pdqsort_func` of the Go library is
such a program.
-/

set_option autoImplicit false

namespace SVB.Tests
open SVB.Script (Expr Stmt Ty Op Func File)

inductive Sorter where
  | done
  | less (i j : Nat) (next : Bool → Sorter)
  | swap (i j : Nat) (next : Sorter)

/-- `s[i], s[j] = s[j], s[i]` -/
def swapWords (s : U32s) (i j : Nat) : Prog Unit := do
  let x ← getW s i
  let y ← getW s j
  setW s i y
  setW s j x

/-- `sort.Slice(s, less)` -/
def sortSlice (less : Nat → Nat → M Val) (s : U32s) : Sorter → M Unit
  | .done => pure ()
  | .less i j next => do
    let v ← less i j
    match v with
    | .bool b => sortSlice less s (next b)
    | _ => stuck
  | .swap i j next => do
    call (swapWords s i j)
    sortSlice less s next

/-- The call of `SortUint32` of a file with a slice.  Its body must be a call of `sort.Slice` with its parameter and a function
literal that takes two `int`s and consists of a `return`. -/
def sortUint32 (W : World) (F : File) (sorter : Nat → Sorter) (s : U32s) : M Unit :=
  match F.funcs.find? fun f => Nat.beq f.name n!"SortUint32" with
  | some ⟨_, [(x, .slice (.named t))], [], [.expr (.call (.dot (.var p) f)
      [.var y, .func [(i, .named ti), (j, .named tj)] [(_, .named tr)] [.ret [e]]] false)]⟩ =>
    if Nat.beq t n!"uint32" && Nat.beq p n!"sort" && Nat.beq f n!"Slice" && F.imports.any (lastElem · p) && !Nat.beq x p &&
        Nat.beq x y && Nat.beq ti n!"int" && Nat.beq tj n!"int" && Nat.beq tr n!"bool" then
      sortSlice (fun a b => (ev W F 10 10).eval [(j, .int b), (i, .int a), (x, .words s)] e) s (sorter s.len)
    else stuck
  | _ => stuck

end SVB.Tests
