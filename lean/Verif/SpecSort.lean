import Verif.Model.SortSem

/-!
# What sorting is

Vocabulary of C63: what a `Sorter` does to a list, and what the documentation of `sort.Slice` promises.
-/

set_option autoImplicit false

namespace SVB.Tests

/-- What a sorter does to a list (`none`: it leaves the list), when `lt` compares elements. -/
def Sorter.apply {α : Type} (lt : α → α → Bool) : Sorter → List α → Option (List α)
  | .done, xs => some xs
  | .less i j next, xs =>
    match xs[i]?, xs[j]? with
    | some a, some b => (next (lt a b)).apply lt xs
    | _, _ => none
  | .swap i j next, xs =>
    match xs[i]?, xs[j]? with
    | some a, some b => next.apply lt ((xs.set i b).set j a)
    | _, _ => none

/-- What `sort.Slice` requires of the function (documentation of `sort.Interface`): it is transitive, so is its negation, and
no element is less than itself. -/
structure Order {α : Type} (lt : α → α → Bool) : Prop where
  irrefl : ∀ a, lt a a = false
  trans : ∀ a b c, lt a b = true → lt b c = true → lt a c = true
  trans' : ∀ a b c, lt a b = false → lt b c = false → lt a c = false

/-- What `sort.Slice` promises for slices of length `n`: given such a function it stays within the slice, and afterwards no
element is less than an earlier one. -/
def Sorter.Sorts (σ : Sorter) (n : Nat) : Prop :=
  ∀ {α : Type} (lt : α → α → Bool), Order lt → ∀ xs : List α, xs.length = n →
    ∃ ys, σ.apply lt xs = some ys ∧ ys.Pairwise fun a b => lt b a = false

/-- Insertion sort: element `j` moves to the left, then `next`. -/
def Sorter.insert (next : Sorter) : Nat → Sorter
  | 0 => next
  | j + 1 => .less (j + 1) j fun b => if b then .swap (j + 1) j (insert next j) else next

/-- Insertion sort of the next `k` elements, from the `i`-th on. -/
def Sorter.insertion : Nat → Nat → Sorter
  | 0, _ => .done
  | k + 1, i => .insert (insertion k (i + 1)) i

end SVB.Tests
