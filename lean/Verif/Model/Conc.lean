import Verif.Model.Prog

/-!
# Goroutines

Several programs running at the same time on one memory.  A step of a thread is one load or store of a single
byte, so every interleaving of whole-word accesses (and every tearing of them) is among the schedules.  The
memory is sequentially consistent; the programs of `/repo` have no synchronisation, no global variables other
than the constant tables of `/repo/pkg/shared/tables.go`, and no other shared state.
-/

set_option autoImplicit false

namespace SVB

/-- What every thread still has to do, and the shared memory. -/
structure Conf {ι : Type} (α : ι → Type) where
  prog : ∀ i, Prog (α i)
  mem : Mem

/-- One step of thread `i`; nothing if it has finished. -/
def Conf.turn {ι : Type} [DecidableEq ι] {α : ι → Type} (c : Conf α) (i : ι) : Conf α :=
  match c.prog i with
  | .ret _ => c
  | .panic _ => c
  | .load p k => ⟨fun j => if h : j = i then h ▸ k (c.mem p) else c.prog j, c.mem⟩
  | .store p v k => ⟨fun j => if h : j = i then h ▸ k else c.prog j, c.mem.set p v⟩

/-- Execution under a schedule: the list says which thread makes the next step. -/
def Conf.exec {ι : Type} [DecidableEq ι] {α : ι → Type} (c : Conf α) (sched : List ι) : Conf α :=
  sched.foldl Conf.turn c

/-- A thread that has stopped with the given outcome. -/
def Outcome.done {α : Type} : Outcome α → Prog α
  | .ok a => .ret a
  | .panic k => .panic k

end SVB
