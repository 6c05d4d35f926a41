import Verif.Model.Conc
import Verif.Model.Shared

/-!
# Interference

One goroutine calling a function of `/repo` while other goroutines write to the same memory, without any
synchronisation.  As in `Model/Conc.lean` a step is one load or store of a single byte, so torn words are among the
possibilities; a load delivers some byte that memory holds at that moment.  (By the Go memory model a racing read of
at most a machine word observes some value written there, and the compiler may not invent further reads.)
-/

set_option autoImplicit false

namespace SVB

/-- `p` in memory `m` can get to `p'` in memory `m'`, having made the accesses `t` itself, while others change memory
at any moment and in any way.  Only the package-level tables (`/repo/pkg/shared/tables.go:5,72,107,622`, never
assigned anywhere in `/repo`) keep their contents. -/
inductive Raced {α : Type} : Prog α → Mem → List Event → Prog α → Mem → Prop where
  | now (p : Prog α) (m : Mem) : Raced p m [] p m
  | others {p p' : Prog α} {m m1 m' : Mem} {t : List Event} (h : ∀ q, q.blk.isConst = true → m1 q = m q) :
      Raced p m1 t p' m' → Raced p m t p' m'
  | load {q : Ptr} {k : Byte → Prog α} {p' : Prog α} {m m' : Mem} {t : List Event} :
      Raced (k (m q)) m t p' m' → Raced (.load q k) m (.rd q :: t) p' m'
  | store {q : Ptr} {v : Byte} {k p' : Prog α} {m m' : Mem} {t : List Event} :
      Raced k (m.set q v) t p' m' → Raced (.store q v k) m (.wr q :: t) p' m'

/-- A program that never stores to the tables, whatever it loads elsewhere. -/
def SparesTables {α : Type} : Prog α → Prop
  | .ret _ => True
  | .panic _ => True
  | .load p k => ∀ m, TablesLoaded m → SparesTables (k (m p))
  | .store p _ k => p.blk.isConst = false ∧ SparesTables k

/-- The access a thread makes with its next step. -/
def Prog.next {α : Type} : Prog α → List Event
  | .ret _ => []
  | .panic _ => []
  | .load p _ => [.rd p]
  | .store p _ _ => [.wr p]

/-- The accesses of thread `i` under a schedule. -/
def Conf.accesses {ι : Type} [DecidableEq ι] {α : ι → Type} (i : ι) (c : Conf α) : List ι → List Event
  | [] => []
  | j :: s => (if j = i then (c.prog i).next else []) ++ (c.turn j).accesses i s

end SVB
