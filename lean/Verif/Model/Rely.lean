import Verif.Model.Race

/-!
# Interference within limits

As `Model/Race.lean`, with limits on what the others do: some memory they leave alone, elsewhere they may store only
certain bytes.
-/

set_option autoImplicit false

namespace SVB

/-- `p` in memory `m` can get to `p'` in memory `m'` while others change memory at any moment, except that they leave
the addresses in `keep` alone and, at any moment, every other address `q` holds a byte that `may` allows. -/
inductive Under {α : Type} (keep : Ptr → Prop) (may : Ptr → Byte → Prop) : Prog α → Mem → Prog α → Mem → Prop where
  | now (p : Prog α) (m : Mem) : Under keep may p m p m
  | others {p p' : Prog α} {m m1 m' : Mem} (h : ∀ q, keep q → m1 q = m q) (h' : ∀ q, ¬ keep q → may q (m1 q)) :
      Under keep may p m1 p' m' → Under keep may p m p' m'
  | load {q : Ptr} {k : Byte → Prog α} {p' : Prog α} {m m' : Mem} :
      Under keep may (k (m q)) m p' m' → Under keep may (.load q k) m p' m'
  | store {q : Ptr} {v : Byte} {k p' : Prog α} {m m' : Mem} :
      Under keep may k (m.set q v) p' m' → Under keep may (.store q v k) m p' m'

/-- Memory of a writer that others leave alone: the buffer it has just allocated and the tables. -/
def Mine (fresh : Block) (q : Ptr) : Prop := q.blk = fresh ∨ q.blk.isConst = true

/-- A program that never stores to the addresses `K`, whatever it loads outside the tables. -/
def Avoids {α : Type} (K : Ptr → Prop) : Prog α → Prop
  | .ret _ => True
  | .panic _ => True
  | .load p k => ∀ m, TablesLoaded m → Avoids K (k (m p))
  | .store p _ k => ¬ K p ∧ Avoids K k

/-- Address `q` held the byte `b` at some moment of the execution. -/
def Conf.Held {ι : Type} [DecidableEq ι] {α : ι → Type} (c : Conf α) (sched : List ι) (q : Ptr) (b : Byte) : Prop :=
  ∃ s, s <+: sched ∧ (c.exec s).mem q = b

/-- Types of the results of a thread `none` that returns bytes and further threads. -/
def Around {κ : Type} (β : κ → Type) : Option κ → Type
  | none => Bytes
  | some k => β k

end SVB
