import Verif.Model.Endian

/-!
# Big-endian runs are little-endian runs on memory with the bytes of every `uint32` reversed

`U` is the set of blocks that hold `uint32`s.
-/

set_option autoImplicit false

namespace SVB.En

/-- The address of the byte with the same weight in the other byte order. -/
def rev4 (o : Nat) : Nat := 4 * (o / 4) + (3 - o % 4)

theorem rev4_rev4 (o : Nat) : rev4 (rev4 o) = o := by unfold rev4; omega

variable (U : Block → Bool)

def revPtr (q : Ptr) : Ptr := if U q.blk then ⟨q.blk, rev4 q.off⟩ else q

theorem revPtr_revPtr (q : Ptr) : revPtr U (revPtr U q) = q := by
  unfold revPtr
  by_cases h : U q.blk
  · simp [h, rev4_rev4]
  · simp [h]

/-- Memory with the bytes of every `uint32` reversed. -/
def flip (m : Mem) : Mem := fun q => m (revPtr U q)

theorem flip_flip (m : Mem) : flip U (flip U m) = m := by
  funext q; simp only [flip, revPtr_revPtr]

theorem flip_set (m : Mem) (p : Ptr) (v : Byte) : flip U (m.set p v) = (flip U m).set (revPtr U p) v := by
  funext q
  simp only [flip, Mem.set]
  have : revPtr U q = p ↔ q = revPtr U p :=
    ⟨fun h => by rw [← h, revPtr_revPtr], fun h => by rw [h, revPtr_revPtr]⟩
  simp only [this]

/-- What a value must satisfy: slices of numbers lie in the blocks of numbers, aligned; slices of bytes elsewhere. -/
class Typed (α : Type) where
  ok : (Block → Bool) → α → Prop

instance : Typed U32s := ⟨fun U s => U s.blk = true ∧ s.off % 4 = 0⟩
instance : Typed Bytes := ⟨fun U s => U s.blk = false⟩
instance : Typed Unit := ⟨fun _ _ => True⟩
instance {n : Nat} : Typed (BitVec n) := ⟨fun _ _ => True⟩
instance : Typed Int := ⟨fun _ _ => True⟩
instance : Typed PutSt := ⟨fun _ _ => True⟩
instance : Typed GetSt := ⟨fun _ _ => True⟩
instance : Typed WSt := ⟨fun _ _ => True⟩
instance : Typed RSt := ⟨fun _ _ => True⟩
instance {α β : Type} [Typed α] [Typed β] : Typed (α × β) := ⟨fun U x => Typed.ok U x.1 ∧ Typed.ok U x.2⟩

/-- `p` does to memory what `q` does to the flipped memory. -/
structure Sim {α : Type} [Typed α] (p q : Prog α) : Prop where
  out : ∀ m, run p m = ((run q (flip U m)).1, flip U (run q (flip U m)).2) ∧
    ∀ a, (run q (flip U m)).1 = .ok a → Typed.ok U a

variable {U}

theorem Sim.ret {α : Type} [Typed α] (a : α) (h : Typed.ok U a) : Sim U (.ret a) (.ret a) := by
  constructor; intro m
  simp only [run, flip_flip]
  refine ⟨trivial, fun b hb => ?_⟩
  cases hb; exact h

theorem Sim.panic {α : Type} [Typed α] (k : Panic) : Sim U (.panic k : Prog α) (.panic k) := by
  constructor; intro m
  simp only [run, flip_flip]
  exact ⟨trivial, fun b hb => by cases hb⟩

theorem run_bind' {α β : Type} (p : Prog α) (f : α → Prog β) (m : Mem) :
    run (p.bind f) m = match run p m with
      | (.ok a, m') => run (f a) m'
      | (.panic k, m') => (.panic k, m') := by
  induction p generalizing m with
  | ret a => rfl
  | panic k => rfl
  | load p k ih => exact ih _ _
  | store p v k ih => exact ih _

theorem Sim.bind {α β : Type} [Typed α] [Typed β] {p q : Prog α} {f g : α → Prog β} (h : Sim U p q)
    (hf : ∀ a, Typed.ok U a → Sim U (f a) (g a)) : Sim U (p.bind f) (q.bind g) := by
  constructor; intro m
  obtain ⟨h1, h2⟩ := h.out m
  rw [run_bind', run_bind', h1]
  cases hq : run q (flip U m) with
  | mk r m' =>
    cases r with
    | ok a =>
      simp only
      rw [hq] at h2
      have := (hf a (h2 a rfl)).out (flip U m')
      rw [flip_flip] at this
      exact this
    | panic k =>
      simp only
      exact ⟨trivial, fun b hb => by cases hb⟩

theorem Sim.ite {α : Type} [Typed α] {c : Prop} [Decidable c] {p q p' q' : Prog α} (h : c → Sim U p q)
    (h' : ¬ c → Sim U p' q') : Sim U (if c then p else p') (if c then q else q') := by
  split
  · exact h ‹_›
  · exact h' ‹_›

theorem Sim.loop {σ : Type} [Typed σ] {cond : σ → Bool} {f g : σ → Prog σ}
    (h : ∀ s, Typed.ok U s → Sim U (f s) (g s)) (n : Nat) (s : σ) (hs : Typed.ok U s) :
    Sim U (SVB.loop n cond f s) (SVB.loop n cond g s) := by
  induction n generalizing s with
  | zero =>
    unfold SVB.loop
    exact Sim.ite (fun _ => Sim.panic _) (fun _ => Sim.ret _ hs)
  | succ n ih =>
    unfold SVB.loop
    exact Sim.ite (fun _ => Sim.bind (h s hs) fun a ha => ih a ha) (fun _ => Sim.ret _ hs)

theorem Sim.load8 (p : Ptr) (hp : U p.blk = false) : Sim U (SVB.load8 p) (SVB.load8 p) := by
  constructor; intro m
  simp only [SVB.load8, run, flip_flip]
  refine ⟨?_, fun _ _ => trivial⟩
  simp [flip, revPtr, hp]

theorem Sim.store8 (p : Ptr) (v : Byte) (hp : U p.blk = false) : Sim U (SVB.store8 p v) (SVB.store8 p v) := by
  constructor; intro m
  simp only [SVB.store8, run, flip_set, flip_flip]
  refine ⟨?_, fun _ _ => trivial⟩
  simp [revPtr, hp]

theorem Sim.getB (s : Bytes) (hs : Typed.ok U s) (i : Int) : Sim U (SVB.getB s i) (SVB.getB s i) :=
  Sim.ite (fun _ => Sim.load8 _ hs) (fun _ => Sim.panic _)

theorem Sim.setB (s : Bytes) (hs : Typed.ok U s) (i : Int) (v : Byte) : Sim U (SVB.setB s i v) (SVB.setB s i v) :=
  Sim.ite (fun _ => Sim.store8 _ _ hs) (fun _ => Sim.panic _)

theorem Sim.fromB (s : Bytes) (hs : Typed.ok U s) (a : Int) : Sim U (s.from a) (s.from a) :=
  Sim.ite (fun _ => Sim.ret _ hs) (fun _ => Sim.panic _)

theorem Sim.rangeB (s : Bytes) (hs : Typed.ok U s) (a b : Int) : Sim U (s.range a b) (s.range a b) :=
  Sim.ite (fun _ => Sim.ret _ hs) (fun _ => Sim.panic _)

theorem Sim.fromW (s : U32s) (hs : Typed.ok U s) (a : Int) : Sim U (s.from a) (s.from a) := by
  refine Sim.ite (fun _ => Sim.ret _ ⟨hs.1, ?_⟩) (fun _ => Sim.panic _)
  have := hs.2
  simp only
  omega

theorem Sim.rangeW (s : U32s) (hs : Typed.ok U s) (a b : Int) : Sim U (s.range a b) (s.range a b) := by
  refine Sim.ite (fun _ => Sim.ret _ ⟨hs.1, ?_⟩) (fun _ => Sim.panic _)
  have := hs.2
  simp only
  omega

theorem flip_at {m : Mem} {b : Block} {o k : Nat} (hb : U b = true) (ho : o % 4 = 0) (hk : k ≤ 3) :
    flip U m ⟨b, o + k⟩ = m ⟨b, o + (3 - k)⟩ := by
  simp only [flip, revPtr, hb, if_true, rev4]
  congr 2
  omega

theorem Sim.load32 (b : Block) (o : Nat) (hb : U b = true) (ho : o % 4 = 0) :
    Sim U (En.load32 .big ⟨b, o⟩) (SVB.load32 ⟨b, o⟩) := by
  constructor; intro m
  simp only [En.load32, SVB.load32, SVB.load8, run, Prog.bind_eq, Prog.pure_eq, Prog.bind, Ptr.add, flip_flip]
  refine ⟨?_, fun _ _ => trivial⟩
  have h0 := flip_at (m := m) (k := 0) hb ho (by omega)
  have h1 := flip_at (m := m) (k := 1) hb ho (by omega)
  have h2 := flip_at (m := m) (k := 2) hb ho (by omega)
  have h3 := flip_at (m := m) (k := 3) hb ho (by omega)
  simp only [Nat.add_zero] at h0
  rw [h0, h1, h2, h3]
  rfl

theorem Sim.store32 (b : Block) (o : Nat) (v : U32) (hb : U b = true) (ho : o % 4 = 0) :
    Sim U (En.store32 .big ⟨b, o⟩ v) (SVB.store32 ⟨b, o⟩ v) := by
  constructor; intro m
  simp only [En.store32, SVB.store32, SVB.store8, run, Prog.bind_eq, Prog.bind, Ptr.add, flip_set,
    flip_flip]
  refine ⟨?_, fun _ _ => trivial⟩
  have hr : ∀ k, k ≤ 3 → revPtr U ⟨b, o + k⟩ = ⟨b, o + (3 - k)⟩ := by
    intro k hk
    simp only [revPtr, hb, if_true, rev4, Ptr.mk.injEq, true_and]
    omega
  have h0 := hr 0 (by omega)
  simp only [Nat.add_zero] at h0
  rw [h0, hr 1 (by omega), hr 2 (by omega), hr 3 (by omega)]
  congr 1
  funext q
  simp only [Mem.set]
  by_cases q0 : q = ⟨b, o⟩
  · subst q0; simp
  · by_cases q1 : q = ⟨b, o + 1⟩
    · subst q1; simp
    · by_cases q2 : q = ⟨b, o + 2⟩
      · subst q2; simp
      · by_cases q3 : q = ⟨b, o + 3⟩
        · subst q3; simp
        · simp [q0, q1, q2, q3]

theorem Sim.getW (s : U32s) (hs : Typed.ok U s) (i : Int) : Sim U (En.getW .big s i) (SVB.getW s i) :=
  Sim.ite (fun _ => Sim.load32 _ _ hs.1 (by have := hs.2; omega)) (fun _ => Sim.panic _)

theorem Sim.setW (s : U32s) (hs : Typed.ok U s) (i : Int) (v : U32) : Sim U (En.setW .big s i v) (SVB.setW s i v) :=
  Sim.ite (fun _ => Sim.store32 _ _ _ hs.1 (by have := hs.2; omega)) (fun _ => Sim.panic _)

theorem Sim.zeroFill (p : Ptr) (hp : U p.blk = false) (n : Nat) : Sim U (SVB.zeroFill p n) (SVB.zeroFill p n) := by
  induction n generalizing p with
  | zero => exact Sim.ret _ trivial
  | succ n ih => exact Sim.bind (Sim.store8 _ _ hp) fun _ _ => ih _ hp

theorem Sim.makeBytes (b : Block) (hb : U b = false) (n : Int) : Sim U (SVB.makeBytes b n) (SVB.makeBytes b n) :=
  Sim.ite (fun _ => Sim.bind (Sim.zeroFill _ hb _) fun _ _ => Sim.ret _ hb) (fun _ => Sim.panic _)

/-- No table is in a block of numbers. -/
def NoConst (U : Block → Bool) : Prop := ∀ b, b.isConst = true → U b = false

theorem Sim.size (hU : NoConst U) (c : Byte) : Sim U (controlByteToSize c) (controlByteToSize c) :=
  Sim.bind (Sim.load8 _ (hU _ rfl)) fun _ _ => Sim.ret _ trivial

theorem Sim.row (hU : NoConst U) (c : Byte) : Sim U (perNumLenRow c) (perNumLenRow c) :=
  Sim.bind (Sim.load8 _ (hU _ rfl)) fun _ _ => Sim.bind (Sim.load8 _ (hU _ rfl)) fun _ _ =>
    Sim.bind (Sim.load8 _ (hU _ rfl)) fun _ _ => Sim.bind (Sim.load8 _ (hU _ rfl)) fun _ _ =>
      Sim.ret _ ⟨trivial, trivial, trivial, trivial⟩

/-- One step of a simulation: the values, the primitive accesses, or the branches. -/
macro "sim_one" : tactic => `(tactic|
  first
    | assumption
    | exact trivial
    | exact ⟨trivial, trivial⟩
    | exact ⟨trivial, trivial, trivial⟩
    | apply Sim.getB
    | apply Sim.setB
    | apply Sim.getW
    | apply Sim.setW
    | apply Sim.fromB
    | apply Sim.fromW
    | apply Sim.rangeB
    | apply Sim.rangeW
    | apply Sim.size
    | apply Sim.row
    | apply Sim.makeBytes
    | apply Sim.panic
    | apply Sim.ret
    | apply Sim.ite
    | apply Sim.loop
    | refine Sim.bind ?_ ?_
    | intro _ _
    | intro _)

theorem Sim.encodeOne (x : U32) (out : Bytes) (ho : Typed.ok U out) : Sim U (encodeOne x out) (encodeOne x out) := by
  unfold SVB.encodeOne
  simp only [Prog.bind_eq, Prog.pure_eq]
  repeat' sim_one

theorem Sim.decodeOne (b : Bytes) (c : Byte) (hb : Typed.ok U b) : Sim U (decodeOne b c) (decodeOne b c) := by
  unfold SVB.decodeOne
  simp only [Prog.bind_eq, Prog.pure_eq]
  repeat' sim_one

theorem Sim.putUvarint (b : Bytes) (x : U64) (hb : Typed.ok U b) : Sim U (putUvarint b x) (putUvarint b x) := by
  unfold SVB.putUvarint
  simp only [Prog.bind_eq, Prog.pure_eq]
  repeat' sim_one

theorem Sim.uvarintLoop (b : Bytes) (hb : Typed.ok U b) (r i : Nat) (x : U64) (s : Nat) :
    Sim U (uvarintLoop b r i x s) (uvarintLoop b r i x s) := by
  induction r generalizing i x s with
  | zero => exact Sim.ret _ ⟨trivial, trivial⟩
  | succ r ih =>
    unfold SVB.uvarintLoop
    simp only [Prog.bind_eq, Prog.pure_eq]
    repeat' first | apply ih | sim_one

theorem Sim.put4uint32Scalar (inn : U32s) (out : Bytes)
    (hinn : Typed.ok U inn) (hout : Typed.ok U out) : Sim U (En.put4uint32Scalar .big inn out) (SVB.put4uint32Scalar inn out) := by
  unfold En.put4uint32Scalar SVB.put4uint32Scalar
  simp only [Prog.bind_eq, Prog.pure_eq]
  repeat' first | apply Sim.encodeOne | sim_one

theorem Sim.put4uint32DeltaScalar (inn : U32s) (out : Bytes) (prev : U32)
    (hinn : Typed.ok U inn) (hout : Typed.ok U out) : Sim U (En.put4uint32DeltaScalar .big inn out prev) (SVB.put4uint32DeltaScalar inn out prev) := by
  unfold En.put4uint32DeltaScalar SVB.put4uint32DeltaScalar
  simp only [Prog.bind_eq, Prog.pure_eq]
  repeat' first | apply Sim.encodeOne | sim_one

theorem Sim.put8uint32Scalar (hU : NoConst U) (inn : U32s) (out : Bytes)
    (hinn : Typed.ok U inn) (hout : Typed.ok U out) : Sim U (En.put8uint32Scalar .big inn out) (SVB.put8uint32Scalar inn out) := by
  unfold En.put8uint32Scalar SVB.put8uint32Scalar
  simp only [Prog.bind_eq, Prog.pure_eq]
  repeat' first | apply Sim.put4uint32Scalar | sim_one

theorem Sim.put8uint32DeltaScalar (hU : NoConst U) (inn : U32s) (out : Bytes) (prev : U32)
    (hinn : Typed.ok U inn) (hout : Typed.ok U out) : Sim U (En.put8uint32DeltaScalar .big inn out prev) (SVB.put8uint32DeltaScalar inn out prev) := by
  unfold En.put8uint32DeltaScalar SVB.put8uint32DeltaScalar
  simp only [Prog.bind_eq, Prog.pure_eq]
  repeat' first | apply Sim.put4uint32DeltaScalar | sim_one

theorem Sim.putUint32Scalar (inn : U32s) (out : Bytes) (count : Int)
    (hinn : Typed.ok U inn) (hout : Typed.ok U out) : Sim U (En.putUint32Scalar .big inn out count) (SVB.putUint32Scalar inn out count) := by
  unfold En.putUint32Scalar SVB.putUint32Scalar
  simp only [Prog.bind_eq, Prog.pure_eq]
  repeat' first | apply Sim.encodeOne | sim_one

theorem Sim.putUint32DeltaScalar (inn : U32s) (out : Bytes) (count : Int) (prev : U32)
    (hinn : Typed.ok U inn) (hout : Typed.ok U out) : Sim U (En.putUint32DeltaScalar .big inn out count prev) (SVB.putUint32DeltaScalar inn out count prev) := by
  unfold En.putUint32DeltaScalar SVB.putUint32DeltaScalar
  simp only [Prog.bind_eq, Prog.pure_eq]
  repeat' first | apply Sim.encodeOne | sim_one

theorem Sim.get4uint32Scalar (hU : NoConst U) (inn : Bytes) (out : U32s) (ctrl : Byte)
    (hinn : Typed.ok U inn) (hout : Typed.ok U out) : Sim U (En.get4uint32Scalar .big inn out ctrl) (SVB.get4uint32Scalar inn out ctrl) := by
  unfold En.get4uint32Scalar SVB.get4uint32Scalar
  simp only [Prog.bind_eq, Prog.pure_eq]
  repeat' first | apply Sim.decodeOne | sim_one

theorem Sim.get4uint32DeltaScalar (hU : NoConst U) (inn : Bytes) (out : U32s) (ctrl : Byte) (prev : U32)
    (hinn : Typed.ok U inn) (hout : Typed.ok U out) : Sim U (En.get4uint32DeltaScalar .big inn out ctrl prev) (SVB.get4uint32DeltaScalar inn out ctrl prev) := by
  unfold En.get4uint32DeltaScalar SVB.get4uint32DeltaScalar
  simp only [Prog.bind_eq, Prog.pure_eq]
  repeat' first | apply Sim.decodeOne | sim_one

theorem Sim.get8uint32Scalar (hU : NoConst U) (inn : Bytes) (out : U32s) (ctrl : U16)
    (hinn : Typed.ok U inn) (hout : Typed.ok U out) : Sim U (En.get8uint32Scalar .big inn out ctrl) (SVB.get8uint32Scalar inn out ctrl) := by
  unfold En.get8uint32Scalar SVB.get8uint32Scalar
  simp only [Prog.bind_eq, Prog.pure_eq]
  repeat' first | apply Sim.get4uint32Scalar | sim_one

theorem Sim.get8uint32DeltaScalar (hU : NoConst U) (inn : Bytes) (out : U32s) (ctrl : U16) (prev : U32)
    (hinn : Typed.ok U inn) (hout : Typed.ok U out) : Sim U (En.get8uint32DeltaScalar .big inn out ctrl prev) (SVB.get8uint32DeltaScalar inn out ctrl prev) := by
  unfold En.get8uint32DeltaScalar SVB.get8uint32DeltaScalar
  simp only [Prog.bind_eq, Prog.pure_eq]
  repeat' first | apply Sim.get4uint32DeltaScalar | sim_one

theorem Sim.getUint32Scalar (inn : Bytes) (out : U32s) (ctrl : Byte) (count : Int)
    (hinn : Typed.ok U inn) (hout : Typed.ok U out) : Sim U (En.getUint32Scalar .big inn out ctrl count) (SVB.getUint32Scalar inn out ctrl count) := by
  unfold En.getUint32Scalar SVB.getUint32Scalar
  simp only [Prog.bind_eq, Prog.pure_eq]
  repeat' first | apply Sim.decodeOne | sim_one

theorem Sim.getUint32DeltaScalar (inn : Bytes) (out : U32s) (ctrl : Byte) (count : Int) (prev : U32)
    (hinn : Typed.ok U inn) (hout : Typed.ok U out) : Sim U (En.getUint32DeltaScalar .big inn out ctrl count prev) (SVB.getUint32DeltaScalar inn out ctrl count prev) := by
  unfold En.getUint32DeltaScalar SVB.getUint32DeltaScalar
  simp only [Prog.bind_eq, Prog.pure_eq]
  repeat' first | apply Sim.decodeOne | sim_one

theorem Sim.wsBody16 (hU : NoConst U) (inn : U32s) (stream : Bytes) (s : WSt)
    (hinn : Typed.ok U inn) (hstream : Typed.ok U stream) : Sim U (En.wsBody16 .big inn stream s) (SVB.wsBody16 inn stream s) := by
  unfold En.wsBody16 SVB.wsBody16
  simp only [Prog.bind_eq, Prog.pure_eq]
  repeat' first | apply Sim.put4uint32Scalar | sim_one

theorem Sim.wsBody4 (hU : NoConst U) (inn : U32s) (stream : Bytes) (s : WSt)
    (hinn : Typed.ok U inn) (hstream : Typed.ok U stream) : Sim U (En.wsBody4 .big inn stream s) (SVB.wsBody4 inn stream s) := by
  unfold En.wsBody4 SVB.wsBody4
  simp only [Prog.bind_eq, Prog.pure_eq]
  repeat' first | apply Sim.put4uint32Scalar | sim_one

theorem Sim.writeAllScalar (hU : NoConst U) (fresh : Block) (inn : U32s)
    (hf : U fresh = false) (hinn : Typed.ok U inn) : Sim U (En.writeAllScalar .big fresh inn) (SVB.writeAllScalar fresh inn) := by
  unfold En.writeAllScalar SVB.writeAllScalar
  simp only [Prog.bind_eq, Prog.pure_eq]
  repeat' first | apply Sim.wsBody16 | apply Sim.wsBody4 | apply Sim.putUint32Scalar | sim_one

theorem Sim.wdsBody16 (hU : NoConst U) (inn : U32s) (stream : Bytes) (s : WSt)
    (hinn : Typed.ok U inn) (hstream : Typed.ok U stream) : Sim U (En.wdsBody16 .big inn stream s) (SVB.wdsBody16 inn stream s) := by
  unfold En.wdsBody16 SVB.wdsBody16
  simp only [Prog.bind_eq, Prog.pure_eq]
  repeat' first | apply Sim.put4uint32DeltaScalar | sim_one

theorem Sim.wdsBody4 (hU : NoConst U) (inn : U32s) (stream : Bytes) (s : WSt)
    (hinn : Typed.ok U inn) (hstream : Typed.ok U stream) : Sim U (En.wdsBody4 .big inn stream s) (SVB.wdsBody4 inn stream s) := by
  unfold En.wdsBody4 SVB.wdsBody4
  simp only [Prog.bind_eq, Prog.pure_eq]
  repeat' first | apply Sim.put4uint32DeltaScalar | sim_one

theorem Sim.writeAllDeltaScalar (hU : NoConst U) (fresh : Block) (inn : U32s) (prev : U32)
    (hf : U fresh = false) (hinn : Typed.ok U inn) : Sim U (En.writeAllDeltaScalar .big fresh inn prev) (SVB.writeAllDeltaScalar fresh inn prev) := by
  unfold En.writeAllDeltaScalar SVB.writeAllDeltaScalar
  simp only [Prog.bind_eq, Prog.pure_eq]
  repeat' first | apply Sim.wdsBody16 | apply Sim.wdsBody4 | apply Sim.putUint32DeltaScalar | sim_one

theorem Sim.rsBody16 (hU : NoConst U) (stream : Bytes) (out : U32s) (s : RSt)
    (hstream : Typed.ok U stream) (hout : Typed.ok U out) : Sim U (En.rsBody16 .big stream out s) (SVB.rsBody16 stream out s) := by
  unfold En.rsBody16 SVB.rsBody16
  simp only [Prog.bind_eq, Prog.pure_eq]
  repeat' first | apply Sim.get4uint32Scalar | sim_one

theorem Sim.rsBody4 (hU : NoConst U) (stream : Bytes) (out : U32s) (s : RSt)
    (hstream : Typed.ok U stream) (hout : Typed.ok U out) : Sim U (En.rsBody4 .big stream out s) (SVB.rsBody4 stream out s) := by
  unfold En.rsBody4 SVB.rsBody4
  simp only [Prog.bind_eq, Prog.pure_eq]
  repeat' first | apply Sim.get4uint32Scalar | sim_one

theorem Sim.readAllScalar (hU : NoConst U) (count : Int) (stream : Bytes) (out : U32s)
    (hstream : Typed.ok U stream) (hout : Typed.ok U out) : Sim U (En.readAllScalar .big count stream out) (SVB.readAllScalar count stream out) := by
  unfold En.readAllScalar SVB.readAllScalar
  simp only [Prog.bind_eq, Prog.pure_eq]
  repeat' first | apply Sim.rsBody16 | apply Sim.rsBody4 | apply Sim.getUint32Scalar | sim_one

theorem Sim.rdsBody16 (hU : NoConst U) (stream : Bytes) (out : U32s) (s : RSt)
    (hstream : Typed.ok U stream) (hout : Typed.ok U out) : Sim U (En.rdsBody16 .big stream out s) (SVB.rdsBody16 stream out s) := by
  unfold En.rdsBody16 SVB.rdsBody16
  simp only [Prog.bind_eq, Prog.pure_eq]
  repeat' first | apply Sim.get4uint32DeltaScalar | sim_one

theorem Sim.rdsBody4 (hU : NoConst U) (stream : Bytes) (out : U32s) (s : RSt)
    (hstream : Typed.ok U stream) (hout : Typed.ok U out) : Sim U (En.rdsBody4 .big stream out s) (SVB.rdsBody4 stream out s) := by
  unfold En.rdsBody4 SVB.rdsBody4
  simp only [Prog.bind_eq, Prog.pure_eq]
  repeat' first | apply Sim.get4uint32DeltaScalar | sim_one

theorem Sim.readAllDeltaScalar (hU : NoConst U) (count : Int) (stream : Bytes) (out : U32s) (prev : U32)
    (hstream : Typed.ok U stream) (hout : Typed.ok U out) : Sim U (En.readAllDeltaScalar .big count stream out prev) (SVB.readAllDeltaScalar count stream out prev) := by
  unfold En.readAllDeltaScalar SVB.readAllDeltaScalar
  simp only [Prog.bind_eq, Prog.pure_eq]
  repeat' first | apply Sim.rdsBody16 | apply Sim.rdsBody4 | apply Sim.getUint32DeltaScalar | sim_one

theorem Sim.putVarint (nums : U32s) (out : Bytes)
    (hnums : Typed.ok U nums) (hout : Typed.ok U out) : Sim U (En.putVarint .big nums out) (SVB.putVarint nums out) := by
  unfold En.putVarint SVB.putVarint
  simp only [Prog.bind_eq, Prog.pure_eq]
  repeat' first | apply Sim.putUvarint | sim_one

theorem Sim.putDeltaVarint (nums : U32s) (out : Bytes) (prev : U32)
    (hnums : Typed.ok U nums) (hout : Typed.ok U out) : Sim U (En.putDeltaVarint .big nums out prev) (SVB.putDeltaVarint nums out prev) := by
  unfold En.putDeltaVarint SVB.putDeltaVarint
  simp only [Prog.bind_eq, Prog.pure_eq]
  repeat' first | apply Sim.putUvarint | sim_one

theorem Sim.getVarint (data : Bytes) (out : U32s)
    (hdata : Typed.ok U data) (hout : Typed.ok U out) : Sim U (En.getVarint .big data out) (SVB.getVarint data out) := by
  unfold En.getVarint SVB.getVarint uvarint
  simp only [Prog.bind_eq, Prog.pure_eq]
  repeat' first | apply Sim.uvarintLoop | sim_one

theorem Sim.getDeltaVarint (data : Bytes) (out : U32s) (prev : U32)
    (hdata : Typed.ok U data) (hout : Typed.ok U out) : Sim U (En.getDeltaVarint .big data out prev) (SVB.getDeltaVarint data out prev) := by
  unfold En.getDeltaVarint SVB.getDeltaVarint uvarint
  simp only [Prog.bind_eq, Prog.pure_eq]
  repeat' first | apply Sim.uvarintLoop | sim_one

theorem Sim.utilDelta (inn out : U32s)
    (hinn : Typed.ok U inn) (hout : Typed.ok U out) : Sim U (En.utilDelta .big inn out) (SVB.utilDelta inn out) := by
  unfold En.utilDelta SVB.utilDelta
  simp only [Prog.bind_eq, Prog.pure_eq]
  repeat' sim_one

end SVB.En
