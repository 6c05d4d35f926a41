import Verif.Proofs.OnlyUtil
import Verif.Props.Cost
import Verif.Props.Races

/-! # C78: the other functions, on any arguments and next to each other

C12, C29 and C47 for the functions not covered there: what package `util` can touch on any arguments, also while others change
them, and concurrent calls of all functions of the library. -/

set_option autoImplicit false

namespace SVB.Props
open Spec Asm

/-! ## Package `util` on any arguments -/

/-- Loads: the elements of `src`; stores: the elements of `dst`. -/
def elems {e f : Nat} (src : Slice e) (dst : Slice f) : Elems := ⟨inSlice src, inSlice dst⟩

theorem elems_src {e f : Nat} {src : Slice e} {dst : Slice f} {m : Mem} (h : AnyArgs src dst m) :
    RdE (elems src dst) src := ⟨h.src_cap, fun _ a b c => ⟨a, b, c⟩⟩
theorem elems_dst {e f : Nat} {src : Slice e} {dst : Slice f} {m : Mem} (h : AnyArgs src dst m) :
    WrE (elems src dst) dst := ⟨h.dst_cap, fun _ a b c => ⟨a, b, c⟩⟩

private theorem stays_only {α : Type} {F : Elems} {p : Prog α} {Q : α → Prop} (h : Only F p Q) (m : Mem) :
    Stays p m F.R F.W := by
  have hw := (wp_iff _ _ _ _).1 (only_wp h m)
  refine ⟨fun q hq => hw.1 _ hq, fun q hq => hw.1 _ hq, fun k m' hr => ?_⟩
  have := hw.2
  rw [hr] at this
  exact this

private theorem race {α : Type} {F : Elems} {p : Prog α} {Q : α → Prop} {S : Nat → α → Prop} {k : Nat} {m : Mem}
    (h : Only F p Q) (hb : Bd S k p) : RaceSafe p m F.R F.W BoundsPanic Q k :=
  ⟨fun _ _ _ hr => (hr.only h).1, fun _ _ _ hr => (hr.only h).2.1, fun _ _ _ hr => (hr.only h).2.2,
    fun _ _ _ hr => (hr.only h).2.2, fun _ _ _ hr => hr.bd hb⟩

/-- `PutVarint`, `PutDeltaVarint` and `Delta`: any slices, which may overlap.  They end normally or with a bounds panic and
do not leave the elements of the slices. -/
theorem C78_put {nums : U32s} {out : Bytes} {m : Mem} (prev : U32) (h : AnyArgs nums out m) :
    Stays (putVarint nums out) m (inSlice nums) (inSlice out) ∧
    Stays (putDeltaVarint nums out prev) m (inSlice nums) (inSlice out) :=
  ⟨stays_only (only_putVarint (elems_src h) (elems_dst h)) m, stays_only (only_putDeltaVarint (elems_src h) (elems_dst h)) m⟩

/-- `GetVarint` and `GetDeltaVarint`: any data. -/
theorem C78_get {data : Bytes} {out : U32s} {m : Mem} (prev : U32) (h : AnyArgs data out m) :
    Stays (getVarint data out) m (inSlice data) (inSlice out) ∧
    Stays (getDeltaVarint data out prev) m (inSlice data) (inSlice out) :=
  ⟨stays_only (only_getVarint (elems_src h) (elems_dst h)) m, stays_only (only_getDeltaVarint (elems_src h) (elems_dst h)) m⟩

/-- `Delta`. -/
theorem C78_delta {inn out : U32s} {m : Mem} (h : AnyArgs inn out m) :
    Stays (utilDelta inn out) m (inSlice inn) (inSlice out) :=
  stays_only (only_utilDelta (elems_src h) (elems_dst h)) m

/-- The same while other goroutines change the slices. -/
theorem C78_raced {nums out' : U32s} {data : Bytes} {m : Mem} (prev : U32) (h : AnyArgs nums data m) (h' : AnyArgs data nums m)
    (h'' : AnyArgs nums out' m) :
    RaceSafe (putVarint nums data) m (inSlice nums) (inSlice data) BoundsPanic (fun _ => True) (14 * nums.len) ∧
    RaceSafe (putDeltaVarint nums data prev) m (inSlice nums) (inSlice data) BoundsPanic (fun _ => True) (18 * nums.len) ∧
    RaceSafe (getVarint data nums) m (inSlice data) (inSlice nums) BoundsPanic (fun _ => True) (15 * (nums.len + 1)) ∧
    RaceSafe (getDeltaVarint data nums prev) m (inSlice data) (inSlice nums) BoundsPanic (fun _ => True)
      (15 * (nums.len + 1)) ∧
    RaceSafe (utilDelta nums out') m (inSlice nums) (inSlice out') BoundsPanic (fun _ => True) (12 * nums.len) :=
  ⟨race (only_putVarint (elems_src h) (elems_dst h)) (cost_putVarint _ _),
    race (only_putDeltaVarint (elems_src h) (elems_dst h)) (cost_putDeltaVarint _ _ _),
    race (only_getVarint (elems_src h') (elems_dst h')) (cost_getVarint _ _),
    race (only_getDeltaVarint (elems_src h') (elems_dst h')) (cost_getDeltaVarint _ _ _),
    race (only_utilDelta (elems_src h'') (elems_dst h'')) (cost_utilDelta _ _)⟩

/-! ## Calls of the block functions and of package `util` -/

/-- One call. -/
inductive Op where
  | put4 (inn : U32s) (out : Bytes)
  | put4Delta (inn : U32s) (out : Bytes) (prev : U32)
  | put8 (f : Fn) (inn : U32s) (out : Bytes)
  | put8Delta (f : Fn) (inn : U32s) (out : Bytes) (prev : U32)
  | put (inn : U32s) (out : Bytes) (count : Int)
  | putDelta (inn : U32s) (out : Bytes) (count : Int) (prev : U32)
  | get4 (inn : Bytes) (out : U32s) (ctrl : Byte)
  | get4Delta (inn : Bytes) (out : U32s) (ctrl : Byte) (prev : U32)
  | get8 (f : Fn) (inn : Bytes) (out : U32s) (ctrl : U16)
  | get8Delta (f : Fn) (inn : Bytes) (out : U32s) (ctrl : U16) (prev : U32)
  | get (inn : Bytes) (out : U32s) (ctrl : Byte) (count : Int)
  | getDelta (inn : Bytes) (out : U32s) (ctrl : Byte) (count : Int) (prev : U32)
  | putVarint (nums : U32s) (out : Bytes)
  | putDeltaVarint (nums : U32s) (out : Bytes) (prev : U32)
  | getVarint (data : Bytes) (out : U32s)
  | getDeltaVarint (data : Bytes) (out : U32s) (prev : U32)
  | delta (inn out : U32s)

def Op.Res : Op → Type
  | .put4 .. | .put4Delta .. | .put .. | .putDelta .. => Byte
  | .put8 .. | .put8Delta .. => U16
  | .get4 .. | .get4Delta .. | .get8 .. | .get8Delta .. | .delta .. => Unit
  | .get .. | .getDelta .. | .putVarint .. | .putDeltaVarint .. | .getVarint .. | .getDeltaVarint .. => Int

def Op.prog : (o : Op) → Prog o.Res
  | .put4 inn out => put4uint32Scalar inn out
  | .put4Delta inn out prev => put4uint32DeltaScalar inn out prev
  | .put8 f inn out => f.put8 inn out
  | .put8Delta f inn out prev => f.put8Delta inn out prev
  | .put inn out count => putUint32Scalar inn out count
  | .putDelta inn out count prev => putUint32DeltaScalar inn out count prev
  | .get4 inn out ctrl => get4uint32Scalar inn out ctrl
  | .get4Delta inn out ctrl prev => get4uint32DeltaScalar inn out ctrl prev
  | .get8 f inn out ctrl => f.get8 inn out ctrl
  | .get8Delta f inn out ctrl prev => f.get8Delta inn out ctrl prev
  | .get inn out ctrl count => getUint32Scalar inn out ctrl count
  | .getDelta inn out ctrl count prev => getUint32DeltaScalar inn out ctrl count prev
  | .putVarint nums out => SVB.putVarint nums out
  | .putDeltaVarint nums out prev => SVB.putDeltaVarint nums out prev
  | .getVarint data out => SVB.getVarint data out
  | .getDeltaVarint data out prev => SVB.getDeltaVarint data out prev
  | .delta inn out => utilDelta inn out

/-- Any arguments: nothing is assumed but what Go guarantees of slices. -/
def Op.Pre (m : Mem) : Op → Prop
  | .put4 src dst | .put4Delta src dst _ | .put8 _ src dst | .put8Delta _ src dst _ | .put src dst _ | .putDelta src dst _ _
  | .putVarint src dst | .putDeltaVarint src dst _ => AnyArgs src dst m
  | .get4 src dst _ | .get4Delta src dst _ _ | .get8 _ src dst _ | .get8Delta _ src dst _ _ | .get src dst _ _
  | .getDelta src dst _ _ _ | .getVarint src dst | .getDeltaVarint src dst _ => AnyArgs src dst m
  | .delta src dst => AnyArgs src dst m

/-- The assembly does not look at lengths: it touches 32 bytes from the start. -/
def reach {e : Nat} (f : Fn) (s : Slice e) (q : Ptr) : Prop :=
  match f with
  | .scalar => inCap s q
  | .fast => next32 s q
  | .auto _ => inCap s q ∨ next32 s q

/-- What a call reads besides the tables and its own output. -/
def Op.source : Op → Ptr → Prop
  | .put4 src _ | .put4Delta src _ _ | .put src _ _ | .putDelta src _ _ _ => inCap src
  | .put8 f src _ | .put8Delta f src _ _ => reach f src
  | .get4 src _ _ | .get4Delta src _ _ _ | .get src _ _ _ | .getDelta src _ _ _ _ => inCap src
  | .get8 f src _ _ | .get8Delta f src _ _ _ => reach f src
  | .putVarint src _ | .putDeltaVarint src _ _ | .delta src _ => inSlice src
  | .getVarint src _ | .getDeltaVarint src _ _ => inSlice src

/-- What a call writes. -/
def Op.target : Op → Ptr → Prop
  | .put4 _ dst | .put4Delta _ dst _ | .put _ dst _ | .putDelta _ dst _ _ => inCap dst
  | .put8 f _ dst | .put8Delta f _ dst _ => reach f dst
  | .get4 _ dst _ | .get4Delta _ dst _ _ | .get _ dst _ _ | .getDelta _ dst _ _ _ => inCap dst
  | .get8 f _ dst _ | .get8Delta f _ dst _ _ => reach f dst
  | .putVarint _ dst | .putDeltaVarint _ dst _ => inSlice dst
  | .getVarint _ dst | .getDeltaVarint _ dst _ | .delta _ dst => inSlice dst

/-- Turns after which a call has finished. -/
def Op.turns : Op → Nat
  | .put4 .. | .get4 .. => 36
  | .put4Delta .. | .putDelta .. => 48
  | .get4Delta .. => 52
  | .put .. | .get .. | .getDelta .. => 32
  | .put8 .. | .put8Delta .. => 101
  | .get8 .. => 97
  | .get8Delta .. => 109
  | .putVarint nums _ => 9 * nums.len
  | .putDeltaVarint nums _ _ => 13 * nums.len
  | .getVarint _ out | .getDeltaVarint _ out _ => 15 * (out.len + 1)
  | .delta inn _ => 12 * inn.len

theorem Op.work_le_turns (o : Op) (m : Mem) : (trace o.prog m).length ≤ o.turns := by
  cases o with
  | put4 inn out => exact (C45_small inn out 0 0 0 m).1
  | put4Delta inn out prev => exact (C45_small inn out 0 0 prev m).2.1
  | get4 inn out c => exact (C45_small out inn c 0 0 m).2.2.1
  | get4Delta inn out c prev => exact (C45_small out inn c 0 prev m).2.2.2.1
  | put inn out count => exact (C45_small inn out 0 count 0 m).2.2.2.2.1
  | putDelta inn out count prev => exact (C45_small inn out 0 count prev m).2.2.2.2.2.1
  | get inn out c count => exact (C45_small out inn c count 0 m).2.2.2.2.2.2.1
  | getDelta inn out c count prev => exact (C45_small out inn c count prev m).2.2.2.2.2.2.2
  | put8 f inn out => exact (C45_eight f inn out 0 0 m).1
  | put8Delta f inn out prev => exact (C45_eight f inn out 0 prev m).2.1
  | get8 f inn out c => exact (C45_eight f out inn c 0 m).2.2.1
  | get8Delta f inn out c prev => exact (C45_eight f out inn c prev m).2.2.2
  | putVarint nums out => exact (C77_putVarint nums out 0 m).1
  | putDeltaVarint nums out prev => exact (C77_putVarint nums out prev m).2
  | getVarint data out => exact (C45_util out out data 0 m).2.2.1
  | getDeltaVarint data out prev => exact (C45_util out out data prev m).2.2.2.1
  | delta inn out => exact (C45_util inn out ⟨.heap 0, 0, 0, 0⟩ 0 m).2.2.2.2

private theorem allowed {α : Type} {p : Prog α} {m : Mem} {R W R' W' : Ptr → Prop} (h : Stays p m R W)
    (hR : ∀ q, R q → R' q) (hW : ∀ q, W q → W' q) : ∀ e ∈ trace p m, (Ctx.mk R' W' fun _ _ => True).allows e := by
  intro e he
  cases e with
  | rd q => exact hR q (h.loads q he)
  | wr q => exact hW q (h.stores q he)

private theorem allowedAsm {α : Type} {F : Fp} {P : Panic → Prop} {p : Prog α} {Q : α → Prop} (h : TriP P F p Q) {m : Mem}
    (hT : TablesLoaded m) {R W : Ptr → Prop} (hR : ∀ q, F.R q → R q) (hW : ∀ q, F.W q → W q) :
    ∀ e ∈ trace p m, (Ctx.mk R W fun _ _ => True).allows e := by
  have hw := (wp_iff _ _ _ _).1 (tri_wp h m hT)
  intro e he
  cases e with
  | rd q => exact hR q (hw.1 _ he)
  | wr q => exact hW q (hw.1 _ he)

private def asmFp {e f : Nat} (src : Slice e) (dst : Slice f) (h : dst.blk.isConst = false) : Fp where
  R q := next32 src q ∨ inTables q
  W := next32 dst
  tabs _ h := .inr h
  heap q hq := by rw [hq.1]; exact h

/-- The accesses of a call, alone. -/
def Op.Foot (o : Op) (m : Mem) : Prop :=
  ∀ e ∈ trace o.prog m, (Ctx.mk (fun q => o.source q ∨ inTables q ∨ o.target q) o.target fun _ _ => True).allows e

private theorem or3 {A B C : Ptr → Prop} (q : Ptr) : A q ∨ B q → A q ∨ B q ∨ C q := fun h => h.elim .inl fun h => .inr (.inl h)

private theorem or3' {A B C : Ptr → Prop} (q : Ptr) : A q ∨ C q ∨ B q → A q ∨ B q ∨ C q :=
  fun h => h.elim .inl fun h => .inr h.symm

private theorem put8_foot (f : Fn) {inn : U32s} {out : Bytes} {m : Mem} (prev : U32) (h : AnyArgs inn out m) :
    (Op.put8 f inn out).Foot m ∧ (Op.put8Delta f inn out prev).Foot m := by
  have s1 := C12_put8 h
  have s2 := C12_put8Delta prev h
  have f1 : TriP (fun _ => False) (asmFp inn out h.heap) (put8uint32Fast inn out) (fun _ => True) :=
    tri_put8F (fun _ a b c => .inl ⟨a, b, c⟩) (fun _ a b c => ⟨a, b, c⟩)
  have f2 : TriP (fun _ => False) (asmFp inn out h.heap) (put8uint32DeltaFast inn out prev) (fun _ => True) :=
    tri_put8DF (fun _ a b c => .inl ⟨a, b, c⟩) (fun _ a b c => ⟨a, b, c⟩)
  cases f with
  | scalar => exact ⟨allowed s1 or3 fun _ h => h, allowed s2 or3 fun _ h => h⟩
  | fast => exact ⟨allowedAsm f1 h.tables or3 fun _ h => h, allowedAsm f2 h.tables or3 fun _ h => h⟩
  | auto c =>
    have a1 : ∀ e ∈ trace (put8uint32 c inn out) m, (Ctx.mk (fun q => reach (.auto c) inn q ∨ inTables q ∨ reach (.auto c) out q)
        (reach (.auto c) out) fun _ _ => True).allows e := by
      intro e
      rcases put8uint32_cases c inn out with e' | e' <;> rw [e']
      · exact allowedAsm f1 h.tables (fun q h => or3 q (h.imp .inr id)) (fun _ => .inr) e
      · exact allowed s1 (fun q h => or3 q (h.imp .inl id)) (fun _ => .inl) e
    have a2 : ∀ e ∈ trace (put8uint32Delta c inn out prev) m, (Ctx.mk (fun q => reach (.auto c) inn q ∨ inTables q ∨ reach (.auto c) out q)
        (reach (.auto c) out) fun _ _ => True).allows e := by
      intro e
      rcases put8uint32Delta_cases c inn out prev with e' | e' <;> rw [e']
      · exact allowedAsm f2 h.tables (fun q h => or3 q (h.imp .inr id)) (fun _ => .inr) e
      · exact allowed s2 (fun q h => or3 q (h.imp .inl id)) (fun _ => .inl) e
    exact ⟨a1, a2⟩

private theorem get8_foot (f : Fn) {inn : Bytes} {out : U32s} {m : Mem} (ctrl : U16) (prev : U32) (h : AnyArgs inn out m) :
    (Op.get8 f inn out ctrl).Foot m ∧ (Op.get8Delta f inn out ctrl prev).Foot m := by
  have s1 := C12_get8 ctrl h
  have s2 := C12_get8Delta ctrl prev h
  have f1 : TriP (fun _ => False) (asmFp inn out h.heap) (get8uint32Fast inn out ctrl) (fun _ => True) :=
    tri_get8F (fun _ a b c => .inl ⟨a, b, c⟩) (fun _ a b c => ⟨a, b, c⟩)
  have f2 : TriP (fun _ => False) (asmFp inn out h.heap) (get8uint32DeltaFast inn out ctrl prev) (fun _ => True) :=
    tri_get8DF (fun _ a b c => .inl ⟨a, b, c⟩) (fun _ a b c => ⟨a, b, c⟩)
  cases f with
  | scalar => exact ⟨allowed s1 or3 fun _ h => h, allowed s2 or3' fun _ h => h⟩
  | fast => exact ⟨allowedAsm f1 h.tables or3 fun _ h => h, allowedAsm f2 h.tables or3 fun _ h => h⟩
  | auto c =>
    have a1 : ∀ e ∈ trace (get8uint32 c inn out ctrl) m, (Ctx.mk (fun q => reach (.auto c) inn q ∨ inTables q ∨ reach (.auto c) out q)
        (reach (.auto c) out) fun _ _ => True).allows e := by
      intro e
      rcases get8uint32_cases c inn out ctrl with e' | e' <;> rw [e']
      · exact allowedAsm f1 h.tables (fun q h => or3 q (h.imp .inr id)) (fun _ => .inr) e
      · exact allowed s1 (fun q h => or3 q (h.imp .inl id)) (fun _ => .inl) e
    have a2 : ∀ e ∈ trace (get8uint32Delta c inn out ctrl prev) m, (Ctx.mk (fun q => reach (.auto c) inn q ∨ inTables q ∨ reach (.auto c) out q)
        (reach (.auto c) out) fun _ _ => True).allows e := by
      intro e
      rcases get8uint32Delta_cases c inn out ctrl prev with e' | e' <;> rw [e']
      · exact allowedAsm f2 h.tables (fun q h => or3 q (h.imp .inr id)) (fun _ => .inr) e
      · exact allowed s2 (fun q h => or3' q (h.imp .inl (·.imp .inl id))) (fun _ => .inl) e
    exact ⟨a1, a2⟩

/-- A call with any arguments reads its source, the tables and its own output, and writes its output. -/
theorem C78_foot (o : Op) {m : Mem} (h : o.Pre m) : o.Foot m := by
  cases o with
  | put4 inn out => exact allowed (C12_put4 h) or3 fun _ h => h
  | put4Delta inn out prev => exact allowed (C12_put4Delta prev h) or3 fun _ h => h
  | get4 inn out c => exact allowed (C12_get4 c h) or3 fun _ h => h
  | get4Delta inn out c prev => exact allowed (C12_get4Delta c prev h) or3' fun _ h => h
  | put inn out count => exact allowed (C12_putUint32 count h) or3 fun _ h => h
  | putDelta inn out count prev => exact allowed (C12_putUint32Delta count prev h) or3 fun _ h => h
  | get inn out c count => exact allowed (C12_getUint32 c count h) or3 fun _ h => h
  | getDelta inn out c count prev => exact allowed (C12_getUint32Delta c count prev h) or3 fun _ h => h
  | put8 f inn out => exact (put8_foot f 0 h).1
  | put8Delta f inn out prev => exact (put8_foot f prev h).2
  | get8 f inn out c => exact (get8_foot f c 0 h).1
  | get8Delta f inn out c prev => exact (get8_foot f c prev h).2
  | putVarint nums out => exact allowed (C78_put 0 h).1 (fun _ => .inl) fun _ h => h
  | putDeltaVarint nums out prev => exact allowed (C78_put prev h).2 (fun _ => .inl) fun _ h => h
  | getVarint data out => exact allowed (C78_get 0 h).1 (fun _ => .inl) fun _ h => h
  | getDeltaVarint data out prev => exact allowed (C78_get prev h).2 (fun _ => .inl) fun _ h => h
  | delta inn out => exact allowed (C78_delta h) (fun _ => .inl) fun _ h => h

private theorem reach_blk {e : Nat} {f : Fn} {s : Slice e} {q : Ptr} (h : reach f s q) : q.blk = s.blk := by
  cases f with
  | scalar => exact h.1
  | fast => exact h.1
  | auto c => exact h.elim (·.1) (·.1)

private theorem Op.target_heap (o : Op) {m : Mem} (h : o.Pre m) {q : Ptr} (hq : o.target q) : ¬ inTables q := by
  have key : q.blk.isConst = false → ¬ inTables q := by
    intro h1 h2
    unfold inTables at h2
    cases hb : q.blk <;> simp [hb, Block.isConst] at h1 h2
  apply key
  cases o with
  | put8 f inn out => rw [reach_blk hq]; exact h.heap
  | put8Delta f inn out prev => rw [reach_blk hq]; exact h.heap
  | get8 f inn out c => rw [reach_blk hq]; exact h.heap
  | get8Delta f inn out c prev => rw [reach_blk hq]; exact h.heap
  | _ => rw [hq.1]; exact h.heap

/-! ## All functions together -/

/-- A call of a stream function (as in C29), of a block function or of a function of package `util`. -/
inductive Job where
  | stream (c : Call)
  | op (o : Op)

def Job.Res : Job → Type
  | .stream c => c.Res
  | .op o => o.Res

def Job.prog : (j : Job) → Prog j.Res
  | .stream c => c.prog
  | .op o => o.prog

def Job.Pre (m : Mem) : Job → Prop
  | .stream c => c.Pre m
  | .op o => o.Pre m

def Job.source (m : Mem) : Job → Ptr → Prop
  | .stream c => c.source m
  | .op o => o.source

def Job.target : Job → Ptr → Prop
  | .stream c => c.target
  | .op o => o.target

def Job.turns : Job → Nat
  | .stream c => c.turns
  | .op o => o.turns

/-- Any number of calls of any functions of the library at the same time, with private outputs: no call writes where another
reads or writes.  Under every schedule that gives each call `Job.turns` turns, each ends with the outcome (result or panic) it
would have alone, its output holds what it would hold had it run alone, and memory that belongs to no output is unchanged. -/
theorem C78_as_if_alone {ι : Type} [DecidableEq ι] (jobs : ι → Job) (m : Mem) (hpre : ∀ i, (jobs i).Pre m)
    (hpriv : ∀ i j q, i ≠ j → (jobs i).target q → ¬ (jobs j).source m q ∧ ¬ (jobs j).target q) (sched : List ι)
    (hfair : ∀ i, (jobs i).turns ≤ sched.count i) :
    (∀ i, (Conf.exec ⟨fun i => (jobs i).prog, m⟩ sched).prog i = (run (jobs i).prog m).1.done ∧
      ∀ q, (jobs i).target q →
        (Conf.exec ⟨fun i => (jobs i).prog, m⟩ sched).mem q = (run (jobs i).prog m).2 q) ∧
    ∀ q, (∀ i, ¬ (jobs i).target q) → (Conf.exec ⟨fun i => (jobs i).prog, m⟩ sched).mem q = m q := by
  have hh : ∀ (j : Job) {q : Ptr}, j.Pre m → j.target q → ¬ inTables q := by
    intro j q h hq
    cases j with
    | stream c => exact Call.target_heap c h hq
    | op o => exact o.target_heap h hq
  have hs : Separate (fun i q => (jobs i).source m q ∨ inTables q ∨ (jobs i).target q)
      (fun i => (jobs i).target) := by
    refine ⟨fun i j q hij hw => ?_, fun i j q hij hw => (hpriv i j q hij hw).2⟩
    rintro (h | h | h)
    · exact (hpriv i j q hij hw).1 h
    · exact hh _ (hpre i) hw h
    · exact (hpriv i j q hij hw).2 h
  have hf : ∀ (j : Job), j.Pre m → ∀ e ∈ trace j.prog m,
      (Ctx.mk (fun q => j.source m q ∨ inTables q ∨ j.target q) j.target fun _ _ => True).allows e := by
    intro j h
    cases j with
    | stream c => exact Call.foot c h
    | op o => exact C78_foot o h
  have ht : ∀ (j : Job), j.Pre m → (trace j.prog m).length ≤ j.turns := by
    intro j h
    cases j with
    | stream c => exact Call.work_le_turns c h
    | op o => exact Op.work_le_turns o m
  have := noninterference hs (p := fun i => (jobs i).prog) (m := m) (fun i => hf _ (hpre i)) sched
    (fun i => Nat.le_trans (ht _ (hpre i)) (hfair i))
  exact ⟨fun i => ⟨(this.1 i).1, fun q hq => (this.1 i).2 q (.inr hq)⟩, this.2⟩

/-! ## Examples -/

-- bad arguments: overlapping, too short
example := C78_get 7 exBad
example := C78_put 7 exBadPut
example : (run (getVarint exBadStream exBadOut) exBadMem).1 = .panic .index := by decide +kernel

/-- Four goroutines: one decodes eight numbers of a stream with whatever the CPU has, one turns the numbers another allocation
holds into varints, one takes their differences, and one reads the whole stream. -/
def exJobs : Fin 4 → Job
  | 0 => .op (.get8 (.auto ⟨true, true, true⟩) exSt ⟨.heap 5, 0, 8, 8⟩ 0)
  | 1 => .op (.putVarint ⟨.heap 0, 0, 5, 5⟩ ⟨.heap 6, 0, 25, 25⟩)
  | 2 => .op (.delta ⟨.heap 0, 0, 5, 5⟩ ⟨.heap 7, 0, 5, 5⟩)
  | 3 => .stream (.read .scalar 19 exSt ⟨.heap 8, 0, 19, 19⟩)

theorem exJobs_ok : (∀ i, (exJobs i).Pre exRMem) ∧
    (∀ i j q, i ≠ j → (exJobs i).target q → ¬ (exJobs j).source exRMem q ∧ ¬ (exJobs j).target q) ∧
    ∀ i, (exJobs i).turns ≤ 300 := by
  refine ⟨fun i => ?_, fun i j q hij => ?_, by decide⟩
  · match i with
    | 0 => exact ⟨memWith_tables _ _, by decide, by decide, rfl⟩
    | 1 => exact ⟨memWith_tables _ _, by decide, by decide, rfl⟩
    | 2 => exact ⟨memWith_tables _ _, by decide, by decide, rfl⟩
    | 3 => exact ⟨memWith_tables _ _, by decide, ⟨by decide, rfl, by decide⟩, .inl (by decide), Nat.le_refl _⟩
  · have hb : ∀ i q, (exJobs i).target q → q.blk = .heap (5 + i.val) := by
      intro i q h
      match i with
      | 0 => exact reach_blk (f := .auto ⟨true, true, true⟩) (s := (⟨.heap 5, 0, 8, 8⟩ : U32s)) h
      | 1 => exact h.1
      | 2 => exact h.1
      | 3 => exact h.1
    have hs : ∀ i q, (exJobs i).source exRMem q → q.blk = .heap 0 ∨ q.blk = .heap 1 := by
      intro i q h
      match i with
      | 0 => exact .inr (reach_blk (f := .auto ⟨true, true, true⟩) (s := exSt) h)
      | 1 => exact .inl h.1
      | 2 => exact .inl h.1
      | 3 => exact .inr h.1
    intro ht
    have h1 := hb i q ht
    refine ⟨fun h => ?_, fun h => ?_⟩
    · rcases hs j q h with h2 | h2 <;> (rw [h1] at h2; injection h2 with h2; omega)
    · have h2 := hb j q h
      rw [h1] at h2
      injection h2 with h2
      omega

example (sched : List (Fin 4)) (h : ∀ i, 300 ≤ sched.count i) :=
  C78_as_if_alone exJobs exRMem exJobs_ok.1 exJobs_ok.2.1 sched fun i => Nat.le_trans (exJobs_ok.2.2 i) (h i)

end SVB.Props
