import Verif.Model.GoTypes
import Verif.Proofs.GoBasics
import Verif.Proofs.AsmEnc
import Verif.Proofs.AsmDec

/-! # Programs that never reach `.fault`: operations of the interpreter on values of the right types -/

set_option autoImplicit false

namespace SVB
open Prog

/-- Whatever the loads return, the program ends with a result satisfying `Q` or with a panic other than `.fault`. -/
def Prog.Safe {α : Type} (Q : α → Prop) : Prog α → Prop
  | .ret a => Q a
  | .panic k => k ≠ .fault
  | .load _ k => ∀ b, (k b).Safe Q
  | .store _ _ k => k.Safe Q

namespace Safe

theorem mono {α : Type} {P Q : α → Prop} {p : Prog α} (hp : p.Safe P) (h : ∀ a, P a → Q a) : p.Safe Q := by
  induction p with
  | ret a => exact h a hp
  | panic k => exact hp
  | load p k ih => exact fun b => ih b (hp b)
  | store p v k ih => exact ih hp

theorem bind {α β : Type} {P : α → Prop} {Q : β → Prop} {p : Prog α} {f : α → Prog β} (hp : p.Safe P)
    (hf : ∀ a, P a → (f a).Safe Q) : (p >>= f).Safe Q := by
  induction p with
  | ret a => exact hf a hp
  | panic k => exact hp
  | load p k ih => exact fun b => ih b (hp b)
  | store p v k ih => exact ih hp

theorem ret {α : Type} {Q : α → Prop} {a : α} (h : Q a) : (Prog.ret a).Safe Q := h

theorem panic {α : Type} {Q : α → Prop} {k : Panic} (h : k ≠ .fault) : (Prog.panic k : Prog α).Safe Q := h

theorem orFault {α : Type} {Q : α → Prop} {o : Option α} {a : α} (h : o = some a) (hq : Q a) : (Go.orFault o).Safe Q := by
  subst h; exact hq

/-- From any memory, the program ends with a result satisfying `Q` or with a panic other than `.fault`. -/
theorem run {α : Type} {Q : α → Prop} {p : Prog α} (h : p.Safe Q) (m : Mem) :
    (∃ a, (SVB.run p m).1 = .ok a ∧ Q a) ∨ (∃ k, (SVB.run p m).1 = .panic k ∧ k ≠ .fault) := by
  induction p generalizing m with
  | ret a => exact .inl ⟨a, rfl, h⟩
  | panic k => exact .inr ⟨k, rfl, h⟩
  | load p k ih => exact ih _ (h _) m
  | store p v k ih => exact ih h _

/-- The results are of no interest. -/
abbrev Ok {α : Type} (p : Prog α) : Prop := p.Safe fun _ => True

theorem ok_bind {α β : Type} {Q : β → Prop} {p : Prog α} {f : α → Prog β} (hp : Ok p) (hf : ∀ a, (f a).Safe Q) :
    (p.bind f).Safe Q := bind hp fun a _ => hf a

theorem load8_ok (p : Ptr) : Ok (load8 p) := fun _ => trivial
theorem store8_ok (p : Ptr) (v : Byte) : Ok (store8 p v) := trivial

theorem getB_ok (s : Bytes) (i : Int) : Ok (getB s i) := by
  unfold getB
  split
  · exact load8_ok _
  · intro h; cases h

theorem setB_ok (s : Bytes) (i : Int) (v : Byte) : Ok (setB s i v) := by
  unfold setB
  split
  · exact store8_ok _ _
  · intro h; cases h

theorem getW_ok (s : U32s) (i : Int) : Ok (getW s i) := by
  unfold getW
  split
  · exact fun _ _ _ _ => trivial
  · intro h; cases h

theorem setW_ok (s : U32s) (i : Int) (v : U32) : Ok (setW s i v) := by
  unfold setW
  split
  · trivial
  · intro h; cases h

theorem from_ok {e : Nat} (s : Slice e) (i : Int) : Ok (s.from i) := by
  unfold Slice.from
  split
  · trivial
  · intro h; cases h

theorem range_ok {e : Nat} (s : Slice e) (i j : Int) : Ok (s.range i j) := by
  unfold Slice.range
  split
  · trivial
  · intro h; cases h

theorem zeroFill_ok (p : Ptr) (n : Nat) : Ok (zeroFill p n) := by
  induction n generalizing p with
  | zero => trivial
  | succ n ih => exact ih _

theorem makeBytes_ok (b : Block) (n : Int) : Ok (makeBytes b n) := by
  unfold makeBytes
  split
  · exact bind (zeroFill_ok _ _) fun _ _ => trivial
  · intro h; cases h

theorem loop_ok {σ : Type} (cond : σ → Bool) (body : σ → Prog σ) (h : ∀ s, Ok (body s)) (fuel : Nat) (s : σ) :
    Ok (loop fuel cond body s) := by
  induction fuel generalizing s with
  | zero =>
    unfold loop
    split
    · intro h; cases h
    · trivial
  | succ n ih =>
    unfold loop
    split
    · exact bind (h s) fun s' _ => ih s'
    · trivial

theorem putUvarint_ok (b : Bytes) (x : U64) : Ok (putUvarint b x) := by
  unfold putUvarint
  refine bind (loop_ok _ _ (fun s => bind (setB_ok _ _ _) fun _ _ => ret trivial) _ _) fun s _ => ?_
  exact bind (setB_ok _ _ _) fun _ _ => trivial

theorem uvarint_ok (b : Bytes) : Ok (uvarint b) := by
  unfold uvarint
  generalize b.len = r, (0 : Nat) = i, (0 : U64) = x
  suffices h : ∀ (r i : Nat) (x : U64) (s : Nat), Ok (uvarintLoop b r i x s) from h _ _ _ _
  intro r
  induction r with
  | zero => intros; trivial
  | succ r ih =>
    intro i x s
    unfold uvarintLoop
    refine bind (getB_ok _ _) fun c _ => ?_
    split
    · trivial
    · split
      · split <;> trivial
      · exact ih _ _ _

theorem loadN_ok (p : Ptr) (n : Nat) : Ok (Asm.loadN p n) := by
  induction n generalizing p with
  | zero => exact ret trivial
  | succ n ih => exact bind (load8_ok _) fun _ _ => bind (ih _) fun _ _ => ret trivial

theorem load16_ok (p : Ptr) : Ok (Asm.load16 p) := by
  unfold Asm.load16
  generalize 16 = n
  exact bind (loadN_ok _ _) fun _ _ => ret trivial

theorem storeN_ok (p : Ptr) (v : Asm.Vec) (i n : Nat) : Ok (Asm.storeN p v i n) := by
  induction n generalizing i with
  | zero => exact ret trivial
  | succ n ih => exact bind (store8_ok _ _) fun _ _ => ih _

theorem store16_ok (p : Ptr) (v : Asm.Vec) : Ok (Asm.store16 p v) := by
  unfold Asm.store16
  generalize 16 = n
  exact storeN_ok _ _ _ _

/-- A straight line of loads and stores. -/
macro "asm_ok" : tactic => `(tactic| repeat' first
    | with_reducible refine ok_bind ?_ fun _ => ?_
    | with_reducible exact load8_ok _
    | with_reducible exact load16_ok _
    | with_reducible exact store16_ok _ _
    | with_reducible exact ret trivial)

open Asm in
theorem put8Fast_ok (i : U32s) (o : Bytes) (s l : Ptr) : Ok (put8uint32FastAsm i o s l) := by
  simp only [put8uint32FastAsm, put8uint32FastText, ctrlInstrs, List.cons_append, List.nil_append, exec, step,
    Frame.get, sliceArg, List.lookup, St.setGP, St.setX, Prog.bind_eq, Prog.pure_eq, Prog.ret_bind,
    Prog.bind_assoc, reduceCtorEq, if_true, if_false, Nat.reduceBEq, Nat.reduceAdd, Nat.zero_add]
  asm_ok

open Asm in
theorem put8DeltaFast_ok (i : U32s) (o : Bytes) (p : U32) (s l : Ptr) : Ok (put8uint32DeltaFastAsm i o p s l) := by
  simp only [put8uint32DeltaFastAsm, put8uint32DeltaFastText, ctrlInstrs, List.cons_append, List.nil_append, exec, step,
    Frame.get, sliceArg, List.lookup, St.setGP, St.setX, Prog.bind_eq, Prog.pure_eq, Prog.ret_bind,
    Prog.bind_assoc, reduceCtorEq, if_true, if_false, Nat.reduceBEq, Nat.reduceAdd, Nat.zero_add]
  asm_ok

open Asm in
theorem get8Fast_ok (i : Bytes) (o : U32s) (c : U16) (s l : Ptr) : Ok (get8uint32FastAsm i o c s l) := by
  simp only [get8uint32FastAsm, get8uint32FastText, decCoreText, decStoreText, List.cons_append, List.nil_append, exec, step,
    Frame.get, sliceArg, List.lookup, St.setGP, St.setX, Prog.bind_eq, Prog.pure_eq, Prog.ret_bind,
    Prog.bind_assoc, reduceCtorEq, if_true, if_false, Nat.reduceBEq, Nat.reduceAdd, Nat.zero_add]
  asm_ok

open Asm in
theorem get8DeltaFast_ok (i : Bytes) (o : U32s) (c : U16) (p : U32) (s l : Ptr) : Ok (get8uint32DeltaFastAsm i o c p s l) := by
  simp only [get8uint32DeltaFastAsm, get8uint32DeltaFastText, decCoreText, decStoreText, List.cons_append, List.nil_append, exec, step,
    Frame.get, sliceArg, List.lookup, St.setGP, St.setX, Prog.bind_eq, Prog.pure_eq, Prog.ret_bind,
    Prog.bind_assoc, reduceCtorEq, if_true, if_false, Nat.reduceBEq, Nat.reduceAdd, Nat.zero_add]
  asm_ok

end Safe

attribute [irreducible] Prog.Safe

end SVB
