import Verif.Model.Dispatch
import Verif.Model.Util
import Verif.Proofs.SafeStream
import Verif.Proofs.Arith
import Verif.Proofs.GoBasics

/-! # Counting memory accesses -/

set_option autoImplicit false
set_option linter.unusedSimpArgs false

namespace SVB
open Prog Asm

/-- Whatever the loads return, the program makes at most `n` accesses, and its result satisfies `P`. -/
def Prog.Within {α : Type} (P : α → Prop) : Prog α → Nat → Prop
  | .ret a, _ => P a
  | .panic _, _ => True
  | .load _ k, n => ∃ n', n = n' + 1 ∧ ∀ b, (k b).Within P n'
  | .store _ _ k, n => ∃ n', n = n' + 1 ∧ k.Within P n'

theorem Prog.Within.trace {α : Type} {P : α → Prop} {p : Prog α} {n : Nat} (h : p.Within P n) (m : Mem) :
    (trace p m).length ≤ n := by
  induction p generalizing n m with
  | ret a => exact Nat.zero_le _
  | panic k => exact Nat.zero_le _
  | load q k ih =>
    obtain ⟨n', rfl, h⟩ := h
    exact Nat.succ_le_succ (ih _ (h _) m)
  | store q v k ih =>
    obtain ⟨n', rfl, h⟩ := h
    exact Nat.succ_le_succ (ih h _)

theorem Prog.Within.mono {α : Type} {P Q : α → Prop} {p : Prog α} {n n' : Nat} (h : p.Within P n) (hn : n ≤ n')
    (hP : ∀ a, P a → Q a) : p.Within Q n' := by
  induction p generalizing n n' with
  | ret a => exact hP a h
  | panic k => trivial
  | load q k ih =>
    obtain ⟨i, rfl, h⟩ := h
    exact ⟨n' - 1, by omega, fun b => ih b (h b) (by omega)⟩
  | store q v k ih =>
    obtain ⟨i, rfl, h⟩ := h
    exact ⟨n' - 1, by omega, ih h (by omega)⟩

theorem Prog.Within.bind {α β : Type} {P : α → Prop} {Q : β → Prop} {p : Prog α} {f : α → Prog β} {a n : Nat}
    (hp : p.Within P a) (hn : a ≤ n) (hf : ∀ x, P x → (f x).Within Q (n - a)) : (p.bind f).Within Q n := by
  induction p generalizing a n with
  | ret x => exact (hf x hp).mono (by omega) fun _ h => h
  | panic k => trivial
  | load q k ih =>
    obtain ⟨i, rfl, h⟩ := hp
    exact ⟨n - 1, by omega, fun b => ih b (h b) (by omega) fun x hx => (hf x hx).mono (by omega) fun _ h => h⟩
  | store q v k ih =>
    obtain ⟨i, rfl, h⟩ := hp
    exact ⟨n - 1, by omega, ih h (by omega) fun x hx => (hf x hx).mono (by omega) fun _ h => h⟩

theorem Prog.Leaves.within {α : Type} {P Q : α → Prop} {p : Prog α} {n : Nat} (h : p.Leaves P) (hw : p.Within Q n) :
    p.Within P n := by
  induction p generalizing n with
  | ret a => exact h
  | panic k => trivial
  | load q k ih =>
    obtain ⟨i, e, hw⟩ := hw
    exact ⟨i, e, fun b => ih b (h b) (hw b)⟩
  | store q v k ih =>
    obtain ⟨i, e, hw⟩ := hw
    exact ⟨i, e, ih h hw⟩

theorem within_ret {α : Type} {P : α → Prop} {a : α} {n : Nat} (h : P a) : (Prog.ret a).Within P n := h

/-! ## The basic operations -/

theorem within_from {e : Nat} (s : Slice e) (a : Int) :
    (s.from a).Within (fun r => 0 ≤ a ∧ a ≤ s.len ∧ r = ⟨s.blk, s.off + e * a.toNat, s.len - a.toNat, s.cap - a.toNat⟩) 0 := by
  refine (leaves_from s a).within (Q := fun _ => True) ?_
  unfold Slice.from
  split <;> trivial

theorem within_range {e : Nat} (s : Slice e) (a b : Int) :
    (s.range a b).Within (fun r => 0 ≤ a ∧ a ≤ b ∧ b ≤ s.cap ∧
      r = ⟨s.blk, s.off + e * a.toNat, b.toNat - a.toNat, s.cap - a.toNat⟩) 0 := by
  refine (leaves_range s a b).within (Q := fun _ => True) ?_
  unfold Slice.range
  split <;> trivial

theorem within_getB (s : Bytes) (i : Int) : (getB s i).Within (fun _ => 0 ≤ i ∧ i < s.len) 1 := by
  unfold getB
  split
  · next h => exact ⟨0, rfl, fun _ => h⟩
  · trivial

theorem within_setB (s : Bytes) (i : Int) (v : Byte) : (setB s i v).Within (fun _ => 0 ≤ i ∧ i < s.len) 1 := by
  unfold setB
  split
  · next h => exact ⟨0, rfl, h⟩
  · trivial

theorem within_getW (s : U32s) (i : Int) : (getW s i).Within (fun _ => 0 ≤ i ∧ i < s.len) 4 := by
  unfold getW
  split
  · next h => exact ⟨3, rfl, fun _ => ⟨2, rfl, fun _ => ⟨1, rfl, fun _ => ⟨0, rfl, fun _ => h⟩⟩⟩⟩
  · trivial

theorem within_setW (s : U32s) (i : Int) (v : U32) : (setW s i v).Within (fun _ => 0 ≤ i ∧ i < s.len) 4 := by
  unfold setW
  split
  · next h => exact ⟨3, rfl, ⟨2, rfl, ⟨1, rfl, ⟨0, rfl, h⟩⟩⟩⟩
  · trivial

theorem within_controlByteToSize (c : Byte) : (controlByteToSize c).Within (fun r => 0 ≤ r ∧ r ≤ 255) 1 :=
  (leaves_controlByteToSize c).within (Q := fun _ => True) ⟨0, rfl, fun _ => trivial⟩

theorem within_controlByteToSizeTwo (c : U16) : (controlByteToSizeTwo c).Within (fun r => 0 ≤ r ∧ r ≤ 255) 2 := by
  refine (leaves_controlByteToSizeTwo c).within (Q := fun _ => True) ?_
  unfold controlByteToSizeTwo
  simp only []
  split
  · exact ⟨1, rfl, fun _ => ⟨0, rfl, fun _ => trivial⟩⟩
  · trivial

/-- A loop: `Inv s n` says that state `s` may be reached with `n` accesses. -/
theorem within_loop {σ : Type} {B c : Nat} (Inv : σ → Nat → Prop) (cond : σ → Bool) (body : σ → Prog σ)
    (hb : ∀ s n, Inv s n → cond s = true → n + c ≤ B ∧ (body s).Within (fun s' => Inv s' (n + c)) c) :
    ∀ (fuel : Nat) (s : σ) (n : Nat), Inv s n → n ≤ B →
      ∀ {β : Type} {Q : β → Prop} (f : σ → Prog β), (∀ s' n', Inv s' n' → cond s' = false → n' ≤ B → (f s').Within Q (B - n')) →
      ((loop fuel cond body s).bind f).Within Q (B - n) := by
  intro fuel
  induction fuel with
  | zero =>
    intro s n hs hn β Q f hf
    unfold loop
    split
    · trivial
    · next h => exact hf s n hs (by simpa using h) hn
  | succ k ih =>
    intro s n hs hn β Q f hf
    unfold loop
    split
    · next h =>
      obtain ⟨h1, h2⟩ := hb s n hs h
      simp only [bind_eq, bind_assoc]
      refine h2.bind (by omega) fun s' h' => ?_
      rw [Nat.sub_sub]
      exact ih s' (n + c) h' h1 f hf
    · next h => exact hf s n hs (by simpa using h) hn

/-- A loop with at most `k` iterations. -/
theorem within_loop_fuel {σ : Type} {c : Nat} (cond : σ → Bool) (body : σ → Prog σ) (hb : ∀ s, (body s).Within (fun _ => True) c) :
    ∀ (fuel : Nat) (s : σ), (loop fuel cond body s).Within (fun _ => True) (c * fuel) := by
  intro fuel
  induction fuel with
  | zero =>
    intro s
    unfold loop
    split <;> trivial
  | succ k ih =>
    intro s
    unfold loop
    split
    · refine (hb s).bind (Nat.le_mul_of_pos_right c (Nat.succ_pos k)) fun s' _ => ?_
      exact (ih s').mono (by rw [Nat.mul_succ]; omega) fun _ h => h
    · trivial

/-- One step, with what is known of its result. -/
macro "cost_step" : tactic => `(tactic| ((repeat rewrite [Prog.bind_assoc]); with_reducible first
  | (refine Prog.Within.bind (within_controlByteToSize _) (by first | decide | omega) fun _ _ => ?_)
  | (refine Prog.Within.bind (within_controlByteToSizeTwo _) (by first | decide | omega) fun _ _ => ?_)
  | (refine Prog.Within.bind (within_from _ _) (by first | decide | omega) fun _ _ => ?_)
  | (refine Prog.Within.bind (within_range _ _ _) (by first | decide | omega) fun _ _ => ?_)
  | (refine Prog.Within.bind (within_getW _ _) (by first | decide | omega) fun _ _ => ?_)
  | (refine Prog.Within.bind (within_getB _ _) (by first | decide | omega) fun _ _ => ?_)
  | (refine Prog.Within.bind (within_setB _ _ _) (by first | decide | omega) fun _ _ => ?_)
  | (refine Prog.Within.bind (within_setW _ _ _) (by first | decide | omega) fun _ _ => ?_)))

/-! ## `encode` and `decode` -/

theorem within_encodeOne (num : U32) (out : Bytes) : (encodeOne num out).Within (fun _ => True) 4 := by
  unfold encodeOne
  simp only [bind_eq, pure_eq]
  repeat' first
    | cost_step
    | trivial
    | split

macro "cost_step4" : tactic => `(tactic| first
  | cost_step
  | ((repeat rewrite [Prog.bind_assoc]); with_reducible refine Prog.Within.bind (within_encodeOne _ _) (by first | decide | omega) fun _ _ => ?_))

theorem within_decodeOne (b : Bytes) (size : Byte) : (decodeOne b size).Within (fun _ => True) 4 := by
  unfold decodeOne
  simp only [bind_eq, pure_eq]
  split
  · repeat cost_step
    trivial
  split
  · repeat cost_step
    trivial
  split
  · repeat cost_step
    trivial
  split
  · repeat cost_step
    trivial
  · trivial

theorem within_perNumLenRow (c : Byte) : (perNumLenRow c).Within (fun _ => True) 4 :=
  ⟨3, rfl, fun _ => ⟨2, rfl, fun _ => ⟨1, rfl, fun _ => ⟨0, rfl, fun _ => trivial⟩⟩⟩⟩

macro "cost_step5" : tactic => `(tactic| first
  | cost_step4
  | ((repeat rewrite [Prog.bind_assoc]); with_reducible refine Prog.Within.bind (within_decodeOne _ _) (by first | decide | omega) fun _ _ => ?_))

theorem within_get4uint32Scalar (inn : Bytes) (out : U32s) (ctrl : Byte) :
    (get4uint32Scalar inn out ctrl).Within (fun _ => 4 ≤ out.len) 36 := by
  unfold get4uint32Scalar
  simp only [bind_eq, pure_eq]
  refine Prog.Within.bind (within_perNumLenRow _) (by omega) fun x _ => ?_
  obtain ⟨l0, l1, l2, l3⟩ := x
  simp only []
  repeat cost_step5
  exact (within_setW _ _ _).mono (n' := _) (by omega) fun _ _ => by omega

theorem within_get4uint32DeltaScalar (inn : Bytes) (out : U32s) (ctrl : Byte) (prev : U32) :
    (get4uint32DeltaScalar inn out ctrl prev).Within (fun _ => 4 ≤ out.len) 52 := by
  unfold get4uint32DeltaScalar
  simp only [bind_eq, pure_eq]
  refine Prog.Within.bind (within_perNumLenRow _) (by omega) fun x _ => ?_
  obtain ⟨l0, l1, l2, l3⟩ := x
  simp only []
  repeat cost_step5
  exact (within_setW _ _ _).mono (n' := _) (by omega) fun _ _ => by omega

theorem within_getUint32Scalar (inn : Bytes) (out : U32s) (ctrl : Byte) (count : Int) :
    (getUint32Scalar inn out ctrl count).Within (fun _ => True) 32 := by
  unfold getUint32Scalar
  simp only [bind_eq, pure_eq]
  split
  · trivial
  · refine Prog.Within.bind (within_loop_fuel (c := 8) _ _ (fun s => ?_) 4 _) (by omega) fun _ _ => trivial
    repeat cost_step5
    trivial

theorem within_getUint32DeltaScalar (inn : Bytes) (out : U32s) (ctrl : Byte) (count : Int) (prev : U32) :
    (getUint32DeltaScalar inn out ctrl count prev).Within (fun _ => True) 32 := by
  unfold getUint32DeltaScalar
  simp only [bind_eq, pure_eq]
  split
  · trivial
  · refine Prog.Within.bind (within_loop_fuel (c := 8) _ _ (fun s => ?_) 4 _) (by omega) fun _ _ => trivial
    repeat cost_step5
    trivial

/-! ## The assembly -/

/-- The bytes an instruction reads and writes in memory (arguments on the stack not counted). -/
def instrCost : Instr → Nat
  | .MOVBQZX_mem _ _ => 1
  | .VLDDQU _ _ _ => 16
  | .VMOVDQU _ _ _ => 16
  | .VPBROADCASTW _ _ => 2
  | .VPSHUFB _ _ _ => 16
  | _ => 0

theorem within_loadN (n : Nat) : ∀ p, (loadN p n).Within (fun _ => True) n := by
  induction n with
  | zero => exact fun _ => trivial
  | succ n ih => exact fun p => ⟨n, rfl, fun b => (ih _).bind (Nat.le_refl _) fun _ _ => trivial⟩

theorem within_load16 (p : Ptr) : (load16 p).Within (fun _ => True) 16 :=
  (within_loadN 16 p).bind (Nat.le_refl _) fun _ _ => trivial

theorem within_storeN (v : Vec) (p : Ptr) (n : Nat) : ∀ i, (storeN p v i n).Within (fun _ => True) n := by
  induction n with
  | zero => exact fun _ => trivial
  | succ n ih => exact fun i => ⟨n, rfl, ih _⟩

theorem within_step (fr : Frame) (s : St) (i : Instr) : (step fr s i).Within (fun _ => True) (instrCost i) := by
  cases i <;> unfold step <;> simp only [bind_eq, pure_eq]
  all_goals first
    | trivial
    | (split <;> trivial)
    | (split
       · exact ⟨0, rfl, fun _ => trivial⟩
       · trivial)
    | (split
       · exact (within_load16 _).bind (Nat.le_refl _) fun _ _ => trivial
       · trivial)
    | (split
       · exact (within_storeN _ _ 16 0).bind (Nat.le_refl _) fun _ _ => trivial
       · trivial)
    | exact ⟨1, rfl, fun _ => ⟨0, rfl, fun _ => trivial⟩⟩

theorem within_exec (fr : Frame) (is : List Instr) : ∀ s, (exec fr is s).Within (fun _ => True) (is.map instrCost).sum := by
  induction is with
  | nil => exact fun _ => trivial
  | cons i is ih =>
    intro s
    unfold exec
    rw [List.map_cons, List.sum_cons, bind_eq]
    exact (within_step fr s i).bind (by omega) fun s' _ => (ih s').mono (by omega) fun _ h => h

theorem within_get8uint32FastAsm (inn : Bytes) (out : U32s) (ctrl : U16) (p q : Ptr) :
    (get8uint32FastAsm inn out ctrl p q).Within (fun _ => True) 97 := by
  unfold get8uint32FastAsm
  simp only [bind_eq, pure_eq]
  exact Prog.Within.bind (within_exec _ _ _) (by decide) fun s _ => trivial

theorem within_get8uint32DeltaFastAsm (inn : Bytes) (out : U32s) (ctrl : U16) (prev : U32) (p q : Ptr) :
    (get8uint32DeltaFastAsm inn out ctrl prev p q).Within (fun _ => True) 97 := by
  unfold get8uint32DeltaFastAsm
  simp only [bind_eq, pure_eq]
  exact Prog.Within.bind (within_exec _ _ _) (by decide) fun s _ => trivial

end SVB
