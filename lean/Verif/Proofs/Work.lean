import Verif.Model.Reader
import Verif.Model.Util
import Verif.Proofs.Arith

/-! # Counting memory accesses

`Bd Q k p`: however the memory looks (every load may deliver any byte), the program `p` makes at most `k`
accesses, and if it returns `a`, then `Q k' a` for some `k'` not above the number of accesses left over. -/

set_option autoImplicit false

namespace SVB
open Spec

inductive Bd {α : Type} (Q : Nat → α → Prop) : Nat → Prog α → Prop where
  | ret {k : Nat} {a : α} : Q k a → Bd Q k (.ret a)
  | panic {k : Nat} {x : Panic} : Bd Q k (.panic x)
  | load {k : Nat} {p : Ptr} {f : Byte → Prog α} : (∀ b, Bd Q k (f b)) → Bd Q (k + 1) (.load p f)
  | store {k : Nat} {p : Ptr} {v : Byte} {f : Prog α} : Bd Q k f → Bd Q (k + 1) (.store p v f)
  | weaken {k : Nat} {p : Prog α} : Bd Q k p → Bd Q (k + 1) p

variable {α β σ : Type}

/-- Soundness: the number of accesses of every run. -/
theorem Bd.sound {Q : Nat → α → Prop} {k : Nat} {p : Prog α} (h : Bd Q k p) :
    ∀ m, (trace p m).length ≤ k := by
  induction h with
  | ret _ => intro m; simp [trace]
  | panic => intro m; simp [trace]
  | @load k p f _ ih => intro m; simp only [trace, List.length_cons]; have := ih (m p) m; omega
  | @store k p v f _ ih => intro m; simp only [trace, List.length_cons]; have := ih (m.set p v); omega
  | weaken _ ih => intro m; have := ih m; omega

theorem Bd.bind {Q : Nat → β → Prop} {R : Nat → α → Prop} {k : Nat} {p : Prog α} {f : α → Prog β} (h : Bd R k p)
    (hf : ∀ k' a, R k' a → Bd Q k' (f a)) : Bd Q k (p.bind f) := by
  induction h with
  | ret h => exact hf _ _ h
  | panic => exact .panic
  | load _ ih => exact .load ih
  | store _ ih => exact .store ih
  | weaken _ ih => exact .weaken ih

theorem Bd.conseq {Q R : Nat → α → Prop} {k : Nat} {p : Prog α} (h : Bd R k p) (hq : ∀ k a, R k a → Q k a) :
    Bd Q k p := by
  induction h with
  | ret h => exact .ret (hq _ _ h)
  | panic => exact .panic
  | load _ ih => exact .load ih
  | store _ ih => exact .store ih
  | weaken _ ih => exact .weaken ih

theorem Bd.mono {Q : Nat → α → Prop} {k k' : Nat} {p : Prog α} (h : Bd Q k p) (hk : k ≤ k') : Bd Q k' p := by
  obtain ⟨d, rfl⟩ := Nat.le.dest hk
  clear hk
  induction d with
  | zero => exact h
  | succ d ih => exact .weaken ih

/-- More budget is handed through. -/
theorem Bd.add {Q : Nat → α → Prop} {k : Nat} {p : Prog α} (h : Bd Q k p) (d : Nat) :
    Bd (fun k' a => ∃ l, k' = l + d ∧ Q l a) (k + d) p := by
  induction h with
  | ret h => exact .ret ⟨_, rfl, h⟩
  | panic => exact .panic
  | @load k p f _ ih => rw [show k + 1 + d = k + d + 1 by omega]; exact .load ih
  | @store k p v f _ ih => rw [show k + 1 + d = k + d + 1 by omega]; exact .store ih
  | @weaken k p _ ih => rw [show k + 1 + d = k + d + 1 by omega]; exact .weaken ih

theorem Bd.loop {Q I : Nat → σ → Prop} {cond : σ → Bool} {body : σ → Prog σ}
    (hb : ∀ k s, cond s = true → I k s → Bd I k (body s)) (hq : ∀ k s, cond s = false → I k s → Q k s) :
    ∀ fuel k s, I k s → Bd Q k (loop fuel cond body s) := by
  intro fuel
  induction fuel with
  | zero =>
    intro k s h
    unfold SVB.loop
    split
    · exact .panic
    · rename_i hc; exact .ret (hq _ _ (by simpa using hc) h)
  | succ n ih =>
    intro k s h
    unfold SVB.loop
    split
    · rename_i hc
      exact (hb k s hc h).bind fun k' s' h' => ih k' s' h'
    · rename_i hc; exact .ret (hq _ _ (by simpa using hc) h)

/-! ## Primitives, followed by a continuation -/

section
variable {Q : Nat → β → Prop} {k : Nat}

theorem bd_from {e : Nat} {s : Slice e} {a : Int} {f : Slice e → Prog β} (h : ∀ t, Bd Q k (f t)) :
    Bd Q k ((s.from a).bind f) := by
  unfold Slice.from
  split
  · exact h _
  · exact .panic

theorem bd_range {e : Nat} {s : Slice e} {a b : Int} {f : Slice e → Prog β} (h : ∀ t, Bd Q k (f t)) :
    Bd Q k ((s.range a b).bind f) := by
  unfold Slice.range
  split
  · exact h _
  · exact .panic

theorem bd_load8 {p : Ptr} {f : Byte → Prog β} (h : ∀ b, Bd Q k (f b)) : Bd Q (k + 1) ((load8 p).bind f) :=
  .load h

theorem bd_getB {s : Bytes} {i : Int} {f : Byte → Prog β} (h : ∀ b, Bd Q k (f b)) :
    Bd Q (k + 1) ((getB s i).bind f) := by
  unfold getB
  split
  · exact bd_load8 h
  · exact .panic

theorem bd_setB {s : Bytes} {i : Int} {v : Byte} {f : Unit → Prog β} (h : Bd Q k (f ())) :
    Bd Q (k + 1) ((setB s i v).bind f) := by
  unfold setB
  split
  · exact .store h
  · exact .panic

theorem bd_getW {s : U32s} {i : Int} {f : U32 → Prog β} (h : ∀ b, Bd Q k (f b)) :
    Bd Q (k + 4) ((getW s i).bind f) := by
  unfold getW
  split
  · exact .load fun _ => .load fun _ => .load fun _ => .load fun _ => h _
  · exact .panic

theorem bd_setW {s : U32s} {i : Int} {v : U32} {f : Unit → Prog β} (h : Bd Q k (f ())) :
    Bd Q (k + 4) ((setW s i v).bind f) := by
  unfold setW
  split
  · exact .store (.store (.store (.store h)))
  · exact .panic

theorem bd_size {c : Byte} {f : Int → Prog β} (h : ∀ b, Bd Q k (f b)) :
    Bd Q (k + 1) ((controlByteToSize c).bind f) := .load fun _ => h _

theorem bd_sizeTwo {c : U16} {f : Int → Prog β} (h : ∀ b, Bd Q k (f b)) :
    Bd Q (k + 2) ((controlByteToSizeTwo c).bind f) := by
  unfold controlByteToSizeTwo
  dsimp only
  split
  · exact .load fun _ => .load fun _ => h _
  · exact .panic

/-- Calling a program whose cost is known. -/
theorem bd_call {p : Prog α} (c : Nat) {f : α → Prog β} (hp : Bd (fun _ _ => True) c p)
    (h : ∀ a, Bd Q k (f a)) : Bd Q (k + c) (p.bind f) := by
  rw [Nat.add_comm]
  exact (hp.add k).bind fun k' a ⟨l, e, _⟩ => (h a).mono (by omega)

theorem bd_ret {a : α} : Bd (fun _ _ => True) k (.ret a) := .ret trivial

theorem bind_ret (p : Prog α) : p.bind .ret = p := by
  induction p with
  | ret a => rfl
  | panic x => rfl
  | load p f ih => simp only [Prog.bind]; congr; funext b; exact ih b
  | store p v f ih => simp only [Prog.bind]; congr

theorem bd_last {p : Prog α} {R : Nat → α → Prop} (h : Bd R k (p.bind .ret)) : Bd R k p := bind_ret p ▸ h

end

/-! ## Scalar blocks -/

/-- Take one step off the front of a program. -/
macro "bd_prim" : tactic => `(tactic| first
  | with_reducible refine bd_getW fun _ => ?_ | with_reducible refine bd_setW ?_ | with_reducible refine bd_getB fun _ => ?_ | with_reducible refine bd_setB ?_
  | with_reducible refine bd_from fun _ => ?_ | with_reducible refine bd_range fun _ => ?_ | with_reducible refine bd_size fun _ => ?_
  | with_reducible refine bd_sizeTwo fun _ => ?_ | with_reducible refine bd_load8 fun _ => ?_)

macro "bd_step" : tactic => `(tactic| first
  | exact Bd.panic | exact bd_ret | bd_prim | (refine bd_last ?_; bd_prim))

theorem cost_encodeOne (num : U32) (out : Bytes) : Bd (fun _ _ => True) 4 (encodeOne num out) := by
  unfold encodeOne
  simp only [Prog.pure_eq, Prog.bind_eq]
  repeat' first | split | bd_step

theorem cost_decodeOne (b : Bytes) (size : Byte) : Bd (fun _ _ => True) 4 (decodeOne b size) := by
  unfold decodeOne
  simp only [Prog.pure_eq, Prog.bind_eq]
  repeat' first | split | bd_step

theorem cost_perNumLenRow (ctrl : Byte) : Bd (fun _ _ => True) 4 (perNumLenRow ctrl) := by
  unfold perNumLenRow
  simp only [Prog.pure_eq, Prog.bind_eq]
  repeat' bd_step

macro "bd_step1" : tactic => `(tactic| first
  | with_reducible refine bd_call 4 (cost_encodeOne _ _) fun _ => ?_ | with_reducible refine bd_call 4 (cost_decodeOne _ _) fun _ => ?_
  | with_reducible refine bd_call 4 (cost_perNumLenRow _) fun _ => ?_ | bd_step)

theorem cost_put4 (inn : U32s) (out : Bytes) : Bd (fun _ _ => True) 36 (put4uint32Scalar inn out) := by
  unfold put4uint32Scalar
  simp only [Prog.pure_eq, Prog.bind_eq]
  repeat' bd_step1

theorem cost_put4Delta (inn : U32s) (out : Bytes) (prev : U32) :
    Bd (fun _ _ => True) 48 (put4uint32DeltaScalar inn out prev) := by
  unfold put4uint32DeltaScalar
  simp only [Prog.pure_eq, Prog.bind_eq]
  repeat' bd_step1

theorem cost_get4 (inn : Bytes) (out : U32s) (ctrl : Byte) :
    Bd (fun _ _ => True) 36 (get4uint32Scalar inn out ctrl) := by
  unfold get4uint32Scalar
  simp only [Prog.bind_eq]
  repeat' bd_step1

theorem cost_get4Delta (inn : Bytes) (out : U32s) (ctrl : Byte) (prev : U32) :
    Bd (fun _ _ => True) 52 (get4uint32DeltaScalar inn out ctrl prev) := by
  unfold get4uint32DeltaScalar
  simp only [Prog.bind_eq]
  repeat' bd_step1

macro "bd_step2" : tactic => `(tactic| first
  | with_reducible refine bd_call 36 (cost_put4 _ _) fun _ => ?_ | with_reducible refine bd_call 48 (cost_put4Delta _ _ _) fun _ => ?_
  | with_reducible refine bd_call 36 (cost_get4 _ _ _) fun _ => ?_ | with_reducible refine bd_call 52 (cost_get4Delta _ _ _ _) fun _ => ?_
  | (refine bd_last ?_; first
      | with_reducible refine bd_call 36 (cost_get4 _ _ _) fun _ => ?_ | with_reducible refine bd_call 52 (cost_get4Delta _ _ _ _) fun _ => ?_)
  | bd_step1)

theorem cost_put8 (inn : U32s) (out : Bytes) : Bd (fun _ _ => True) 73 (put8uint32Scalar inn out) := by
  unfold put8uint32Scalar
  simp only [Prog.pure_eq, Prog.bind_eq]
  repeat' bd_step2

theorem cost_put8Delta (inn : U32s) (out : Bytes) (prev : U32) :
    Bd (fun _ _ => True) 101 (put8uint32DeltaScalar inn out prev) := by
  unfold put8uint32DeltaScalar
  simp only [Prog.pure_eq, Prog.bind_eq]
  repeat' bd_step2

theorem cost_get8 (inn : Bytes) (out : U32s) (ctrl : U16) :
    Bd (fun _ _ => True) 73 (get8uint32Scalar inn out ctrl) := by
  unfold get8uint32Scalar
  simp only [Prog.bind_eq]
  repeat' bd_step2

theorem cost_get8Delta (inn : Bytes) (out : U32s) (ctrl : U16) (prev : U32) :
    Bd (fun _ _ => True) 109 (get8uint32DeltaScalar inn out ctrl prev) := by
  unfold get8uint32DeltaScalar
  simp only [Prog.bind_eq]
  repeat' bd_step2

theorem cost_put (inn : U32s) (out : Bytes) (count : Int) :
    Bd (fun _ _ => True) 32 (putUint32Scalar inn out count) := by
  unfold putUint32Scalar
  simp only [Prog.pure_eq, Prog.bind_eq]
  split
  · exact bd_ret
  · refine Bd.bind (R := fun _ _ => True) ?_ fun _ _ _ => bd_ret
    refine Bd.loop (I := fun k (s : PutSt) => ∃ j : Nat, s.i = (j : Int) ∧ 32 ≤ k + 8 * j) ?_ (fun _ _ _ _ => trivial) _ _ _
      ⟨0, rfl, by omega⟩
    rintro k s hc ⟨j, e, hk⟩
    have hj : s.i < 4 := by have := of_decide_eq_true hc; split at this <;> omega
    obtain ⟨l, rfl⟩ : ∃ l, k = l + 8 := ⟨k - 8, by omega⟩
    repeat' bd_step1
    exact .ret ⟨j + 1, by simp only [e]; omega, by omega⟩

theorem cost_putDelta (inn : U32s) (out : Bytes) (count : Int) (prev : U32) :
    Bd (fun _ _ => True) 48 (putUint32DeltaScalar inn out count prev) := by
  unfold putUint32DeltaScalar
  simp only [Prog.pure_eq, Prog.bind_eq]
  split
  · exact bd_ret
  · refine Bd.bind (R := fun _ _ => True) ?_ fun _ _ _ => bd_ret
    refine Bd.loop (I := fun k (s : PutSt) => ∃ j : Nat, s.i = (j : Int) ∧ 48 ≤ k + 12 * j) ?_ (fun _ _ _ _ => trivial) _ _ _
      ⟨0, rfl, by omega⟩
    rintro k s hc ⟨j, e, hk⟩
    have hj : s.i < 4 := by have := of_decide_eq_true hc; split at this <;> omega
    obtain ⟨l, rfl⟩ : ∃ l, k = l + 12 := ⟨k - 12, by omega⟩
    repeat' bd_step1
    exact .ret ⟨j + 1, by simp only [e]; omega, by omega⟩

theorem cost_get (inn : Bytes) (out : U32s) (ctrl : Byte) (count : Int) :
    Bd (fun _ _ => True) 32 (getUint32Scalar inn out ctrl count) := by
  unfold getUint32Scalar
  simp only [Prog.pure_eq, Prog.bind_eq]
  split
  · exact bd_ret
  · refine Bd.bind (R := fun _ _ => True) ?_ fun _ _ _ => bd_ret
    refine Bd.loop (I := fun k (s : GetSt) => ∃ j : Nat, s.i = (j : Int) ∧ 32 ≤ k + 8 * j) ?_ (fun _ _ _ _ => trivial) _ _ _
      ⟨0, rfl, by omega⟩
    rintro k s hc ⟨j, e, hk⟩
    have hj : s.i < 4 := by have := of_decide_eq_true hc; split at this <;> omega
    obtain ⟨l, rfl⟩ : ∃ l, k = l + 8 := ⟨k - 8, by omega⟩
    repeat' bd_step1
    exact .ret ⟨j + 1, by simp only [e]; omega, by omega⟩

theorem cost_getDelta (inn : Bytes) (out : U32s) (ctrl : Byte) (count : Int) (prev : U32) :
    Bd (fun _ _ => True) 32 (getUint32DeltaScalar inn out ctrl count prev) := by
  unfold getUint32DeltaScalar
  simp only [Prog.pure_eq, Prog.bind_eq]
  split
  · exact bd_ret
  · refine Bd.bind (R := fun _ _ => True) ?_ fun _ _ _ => bd_ret
    refine Bd.loop (I := fun k (s : GetSt) => ∃ j : Nat, s.i = (j : Int) ∧ 32 ≤ k + 8 * j) ?_ (fun _ _ _ _ => trivial) _ _ _
      ⟨0, rfl, by omega⟩
    rintro k s hc ⟨j, e, hk⟩
    have hj : s.i < 4 := by have := of_decide_eq_true hc; split at this <;> omega
    obtain ⟨l, rfl⟩ : ∃ l, k = l + 8 := ⟨k - 8, by omega⟩
    repeat' bd_step1
    exact .ret ⟨j + 1, by simp only [e]; omega, by omega⟩

/-! ## Assembly -/

namespace Asm

/-- Bytes an instruction reads or writes. -/
def Instr.cost : Instr → Nat
  | .VLDDQU .. | .VMOVDQU .. | .VPSHUFB .. => 16
  | .VPBROADCASTW .. => 2
  | .MOVBQZX_mem .. => 1
  | _ => 0

theorem cost_loadN (p : Ptr) (n : Nat) : ∀ {Q : Nat → List Byte → Prop} {k : Nat}, (∀ v, Q k v) →
    Bd Q (k + n) (loadN p n) := by
  induction n generalizing p with
  | zero => intro Q k h; exact .ret (h _)
  | succ n ih =>
    intro Q k h
    unfold loadN
    exact .load fun b => (ih (p.add 1) (Q := fun l v => k ≤ l) (k := k) fun _ => Nat.le_refl _).bind
      (fun l a hl => (Bd.ret (h _)).mono hl)

theorem cost_storeN (p : Ptr) (v : Vec) (n : Nat) : ∀ (i : Nat), Bd (fun _ _ => True) n (storeN p v i n) := by
  induction n with
  | zero => intro i; exact bd_ret
  | succ n ih => intro i; unfold storeN; exact .store (ih _)

theorem cost_step (fr : Frame) (s : St) (i : Instr) : Bd (fun _ _ => True) i.cost (step fr s i) := by
  cases i <;> simp only [step, Instr.cost, Prog.pure_eq, Prog.bind_eq]
  case VLDDQU =>
    split
    · exact ((cost_loadN _ 16 (Q := fun _ _ => True) (k := 0) (fun _ => trivial)).bind fun _ _ _ => bd_ret).bind fun _ _ _ => bd_ret
    · exact .panic
  case VPSHUFB =>
    split
    · exact ((cost_loadN _ 16 (Q := fun _ _ => True) (k := 0) (fun _ => trivial)).bind fun _ _ _ => bd_ret).bind fun _ _ _ => bd_ret
    · exact .panic
  case VMOVDQU =>
    split
    · exact (cost_storeN _ _ 16 0).bind fun _ _ _ => bd_ret
    · exact .panic
  all_goals repeat' first | split | bd_step | exact .load fun _ => bd_ret

theorem cost_exec (fr : Frame) (is : List Instr) : ∀ s, Bd (fun _ _ => True) (is.map Instr.cost).sum (exec fr is s) := by
  induction is with
  | nil => intro s; exact bd_ret
  | cons i is ih =>
    intro s
    simp only [List.map_cons, List.sum_cons, exec, Prog.bind_eq]
    rw [Nat.add_comm]
    exact bd_call _ (cost_step fr s i) fun s' => ih s'

theorem cost_put8Fast (inn : U32s) (out : Bytes) (sh lt : Ptr) :
    Bd (fun _ _ => True) 101 (put8uint32FastAsm inn out sh lt) := by
  unfold put8uint32FastAsm
  refine (cost_exec _ put8uint32FastText _).bind fun k s _ => ?_
  split
  · exact bd_ret
  · exact .panic

theorem cost_put8DeltaFast (inn : U32s) (out : Bytes) (prev : U32) (sh lt : Ptr) :
    Bd (fun _ _ => True) 101 (put8uint32DeltaFastAsm inn out prev sh lt) := by
  unfold put8uint32DeltaFastAsm
  refine (cost_exec _ put8uint32DeltaFastText _).bind fun k s _ => ?_
  split
  · exact bd_ret
  · exact .panic

theorem cost_get8Fast (inn : Bytes) (out : U32s) (ctrl : U16) (sh lt : Ptr) :
    Bd (fun _ _ => True) 97 (get8uint32FastAsm inn out ctrl sh lt) :=
  (cost_exec _ get8uint32FastText _).bind fun _ _ _ => bd_ret

theorem cost_get8DeltaFast (inn : Bytes) (out : U32s) (ctrl : U16) (prev : U32) (sh lt : Ptr) :
    Bd (fun _ _ => True) 97 (get8uint32DeltaFastAsm inn out ctrl prev sh lt) :=
  (cost_exec _ get8uint32DeltaFastText _).bind fun _ _ _ => bd_ret

end Asm

/-! ## Stream writers -/

macro "bd_step3" : tactic => `(tactic| first
  | with_reducible refine bd_call 101 (Asm.cost_put8Fast _ _ _ _) fun _ => ?_
  | with_reducible refine bd_call 101 (Asm.cost_put8DeltaFast _ _ _ _ _) fun _ => ?_
  | with_reducible refine bd_call 97 (Asm.cost_get8Fast _ _ _ _ _) fun _ => ?_
  | with_reducible refine bd_call 97 (Asm.cost_get8DeltaFast _ _ _ _ _ _) fun _ => ?_
  | with_reducible refine bd_call 32 (cost_put _ _ _) fun _ => ?_ | with_reducible refine bd_call 48 (cost_putDelta _ _ _ _) fun _ => ?_
  | with_reducible refine bd_call 32 (cost_get _ _ _ _) fun _ => ?_ | with_reducible refine bd_call 32 (cost_getDelta _ _ _ _ _) fun _ => ?_
  | bd_step2)

theorem cost_zeroFill (p : Ptr) (n : Nat) : Bd (fun _ _ => True) n (zeroFill p n) := by
  induction n generalizing p with
  | zero => exact bd_ret
  | succ n ih => exact .store (ih _)

theorem bd_make {β : Type} {Q : Nat → β → Prop} {k : Nat} {b : Block} {n : Nat} {f : Bytes → Prog β}
    (h : ∀ t, Bd Q k (f t)) : Bd Q (k + n) ((makeBytes b n).bind f) := by
  unfold makeBytes
  split
  · simp only [Prog.bind_eq, Prog.bind_assoc]
    exact bd_call _ (cost_zeroFill _ _) fun _ => h _
  · exact .panic

/-- `c` control bytes done; at least `K` accesses left for each of the remaining `N - c`. -/
def WInv (K N : Nat) (k : Nat) (s : WSt) : Prop :=
  ∃ c : Nat, s.ctrlPos = c ∧ s.encoded = 4 * c ∧ K * N ≤ k + K * c

/-- The same without `encoded`. -/
def WInv' (K N : Nat) (k : Nat) (s : WSt) : Prop :=
  ∃ c : Nat, s.ctrlPos = c ∧ K * N ≤ k + K * c

theorem cost_writeAllScalar (fresh : Block) (inn : U32s) (h : inn.len < 2 ^ 60) :
    Bd (fun _ _ => True) (38 * ctrlLen inn.len + (ctrlLen inn.len + 4 * inn.len)) (writeAllScalar fresh inn) := by
  unfold writeAllScalar
  simp only [Prog.bind_eq]
  rw [header_ctrlLen (by omega), header_total h, header_jump (by omega), header_lowest4 (by omega)]
  refine bd_make fun st => ?_
  refine Bd.bind (R := fun k s => WInv 38 (ctrlLen inn.len) k s ∧ s.encoded ≤ inn.len / 4 * 4)
    (Bd.loop (I := fun k s => WInv 38 (ctrlLen inn.len) k s ∧ s.encoded % 16 = 0 ∧ s.encoded ≤ inn.len / 16 * 16) ?_
      (fun _ _ _ h => ⟨h.1, by omega⟩) _ _ _ ⟨⟨0, rfl, rfl, by omega⟩, rfl, by simp only; omega⟩) fun k s hi => ?_
  · rintro k s hc ⟨⟨c, e1, e2, hk⟩, h16, hle⟩
    have hc := of_decide_eq_true hc
    have : 38 * ctrlLen inn.len ≥ 38 * (c + 4) := by unfold ctrlLen; omega
    obtain ⟨l, rfl⟩ : ∃ l, k = l + 152 := ⟨k - 152, by omega⟩
    unfold wsBody16
    simp only [Prog.pure_eq, Prog.bind_eq]
    repeat' bd_step3
    exact .ret ⟨⟨c + 4, by simp only [e1, jumpCtrl_val]; omega, by simp only [e2, jump_val]; omega, by omega⟩,
      by simp only [jump_val]; omega, by simp only [jump_val]; omega⟩
  refine Bd.bind (R := fun k s => WInv 38 (ctrlLen inn.len) k s ∧ s.encoded ≤ inn.len / 4 * 4)
    (Bd.loop (I := fun k s => WInv 38 (ctrlLen inn.len) k s ∧ s.encoded ≤ inn.len / 4 * 4) ?_
    (fun _ _ _ h => h) _ _ _ hi) fun k s hi => ?_
  · rintro k s hc ⟨⟨c, e1, e2, hk⟩, hle⟩
    have hc := of_decide_eq_true hc
    have : 38 * ctrlLen inn.len ≥ 38 * (c + 1) := by unfold ctrlLen; omega
    obtain ⟨l, rfl⟩ : ∃ l, k = l + 38 := ⟨k - 38, by omega⟩
    unfold wsBody4
    simp only [Prog.pure_eq, Prog.bind_eq]
    repeat' bd_step3
    exact .ret ⟨⟨c + 1, by simp only [e1]; omega, by simp only [e2]; omega, by omega⟩, by simp only; omega⟩
  obtain ⟨⟨c, e1, e2, hk⟩, hle⟩ := hi
  split
  · have : 38 * ctrlLen inn.len ≥ 38 * (c + 1) := by unfold ctrlLen; omega
    obtain ⟨l, rfl⟩ : ∃ l, k = l + 38 := ⟨k - 38, by omega⟩
    repeat' bd_step3
  · repeat' bd_step3

theorem cost_writeAllDeltaScalar (fresh : Block) (inn : U32s) (prev : U32) (h : inn.len < 2 ^ 60) :
    Bd (fun _ _ => True) (54 * ctrlLen inn.len + (ctrlLen inn.len + 4 * inn.len))
      (writeAllDeltaScalar fresh inn prev) := by
  unfold writeAllDeltaScalar
  simp only [Prog.bind_eq]
  rw [header_ctrlLen (by omega), header_total h, header_jump (by omega), header_lowest4 (by omega)]
  refine bd_make fun st => ?_
  refine Bd.bind (R := fun k s => WInv 54 (ctrlLen inn.len) k s ∧ s.encoded ≤ inn.len / 4 * 4)
    (Bd.loop (I := fun k s => WInv 54 (ctrlLen inn.len) k s ∧ s.encoded % 16 = 0 ∧ s.encoded ≤ inn.len / 16 * 16) ?_
      (fun _ _ _ h => ⟨h.1, by omega⟩) _ _ _ ⟨⟨0, rfl, rfl, by omega⟩, rfl, by simp only; omega⟩) fun k s hi => ?_
  · rintro k s hc ⟨⟨c, e1, e2, hk⟩, h16, hle⟩
    have hc := of_decide_eq_true hc
    have : 54 * ctrlLen inn.len ≥ 54 * (c + 4) := by unfold ctrlLen; omega
    obtain ⟨l, rfl⟩ : ∃ l, k = l + 216 := ⟨k - 216, by omega⟩
    unfold wdsBody16
    simp only [Prog.pure_eq, Prog.bind_eq]
    repeat' bd_step3
    exact .ret ⟨⟨c + 4, by simp only [e1, jumpCtrl_val]; omega, by simp only [e2, jump_val]; omega, by omega⟩,
      by simp only [jump_val]; omega, by simp only [jump_val]; omega⟩
  refine Bd.bind (R := fun k s => WInv 54 (ctrlLen inn.len) k s ∧ s.encoded ≤ inn.len / 4 * 4)
    (Bd.loop (I := fun k s => WInv 54 (ctrlLen inn.len) k s ∧ s.encoded ≤ inn.len / 4 * 4) ?_
    (fun _ _ _ h => h) _ _ _ hi) fun k s hi => ?_
  · rintro k s hc ⟨⟨c, e1, e2, hk⟩, hle⟩
    have hc := of_decide_eq_true hc
    have : 54 * ctrlLen inn.len ≥ 54 * (c + 1) := by unfold ctrlLen; omega
    obtain ⟨l, rfl⟩ : ∃ l, k = l + 54 := ⟨k - 54, by omega⟩
    unfold wdsBody4
    simp only [Prog.pure_eq, Prog.bind_eq]
    repeat' bd_step3
    exact .ret ⟨⟨c + 1, by simp only [e1]; omega, by simp only [e2]; omega, by omega⟩, by simp only; omega⟩
  obtain ⟨⟨c, e1, e2, hk⟩, hle⟩ := hi
  split
  · have : 54 * ctrlLen inn.len ≥ 54 * (c + 1) := by unfold ctrlLen; omega
    obtain ⟨l, rfl⟩ : ∃ l, k = l + 54 := ⟨k - 54, by omega⟩
    repeat' bd_step3
  · repeat' bd_step3

theorem low32_le {n : Nat} (h : n < 2 ^ 61) : lowest32Of (n : Int) ≤ 4 * (n : Int) - 12 ∧ lowest32Of (n : Int) % 32 = 0 := by
  rw [header_lowest32 h]
  omega

theorem cost_writeAllFast (fresh : Block) (inn : U32s) (h : inn.len < 2 ^ 60) :
    Bd (fun _ _ => True) (53 * ctrlLen inn.len + (ctrlLen inn.len + 4 * inn.len)) (writeAllFast fresh inn) := by
  unfold writeAllFast
  simp only [Prog.bind_eq]
  rw [header_ctrlLen (by omega), header_total h]
  have hlow := low32_le (n := ctrlLen inn.len) (by unfold ctrlLen; omega)
  generalize lowest32Of _ = low at hlow
  refine bd_make fun st => ?_
  refine Bd.bind (R := WInv' 53 (ctrlLen inn.len))
    (Bd.loop (I := fun k s => WInv 53 (ctrlLen inn.len) k s ∧ s.encoded % 32 = 0) ?_
      (fun _ _ _ ⟨⟨c, e1, e2, hk⟩, _⟩ => ⟨c, e1, hk⟩) _ _ _ ⟨⟨0, rfl, rfl, by omega⟩, rfl⟩) fun k s hi => ?_
  · rintro k s hc ⟨⟨c, e1, e2, hk⟩, h32⟩
    have hc := of_decide_eq_true hc
    have : 53 * ctrlLen inn.len ≥ 53 * (c + 8) := by omega
    obtain ⟨l, rfl⟩ : ∃ l, k = l + 420 := ⟨k - 420, by omega⟩
    unfold wfBody32
    simp only [Prog.pure_eq, Prog.bind_eq]
    repeat' bd_step3
    exact .ret ⟨⟨c + 8, by simp only [e1]; omega, by simp only [e2]; omega, by omega⟩, by simp only; omega⟩
  refine Bd.bind (R := WInv' 53 (ctrlLen inn.len)) (Bd.loop (I := WInv' 53 (ctrlLen inn.len)) ?_
    (fun _ _ _ h => h) _ _ _ hi) fun k s hi => ?_
  · rintro k s hc ⟨c, e1, hk⟩
    have hc := of_decide_eq_true hc
    obtain ⟨l, rfl⟩ : ∃ l, k = l + 105 := ⟨k - 105, by omega⟩
    unfold wfBody8
    simp only [Prog.pure_eq, Prog.bind_eq]
    repeat' bd_step3
    exact .ret ⟨c + 2, by simp only [e1]; omega, by omega⟩
  refine Bd.bind (R := fun _ _ => True) (Bd.loop (I := WInv' 53 (ctrlLen inn.len)) ?_
    (fun _ _ _ h => trivial) _ _ _ hi) fun k s hi => ?_
  · rintro k s hc ⟨c, e1, hk⟩
    have hc := of_decide_eq_true hc
    obtain ⟨l, rfl⟩ : ∃ l, k = l + 53 := ⟨k - 53, by omega⟩
    unfold wfBody1
    simp only [Prog.pure_eq, Prog.bind_eq]
    repeat' bd_step3
    exact .ret ⟨c + 1, by simp only [e1]; omega, by omega⟩
  repeat' bd_step3

theorem cost_writeAllDeltaFast (fresh : Block) (inn : U32s) (prev : U32) (h : inn.len < 2 ^ 60) :
    Bd (fun _ _ => True) (55 * ctrlLen inn.len + (ctrlLen inn.len + 4 * inn.len))
      (writeAllDeltaFast fresh inn prev) := by
  unfold writeAllDeltaFast
  simp only [Prog.bind_eq]
  rw [header_ctrlLen (by omega), header_total h]
  have hlow := low32_le (n := ctrlLen inn.len) (by unfold ctrlLen; omega)
  generalize lowest32Of _ = low at hlow
  refine bd_make fun st => ?_
  refine Bd.bind (R := WInv' 55 (ctrlLen inn.len))
    (Bd.loop (I := fun k s => WInv 55 (ctrlLen inn.len) k s ∧ s.encoded % 32 = 0) ?_
      (fun _ _ _ ⟨⟨c, e1, e2, hk⟩, _⟩ => ⟨c, e1, hk⟩) _ _ _ ⟨⟨0, rfl, rfl, by omega⟩, rfl⟩) fun k s hi => ?_
  · rintro k s hc ⟨⟨c, e1, e2, hk⟩, h32⟩
    have hc := of_decide_eq_true hc
    have : 55 * ctrlLen inn.len ≥ 55 * (c + 8) := by omega
    obtain ⟨l, rfl⟩ : ∃ l, k = l + 436 := ⟨k - 436, by omega⟩
    unfold wdfBody32
    simp only [Prog.pure_eq, Prog.bind_eq]
    repeat' bd_step3
    exact .ret ⟨⟨c + 8, by simp only [e1]; omega, by simp only [e2]; omega, by omega⟩, by simp only; omega⟩
  refine Bd.bind (R := WInv' 55 (ctrlLen inn.len)) (Bd.loop (I := WInv' 55 (ctrlLen inn.len)) ?_
    (fun _ _ _ h => h) _ _ _ hi) fun k s hi => ?_
  · rintro k s hc ⟨c, e1, hk⟩
    have hc := of_decide_eq_true hc
    obtain ⟨l, rfl⟩ : ∃ l, k = l + 109 := ⟨k - 109, by omega⟩
    unfold wdfBody8
    simp only [Prog.pure_eq, Prog.bind_eq]
    repeat' bd_step3
    exact .ret ⟨c + 2, by simp only [e1]; omega, by omega⟩
  refine Bd.bind (R := fun _ _ => True) (Bd.loop (I := WInv' 55 (ctrlLen inn.len)) ?_
    (fun _ _ _ h => trivial) _ _ _ hi) fun k s hi => ?_
  · rintro k s hc ⟨c, e1, hk⟩
    have hc := of_decide_eq_true hc
    obtain ⟨l, rfl⟩ : ∃ l, k = l + 55 := ⟨k - 55, by omega⟩
    unfold wdfBody1
    simp only [Prog.pure_eq, Prog.bind_eq]
    repeat' bd_step3
    exact .ret ⟨c + 1, by simp only [e1]; omega, by omega⟩
  repeat' bd_step3

end SVB
