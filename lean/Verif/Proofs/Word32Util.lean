import Verif.Model.Word32Util
import Verif.Proofs.Word32
import Verif.Proofs.Arith

/-! # Where `int` has 32 bits, the functions of package `util` do what they do with 64 bits -/

set_option autoImplicit false

namespace SVB.Word32
open Prog

/-- All values a program can return satisfy `P`, whatever it loads. -/
def Rets {α : Type} (P : α → Prop) : Prog α → Prop
  | .ret a => P a
  | .panic _ => True
  | .load _ k => ∀ b, Rets P (k b)
  | .store _ _ k => Rets P k

theorem Rets.mono {α : Type} {P Q : α → Prop} {p : Prog α} (h : Rets P p) (hq : ∀ a, P a → Q a) : Rets Q p := by
  induction p with
  | ret a => exact hq a h
  | panic k => trivial
  | load q k ih => exact fun b => ih b (h b)
  | store q v k ih => exact ih h

theorem Rets.bind {α β : Type} {P : α → Prop} {Q : β → Prop} {p : Prog α} {f : α → Prog β} (h : Rets P p)
    (hf : ∀ a, P a → Rets Q (f a)) : Rets Q (p.bind f) := by
  induction p with
  | ret a => exact hf a h
  | panic k => trivial
  | load q k ih => exact fun b => ih b (h b)
  | store q v k ih => exact ih h

theorem rets_true {α : Type} (p : Prog α) : Rets (fun _ => True) p := by
  induction p with
  | ret a => trivial
  | panic k => trivial
  | load q k ih => exact fun b => ih b
  | store q v k ih => exact ih

theorem bind_congr {α β : Type} {P : α → Prop} {p : Prog α} {f g : α → Prog β} (h : Rets P p) (hf : ∀ a, P a → f a = g a) :
    p.bind f = p.bind g := by
  induction p with
  | ret a => exact hf a h
  | panic k => rfl
  | load q k ih => simp only [Prog.bind]; congr; funext b; exact ih b (h b)
  | store q v k ih => simp only [Prog.bind]; rw [ih h]

theorem rets_loop {σ : Type} (I : σ → Prop) {cond : σ → Bool} {body : σ → Prog σ}
    (hb : ∀ s, I s → cond s = true → Rets I (body s)) : ∀ (fuel : Nat) (s : σ), I s → Rets I (loop fuel cond body s)
  | 0, s, h => by unfold loop; split <;> first | trivial | exact h
  | n + 1, s, h => by
    unfold loop
    split
    · next ht => exact Rets.bind (hb s h ht) fun s' h' => rets_loop I hb n s' h'
    · exact h

/-- Two loops whose bodies agree on the invariant. -/
theorem loop_congr {σ : Type} (I : σ → Prop) {cond : σ → Bool} {body body' : σ → Prog σ}
    (hb : ∀ s, I s → cond s = true → body' s = body s ∧ Rets I (body s)) :
    ∀ (fuel : Nat) (s : σ), I s → loop fuel cond body' s = loop fuel cond body s
  | 0, s, h => by unfold loop; rfl
  | n + 1, s, h => by
    unfold loop
    split
    · next ht =>
      obtain ⟨h1, h2⟩ := hb s h ht
      rw [h1]
      exact bind_congr h2 fun s' h' => loop_congr I hb n s' h'
    · rfl

theorem rets_setB {s : Bytes} {i : Int} {v : Byte} : Rets (fun _ => 0 ≤ i ∧ i < s.len) (setB s i v) := by
  unfold setB
  split
  · next h => exact h
  · trivial

theorem rets_setW {s : U32s} {i : Int} {v : U32} : Rets (fun _ => 0 ≤ i ∧ i < s.len) (setW s i v) := by
  unfold setW
  split
  · next h => exact h
  · trivial

theorem rets_getW {s : U32s} {i : Int} : Rets (fun _ => 0 ≤ i ∧ i < s.len) (getW s i) := by
  unfold getW
  split
  · next h => exact fun _ _ _ _ => h
  · trivial

theorem rets_from {e : Nat} {s : Slice e} {a : Int} :
    Rets (fun d => 0 ≤ a ∧ a ≤ s.len ∧ d.len = s.len - a.toNat) (s.from a) := by
  unfold Slice.from
  split
  · next h => exact ⟨h.1, h.2, rfl⟩
  · trivial

theorem rets_putUvarint {buf : Bytes} {x : U64} : Rets (fun z : Int => 1 ≤ z ∧ z ≤ buf.len) (putUvarint buf x) := by
  unfold putUvarint
  refine Rets.bind (rets_loop (fun s : U64 × Int => 0 ≤ s.2) (fun s hs _ => ?_) _ _ (Int.le_refl _)) fun s hs => ?_
  · exact Rets.bind rets_setB fun _ h => by show 0 ≤ s.2 + 1; omega
  · exact Rets.bind rets_setB fun _ h => by show 1 ≤ s.2 + 1 ∧ s.2 + 1 ≤ _; omega

theorem rets_uvarintLoop (buf : Bytes) : ∀ (r i : Nat) (x : U64) (s : Nat), i + r = buf.len → i ≤ 10 →
    Rets (fun z : U64 × Int => -11 ≤ z.2 ∧ z.2 ≤ buf.len) (uvarintLoop buf r i x s)
  | 0, i, x, s, _, _ => by unfold uvarintLoop; show (-11 : Int) ≤ 0 ∧ (0 : Int) ≤ _; omega
  | r + 1, i, x, s, h, hi => by
    unfold uvarintLoop
    refine Rets.bind (rets_true _) fun b _ => ?_
    split
    · show (-11 : Int) ≤ -(i + 1) ∧ -((i : Int) + 1) ≤ _; omega
    split
    · split
      · show (-11 : Int) ≤ -(i + 1) ∧ -((i : Int) + 1) ≤ _; omega
      · show (-11 : Int) ≤ (i + 1) ∧ ((i : Int) + 1) ≤ _; omega
    · exact rets_uvarintLoop buf r (i + 1) _ _ (by omega) (by omega)

theorem rets_uvarint {buf : Bytes} : Rets (fun z : U64 × Int => -11 ≤ z.2 ∧ z.2 ≤ buf.len) (uvarint buf) :=
  rets_uvarintLoop buf buf.len 0 0 0 (by omega) (by omega)

theorem putVarint_eq {nums : U32s} {out : Bytes} (hn : nums.len < 2 ^ 31) (ho : out.len < 2 ^ 31) :
    putVarint nums out = SVB.putVarint nums out := by
  unfold putVarint SVB.putVarint
  simp only [bind_eq]
  congr 1
  refine loop_congr (fun s : Int × Int => 0 ≤ s.1 ∧ s.1 ≤ nums.len ∧ 0 ≤ s.2 ∧ s.2 ≤ out.len) (fun s hs ht => ?_) _ _
    ⟨by omega, by simp, by omega, by simp⟩
  have ht' := of_decide_eq_true ht
  refine ⟨bind_congr rets_from fun o h1 => bind_congr rets_getW fun v h2 => bind_congr rets_putUvarint fun z h3 => ?_,
    Rets.bind rets_from fun o h1 => Rets.bind rets_getW fun v h2 => Rets.bind rets_putUvarint fun z h3 => ?_⟩
  · rw [int32_eq (by omega) (by omega), int32_eq (by omega) (by omega), int64_eq (by omega) (by omega)]
  · show 0 ≤ s.1 + 1 ∧ s.1 + 1 ≤ _ ∧ 0 ≤ int64 (s.2 + z) ∧ int64 (s.2 + z) ≤ _
    rw [int64_eq (by omega) (by omega)]
    omega

theorem putDeltaVarint_eq {nums : U32s} {out : Bytes} (prev : U32) (hn : nums.len < 2 ^ 31) (ho : out.len < 2 ^ 31) :
    putDeltaVarint nums out prev = SVB.putDeltaVarint nums out prev := by
  unfold putDeltaVarint SVB.putDeltaVarint
  simp only [bind_eq]
  congr 1
  refine loop_congr (fun s : Int × Int × U32 => 0 ≤ s.1 ∧ s.1 ≤ nums.len ∧ 0 ≤ s.2.1 ∧ s.2.1 ≤ out.len) (fun s hs ht => ?_) _ _
    ⟨by omega, by simp, by simp, by simp⟩
  have ht' := of_decide_eq_true ht
  refine ⟨bind_congr rets_from fun o h1 => bind_congr rets_getW fun v h2 => bind_congr rets_putUvarint fun z h3 =>
      bind_congr rets_getW fun w h4 => ?_,
    Rets.bind rets_from fun o h1 => Rets.bind rets_getW fun v h2 => Rets.bind rets_putUvarint fun z h3 =>
      Rets.bind rets_getW fun w h4 => ?_⟩
  · rw [int32_eq (by omega) (by omega), int32_eq (by omega) (by omega), int64_eq (by omega) (by omega)]
  · show 0 ≤ s.1 + 1 ∧ s.1 + 1 ≤ _ ∧ 0 ≤ int64 (s.2.1 + z) ∧ int64 (s.2.1 + z) ≤ _
    rw [int64_eq (by omega) (by omega)]
    omega

theorem getVarint_eq {data : Bytes} {out : U32s} (hd : data.len < 2 ^ 31) (ho : out.len < 2 ^ 31) :
    getVarint data out = SVB.getVarint data out := by
  unfold getVarint SVB.getVarint
  simp only [bind_eq]
  congr 1
  refine loop_congr (fun s : Int × Int => -11 ≤ s.1 ∧ s.1 ≤ data.len ∧ 0 ≤ s.2 ∧ s.2 ≤ out.len) (fun s hs ht => ?_) _ _
    ⟨by simp, by simp, by simp, by simp⟩
  refine ⟨bind_congr rets_from fun d h1 => bind_congr rets_uvarint fun r h2 => bind_congr rets_setW fun _ h3 => ?_,
    Rets.bind rets_from fun d h1 => Rets.bind rets_uvarint fun r h2 => Rets.bind rets_setW fun _ h3 => ?_⟩
  · rw [int32_eq (by omega) (by omega), int32_eq (by omega) (by omega), int64_eq (by omega) (by omega)]
  · show -11 ≤ int64 (s.1 + r.2) ∧ int64 (s.1 + r.2) ≤ _ ∧ 0 ≤ s.2 + 1 ∧ s.2 + 1 ≤ _
    rw [int64_eq (by omega) (by omega)]
    omega

theorem getDeltaVarint_eq {data : Bytes} {out : U32s} (prev : U32) (hd : data.len < 2 ^ 31) (ho : out.len < 2 ^ 31) :
    getDeltaVarint data out prev = SVB.getDeltaVarint data out prev := by
  unfold getDeltaVarint SVB.getDeltaVarint
  simp only [bind_eq]
  congr 1
  refine loop_congr (fun s : Int × Int × U32 => -11 ≤ s.1 ∧ s.1 ≤ data.len ∧ 0 ≤ s.2.1 ∧ s.2.1 ≤ out.len) (fun s hs ht => ?_) _ _
    ⟨by simp, by simp, by simp, by simp⟩
  refine ⟨bind_congr rets_from fun d h1 => bind_congr rets_uvarint fun r h2 => bind_congr rets_setW fun _ h3 => ?_,
    Rets.bind rets_from fun d h1 => Rets.bind rets_uvarint fun r h2 => Rets.bind rets_setW fun _ h3 => ?_⟩
  · rw [int32_eq (by omega) (by omega), int32_eq (by omega) (by omega), int64_eq (by omega) (by omega)]
  · show -11 ≤ int64 (s.1 + r.2) ∧ int64 (s.1 + r.2) ≤ _ ∧ 0 ≤ s.2.1 + 1 ∧ s.2.1 + 1 ≤ _
    rw [int64_eq (by omega) (by omega)]
    omega

theorem utilDelta_eq {inn out : U32s} (hn : inn.len < 2 ^ 31) : utilDelta inn out = SVB.utilDelta inn out := by
  unfold utilDelta SVB.utilDelta
  simp only [bind_eq]
  congr 1
  refine loop_congr (fun i : Int => 0 ≤ i ∧ i ≤ inn.len) (fun i hi ht => ?_) _ _ ⟨by omega, by omega⟩
  have ht' := of_decide_eq_true ht
  rw [int32_eq (by omega) (by omega), int32_eq (by omega) (by omega)]
  refine ⟨rfl, ?_⟩
  split
  · exact Rets.bind (rets_true _) fun _ _ => Rets.bind (rets_true _) fun _ _ => Rets.bind (rets_true _) fun _ _ =>
      show 0 ≤ i + 1 ∧ i + 1 ≤ _ by omega
  · exact Rets.bind (rets_true _) fun _ _ => Rets.bind (rets_true _) fun _ _ => show 0 ≤ i + 1 ∧ i + 1 ≤ _ by omega

end SVB.Word32
