import Verif.Proofs.CostStream

/-! # Memory accesses of the dispatchers and the varint writers -/

set_option autoImplicit false
set_option linter.unusedSimpArgs false

namespace SVB
open Prog Asm

attribute [local irreducible] Prog.Within put8uint32FastAsm put8uint32DeltaFastAsm get8uint32FastAsm get8uint32DeltaFastAsm
  put4uint32Scalar put4uint32DeltaScalar putUint32Scalar putUint32DeltaScalar get4uint32Scalar get4uint32DeltaScalar
  getUint32Scalar getUint32DeltaScalar encodeOne decodeOne

/-! ## Dispatchers -/

theorem within_onAmd64 {α : Type} {P : α → Prop} {n : Nat} (c : Cpu) {p : Prog α} (h : p.Within P n) : (onAmd64 c p).Within P n := by
  unfold onAmd64
  split
  · exact h
  · unfold stub Prog.Within
    trivial

/-! ## Package `util` -/

theorem within_putUvarint (buf : Bytes) (x : U64) (hx : x.toNat < 2 ^ 32) : (putUvarint buf x).Within (fun _ => True) 5 := by
  unfold putUvarint
  simp only [bind_eq, pure_eq]
  refine within_loop (B := 5) (c := 1) (fun (s : U64 × Int) (n : Nat) => s.1.toNat * 128 ^ n < 2 ^ 32 ∧ n ≤ 4) _ _ ?_ _ _ 0 ?_
    (by decide) _ ?_
  · intro s n hi hc
    have hc := of_decide_eq_true hc
    obtain ⟨h1, h2⟩ := hi
    have h3 : n ≤ 3 := by
      rcases Nat.lt_or_ge n 4 with h | h
      · omega
      · have := Nat.pow_le_pow_right (n := 128) (by decide) h
        have := Nat.mul_le_mul hc this
        omega
    refine ⟨by omega, ?_⟩
    refine Prog.Within.bind (within_setB _ _ _) (by decide) fun _ _ => ?_
    refine within_ret ⟨?_, by omega⟩
    show (s.1 >>> 7).toNat * 128 ^ (n + 1) < 2 ^ 32
    rw [BitVec.toNat_ushiftRight, Nat.shiftRight_eq_div_pow, show 128 ^ (n + 1) = 128 ^ n * 128 from rfl, Nat.mul_comm (128 ^ n), ← Nat.mul_assoc]
    exact Nat.lt_of_le_of_lt (Nat.mul_le_mul_right _ (Nat.div_mul_le_self _ _)) h1
  · exact ⟨by simpa using hx, by decide⟩
  · intro s n hi hc hB
    refine Prog.Within.bind (within_setB _ _ _) (by omega) fun _ _ => ?_
    exact within_ret trivial

theorem toNat_widen_lt (v : U32) : (v.setWidth 64 : U64).toNat < 2 ^ 32 := by
  rw [BitVec.toNat_setWidth]
  exact Nat.lt_of_le_of_lt (Nat.mod_le _ _) v.isLt

theorem within_putVarint (nums : U32s) (out : Bytes) : (putVarint nums out).Within (fun _ => True) (9 * nums.len) := by
  unfold putVarint
  simp only [bind_eq, pure_eq]
  refine within_loop (B := 9 * nums.len) (c := 9) (fun (s : Int × Int) (n : Nat) => (n : Int) = 9 * s.1 ∧ 0 ≤ s.1) _ _ ?_ _ _ 0 ?_
    (Nat.zero_le _) _ ?_
  · intro s n hi hc
    have hc := of_decide_eq_true hc
    refine ⟨by omega, ?_⟩
    refine Prog.Within.bind (within_from _ _) (by decide) fun o _ => ?_
    refine Prog.Within.bind (within_getW _ _) (by decide) fun v _ => ?_
    refine Prog.Within.bind (within_putUvarint _ _ (toNat_widen_lt _)) (by decide) fun z _ => ?_
    refine within_ret ?_
    dsimp only
    omega
  · dsimp only; omega
  · intro s n _ _ _
    exact within_ret trivial

theorem within_putDeltaVarint (nums : U32s) (out : Bytes) (prev : U32) :
    (putDeltaVarint nums out prev).Within (fun _ => True) (13 * nums.len) := by
  unfold putDeltaVarint
  simp only [bind_eq, pure_eq]
  refine within_loop (B := 13 * nums.len) (c := 13) (fun (s : Int × Int × U32) (n : Nat) => (n : Int) = 13 * s.1 ∧ 0 ≤ s.1) _ _ ?_ _ _ 0 ?_
    (Nat.zero_le _) _ ?_
  · intro s n hi hc
    have hc := of_decide_eq_true hc
    refine ⟨by omega, ?_⟩
    refine Prog.Within.bind (within_from _ _) (by decide) fun o _ => ?_
    refine Prog.Within.bind (within_getW _ _) (by decide) fun v _ => ?_
    refine Prog.Within.bind (within_putUvarint _ _ (toNat_widen_lt _)) (by decide) fun z _ => ?_
    refine Prog.Within.bind (within_getW _ _) (by decide) fun v _ => ?_
    refine within_ret ?_
    dsimp only
    omega
  · dsimp only; omega
  · intro s n _ _ _
    exact within_ret trivial

end SVB
