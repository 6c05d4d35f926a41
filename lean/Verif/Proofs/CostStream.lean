import Verif.Proofs.Cost

/-! # Memory accesses of the readers -/

set_option autoImplicit false
set_option linter.unusedSimpArgs false

namespace SVB
open Prog Asm

attribute [local irreducible] Prog.Within put8uint32FastAsm put8uint32DeltaFastAsm get8uint32FastAsm get8uint32DeltaFastAsm
  put4uint32Scalar put4uint32DeltaScalar putUint32Scalar putUint32DeltaScalar get4uint32Scalar get4uint32DeltaScalar
  getUint32Scalar getUint32DeltaScalar encodeOne decodeOne

macro "cost_block" : tactic => `(tactic| first
  | cost_step5
  | ((repeat rewrite [Prog.bind_assoc]); with_reducible first
    | (refine Prog.Within.bind (within_get4uint32Scalar _ _ _) (by first | decide | omega) fun _ _ => ?_)
    | (refine Prog.Within.bind (within_get4uint32DeltaScalar _ _ _ _) (by first | decide | omega) fun _ _ => ?_)
    | (refine Prog.Within.bind (within_getUint32Scalar _ _ _ _) (by first | decide | omega) fun _ _ => ?_)
    | (refine Prog.Within.bind (within_getUint32DeltaScalar _ _ _ _ _) (by first | decide | omega) fun _ _ => ?_)
    | (refine Prog.Within.bind (within_get8uint32FastAsm _ _ _ _ _) (by first | decide | omega) fun _ _ => ?_)
    | (refine Prog.Within.bind (within_get8uint32DeltaFastAsm _ _ _ _ _ _) (by first | decide | omega) fun _ _ => ?_)))

theorem within_rsBody16 (stream : Bytes) (out : U32s) (s : RSt) : (rsBody16 stream out s).Within
    (fun s' => s'.decoded = s.decoded + 16 ∧ s'.ctrlPos = s.ctrlPos + 4 ∧ 0 ≤ s.dataPos ∧ s.decoded + 16 ≤ out.cap) 152 := by
  unfold rsBody16
  simp only [bind_eq, pure_eq, jump_val, jumpCtrl_val]
  repeat cost_block
  refine within_ret ?_
  exact ⟨rfl, rfl, by omega, by omega⟩

theorem within_rdsBody16 (stream : Bytes) (out : U32s) (s : RSt) : (rdsBody16 stream out s).Within
    (fun s' => s'.decoded = s.decoded + 16 ∧ s'.ctrlPos = s.ctrlPos + 4 ∧ 0 ≤ s.dataPos ∧ s.decoded + 16 ≤ out.cap) 232 := by
  unfold rdsBody16
  simp only [bind_eq, pure_eq, jump_val, jumpCtrl_val]
  repeat cost_block
  refine within_ret ?_
  exact ⟨rfl, rfl, by omega, by omega⟩

theorem within_rsBody4 (stream : Bytes) (out : U32s) (s : RSt) : (rsBody4 stream out s).Within
    (fun s' => s'.decoded = s.decoded + 4 ∧ s'.ctrlPos = s.ctrlPos + 1 ∧ s.decoded + 4 ≤ out.len) 38 := by
  unfold rsBody4
  simp only [bind_eq, pure_eq, jump_val, jumpCtrl_val]
  repeat cost_block
  refine within_ret ?_
  refine ⟨rfl, rfl, ?_⟩
  grind

theorem within_rdsBody4 (stream : Bytes) (out : U32s) (s : RSt) : (rdsBody4 stream out s).Within
    (fun s' => s'.decoded = s.decoded + 4 ∧ s'.ctrlPos = s.ctrlPos + 1 ∧ s.decoded + 4 ≤ out.len) 58 := by
  unfold rdsBody4
  simp only [bind_eq, pure_eq, jump_val, jumpCtrl_val]
  repeat cost_block
  refine within_ret ?_
  exact ⟨rfl, rfl, by omega⟩

theorem within_rfBody32 (stream : Bytes) (out : U32s) (s : RSt) : (rfBody32 stream out s).Within
    (fun s' => s'.decoded = s.decoded + 32 ∧ s'.ctrlPos = s.ctrlPos + 8 ∧ 0 ≤ s.dataPos ∧ s.decoded + 32 ≤ out.cap) 412 := by
  unfold rfBody32
  simp only [bind_eq, pure_eq, jump_val, jumpCtrl_val]
  repeat cost_block
  refine within_ret ?_
  exact ⟨rfl, rfl, by omega, by omega⟩

theorem within_rdfBody32 (stream : Bytes) (out : U32s) (s : RSt) : (rdfBody32 stream out s).Within
    (fun s' => s'.decoded = s.decoded + 32 ∧ s'.ctrlPos = s.ctrlPos + 8 ∧ 0 ≤ s.dataPos ∧ s.decoded + 32 ≤ out.cap) 428 := by
  unfold rdfBody32
  simp only [bind_eq, pure_eq, jump_val, jumpCtrl_val]
  repeat cost_block
  refine within_ret ?_
  exact ⟨rfl, rfl, by omega, by omega⟩

theorem within_rfBody8 (stream : Bytes) (out : U32s) (s : RSt) : (rfBody8 stream out s).Within
    (fun s' => s'.decoded = s.decoded + 8 ∧ s'.ctrlPos = s.ctrlPos + 2 ∧ s.decoded ≤ out.len) 103 := by
  unfold rfBody8
  simp only [bind_eq, pure_eq, jump_val, jumpCtrl_val]
  repeat cost_block
  refine within_ret ?_
  exact ⟨rfl, rfl, by omega⟩

theorem within_rdfBody8 (stream : Bytes) (out : U32s) (s : RSt) : (rdfBody8 stream out s).Within
    (fun s' => s'.decoded = s.decoded + 8 ∧ s'.ctrlPos = s.ctrlPos + 2 ∧ s.decoded ≤ out.len) 107 := by
  unfold rdfBody8
  simp only [bind_eq, pure_eq, jump_val, jumpCtrl_val]
  repeat cost_block
  refine within_ret ?_
  exact ⟨rfl, rfl, by omega⟩

theorem within_rfBody1 (count : Int) (stream : Bytes) (out : U32s) (s : RSt) : (rfBody1 count stream out s).Within
    (fun s' => (4 ≤ count - s.decoded → s'.decoded = s.decoded + 4) ∧ (count - s.decoded ≤ 4 → s'.decoded = count) ∧ s'.ctrlPos = s.ctrlPos + 1 ∧ s.decoded ≤ out.len) 33 := by
  unfold rfBody1
  simp only [bind_eq, pure_eq, jump_val, jumpCtrl_val]
  repeat cost_block
  refine within_ret ?_
  refine ⟨fun h => ?_, fun h => ?_, rfl, by omega⟩ <;> dsimp only <;> split <;> omega

theorem within_rdfBody1 (count : Int) (stream : Bytes) (out : U32s) (s : RSt) : (rdfBody1 count stream out s).Within
    (fun s' => (4 ≤ count - s.decoded → s'.decoded = s.decoded + 4) ∧ (count - s.decoded ≤ 4 → s'.decoded = count) ∧ s'.ctrlPos = s.ctrlPos + 1 ∧ s.decoded ≤ out.len) 37 := by
  unfold rdfBody1
  simp only [bind_eq, pure_eq, jump_val, jumpCtrl_val]
  repeat cost_block
  refine within_ret ?_
  refine ⟨fun h => ?_, fun h => ?_, rfl, by omega⟩ <;> dsimp only <;> split <;> omega

/-! ## The whole functions -/

theorem within_readAllScalar (count : Int) (st : Bytes) (out : U32s) (h1 : -2 ^ 63 ≤ count) (h2 : count < 2 ^ 63)
    (ho : out.len ≤ out.cap) :
    (readAllScalar count st out).Within (fun _ => True) (10 * min count.toNat out.cap + 152) := by
  unfold readAllScalar
  simp only [bind_eq, pure_eq]
  rw [jump_val, show (16 - 1 : Int) = 15 from rfl, andNot15 h1 h2, andNot3 h1 h2]
  generalize hL : min count.toNat out.cap = L
  refine within_loop (B := 10 * L + 152) (c := 152) (fun (s : RSt) (n : Nat) => 0 ≤ s.decoded ∧ s.decoded % 16 = 0 ∧
    s.decoded ≤ (L : Int) ∧ 2 * (n : Int) ≤ 19 * s.decoded) _ _ ?_ _ _ 0 ?_ (Nat.zero_le _) _ ?_
  · intro s n hi hc
    have hc := of_decide_eq_true hc
    exact ⟨by omega, (within_rsBody16 _ _ _).mono (Nat.le_refl _) fun s' h => by omega⟩
  · dsimp only; omega
  · intro s n hi hc hB
    refine within_loop (c := 38) (fun (s : RSt) (n : Nat) => 0 ≤ s.decoded ∧ s.decoded % 4 = 0 ∧
      s.decoded ≤ (L : Int) ∧ 2 * (n : Int) ≤ 19 * s.decoded) _ _ ?_ _ _ _ ?_ ?_ _ ?_
    · intro s n hi hc
      have hc := of_decide_eq_true hc
      exact ⟨by omega, (within_rsBody4 _ _ _).mono (Nat.le_refl _) fun s' h => by omega⟩
    · omega
    · omega
    · intro s n hi hc hB
      split
      · repeat cost_block
        exact within_ret trivial
      · exact within_ret trivial

theorem within_readAllDeltaScalar (count : Int) (st : Bytes) (out : U32s) (prev : U32) (h1 : -2 ^ 63 ≤ count) (h2 : count < 2 ^ 63)
    (ho : out.len ≤ out.cap) :
    (readAllDeltaScalar count st out prev).Within (fun _ => True) (15 * min count.toNat out.cap + 232) := by
  unfold readAllDeltaScalar
  simp only [bind_eq, pure_eq]
  rw [jump_val, show (16 - 1 : Int) = 15 from rfl, andNot15 h1 h2, andNot3 h1 h2]
  generalize hL : min count.toNat out.cap = L
  refine within_loop (B := 15 * L + 232) (c := 232) (fun (s : RSt) (n : Nat) => 0 ≤ s.decoded ∧ s.decoded % 16 = 0 ∧
    s.decoded ≤ (L : Int) ∧ 2 * (n : Int) ≤ 29 * s.decoded) _ _ ?_ _ _ 0 ?_ (Nat.zero_le _) _ ?_
  · intro s n hi hc
    have hc := of_decide_eq_true hc
    exact ⟨by omega, (within_rdsBody16 _ _ _).mono (Nat.le_refl _) fun s' h => by omega⟩
  · dsimp only; omega
  · intro s n hi hc hB
    refine within_loop (c := 58) (fun (s : RSt) (n : Nat) => 0 ≤ s.decoded ∧ s.decoded % 4 = 0 ∧
      s.decoded ≤ (L : Int) ∧ 2 * (n : Int) ≤ 29 * s.decoded) _ _ ?_ _ _ _ ?_ ?_ _ ?_
    · intro s n hi hc
      have hc := of_decide_eq_true hc
      exact ⟨by omega, (within_rdsBody4 _ _ _).mono (Nat.le_refl _) fun s' h => by omega⟩
    · omega
    · omega
    · intro s n hi hc hB
      split
      · repeat cost_block
        exact within_ret trivial
      · exact within_ret trivial

theorem within_readAllFast (count : Int) (st : Bytes) (out : U32s) (h1 : -2 ^ 63 ≤ count) (h2 : count < 2 ^ 63)
    (ho : out.len ≤ out.cap) :
    (readAllFast count st out).Within (fun _ => True) (14 * min count.toNat out.cap + 524) := by
  unfold readAllFast
  simp only [bind_eq, pure_eq]
  generalize hL : min count.toNat out.cap = L
  have hb := hdr_bound h1 h2
  have hv := @hdr_val count h1
  have ho2 := @hdr_ovf count
  unfold hdr at hb hv ho2
  generalize hcl : goDiv (int64 (count + 3)) 4 = cl at *
  have hcl0 : cl ≤ 0 ∨ (0 ≤ count ∧ 4 * cl ≤ count + 3 ∧ count ≤ 4 * cl ∧ count < 2 ^ 63 - 3) := by
    by_cases h : count < 2 ^ 63 - 3
    · have := hv h
      split at this <;> omega
    · have := ho2 (by omega) h2
      omega
  have hl : 0 ≤ cl → lowest32Of cl = (cl - 3) * 4 - (cl - 3) * 4 % 32 := by
    intro h0
    have := header_lowest32 (n := cl.toNat) (by omega)
    rwa [Int.toNat_of_nonneg h0] at this
  generalize lowest32Of cl = lo at *
  refine within_loop (B := 14 * L + 524) (c := 412) (fun (s : RSt) (n : Nat) => 0 ≤ s.decoded ∧ s.decoded % 32 = 0 ∧
    4 * s.ctrlPos = s.decoded ∧ (s.dataPos = cl ∨ 0 ≤ cl) ∧
    s.decoded ≤ (L : Int) ∧ (n : Int) ≤ 14 * s.decoded) _ _ ?_ _ _ 0 ?_ (Nat.zero_le _) _ ?_
  · intro s n hi hc
    have hc := of_decide_eq_true hc
    exact ⟨by omega, (within_rfBody32 _ _ _).mono (Nat.le_refl _) fun s' h => by omega⟩
  · dsimp only; omega
  · intro s n hi hc hB
    refine within_loop (c := 103) (fun (s : RSt) (n : Nat) => 0 ≤ s.decoded ∧ 4 * s.ctrlPos = s.decoded ∧
      s.decoded ≤ (L : Int) + 8 ∧ (0 ≤ count → s.decoded ≤ count) ∧ (n : Int) ≤ 14 * s.decoded) _ _ ?_ _ _ _ ?_ ?_ _ ?_
    · intro s n hi hc
      have hc := of_decide_eq_true hc
      exact ⟨by omega, (within_rfBody8 _ _ _).mono (Nat.le_refl _) fun s' h => by omega⟩
    · omega
    · omega
    · intro s n hi hc hB
      have hc := of_decide_eq_false hc
      refine within_loop (c := 33) (fun (s : RSt) (n : Nat) => 0 ≤ s.decoded ∧ s.decoded ≤ (L : Int) + 8 ∧
        (0 ≤ count → s.decoded ≤ count) ∧
        ((4 * s.ctrlPos = s.decoded ∧ (n : Int) ≤ 14 * s.decoded) ∨
          (cl ≤ s.ctrlPos ∧ (n : Int) ≤ 14 * ((L : Int) + 8) + 33))) _ _ ?_ _ _ _ ?_ ?_ _ ?_
      · intro s n hi hc
        have hc := of_decide_eq_true hc
        exact ⟨by omega, (within_rfBody1 _ _ _ _).mono (Nat.le_refl _) fun s' h => by omega⟩
      · omega
      · omega
      · intro s n hi hc hB
        exact within_ret trivial

theorem within_readAllDeltaFast (count : Int) (st : Bytes) (out : U32s) (prev : U32) (h1 : -2 ^ 63 ≤ count) (h2 : count < 2 ^ 63)
    (ho : out.len ≤ out.cap) :
    (readAllDeltaFast count st out prev).Within (fun _ => True) (14 * min count.toNat out.cap + 540) := by
  unfold readAllDeltaFast
  simp only [bind_eq, pure_eq]
  generalize hL : min count.toNat out.cap = L
  have hb := hdr_bound h1 h2
  have hv := @hdr_val count h1
  have ho2 := @hdr_ovf count
  unfold hdr at hb hv ho2
  generalize hcl : goDiv (int64 (count + 3)) 4 = cl at *
  have hcl0 : cl ≤ 0 ∨ (0 ≤ count ∧ 4 * cl ≤ count + 3 ∧ count ≤ 4 * cl ∧ count < 2 ^ 63 - 3) := by
    by_cases h : count < 2 ^ 63 - 3
    · have := hv h
      split at this <;> omega
    · have := ho2 (by omega) h2
      omega
  have hl : 0 ≤ cl → lowest32Of cl = (cl - 3) * 4 - (cl - 3) * 4 % 32 := by
    intro h0
    have := header_lowest32 (n := cl.toNat) (by omega)
    rwa [Int.toNat_of_nonneg h0] at this
  generalize lowest32Of cl = lo at *
  refine within_loop (B := 14 * L + 540) (c := 428) (fun (s : RSt) (n : Nat) => 0 ≤ s.decoded ∧ s.decoded % 32 = 0 ∧
    4 * s.ctrlPos = s.decoded ∧ (s.dataPos = cl ∨ 0 ≤ cl) ∧
    s.decoded ≤ (L : Int) ∧ (n : Int) ≤ 14 * s.decoded) _ _ ?_ _ _ 0 ?_ (Nat.zero_le _) _ ?_
  · intro s n hi hc
    have hc := of_decide_eq_true hc
    exact ⟨by omega, (within_rdfBody32 _ _ _).mono (Nat.le_refl _) fun s' h => by omega⟩
  · dsimp only; omega
  · intro s n hi hc hB
    refine within_loop (c := 107) (fun (s : RSt) (n : Nat) => 0 ≤ s.decoded ∧ 4 * s.ctrlPos = s.decoded ∧
      s.decoded ≤ (L : Int) + 8 ∧ (0 ≤ count → s.decoded ≤ count) ∧ (n : Int) ≤ 14 * s.decoded) _ _ ?_ _ _ _ ?_ ?_ _ ?_
    · intro s n hi hc
      have hc := of_decide_eq_true hc
      exact ⟨by omega, (within_rdfBody8 _ _ _).mono (Nat.le_refl _) fun s' h => by omega⟩
    · omega
    · omega
    · intro s n hi hc hB
      have hc := of_decide_eq_false hc
      refine within_loop (c := 37) (fun (s : RSt) (n : Nat) => 0 ≤ s.decoded ∧ s.decoded ≤ (L : Int) + 8 ∧
        (0 ≤ count → s.decoded ≤ count) ∧
        ((4 * s.ctrlPos = s.decoded ∧ (n : Int) ≤ 14 * s.decoded) ∨
          (cl ≤ s.ctrlPos ∧ (n : Int) ≤ 14 * ((L : Int) + 8) + 37))) _ _ ?_ _ _ _ ?_ ?_ _ ?_
      · intro s n hi hc
        have hc := of_decide_eq_true hc
        exact ⟨by omega, (within_rdfBody1 _ _ _ _).mono (Nat.le_refl _) fun s' h => by omega⟩
      · omega
      · omega
      · intro s n hi hc hB
        exact within_ret trivial

end SVB
