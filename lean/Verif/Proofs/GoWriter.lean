import Verif.Proofs.GoDecode
import Verif.Proofs.SafeStream

/-! # The functions of `/repo/pkg/stream/writer`, interpreted, are those of the model -/

set_option autoImplicit false
set_option linter.unusedSimpArgs false

namespace SVB.Go
open Prog Asm

theorem leaves_makeBytes (b : Block) (n : Int) :
    (makeBytes b n).Leaves fun r => 0 ≤ n ∧ (r.len : Int) = n ∧ (r.cap : Int) = n := by
  unfold makeBytes
  split
  · next h => exact (leaves_true _).bind fun _ _ => ⟨h, Int.toNat_of_nonneg h, Int.toNat_of_nonneg h⟩
  · trivial

variable (W : World) (hW : W.prog = filesFor W.cpu)
include hW

/-! ## `/repo/pkg/stream/writer/writer.go` -/

/-- The local variables of `WriteAllScalar` in its loops. -/
def wsEnv (inn : U32s) (stream : Bytes) (cl lj l4 : Int) (s : WSt) : Env :=
  [(n!"lowest4", .int l4), (n!"lowestJump", .int lj), (n!"encoded", .int s.encoded), (n!"ctrlPos", .int s.ctrlPos),
    (n!"dataPos", .int s.dataPos), (n!"stream", .bytes stream), (n!"ctrlLen", .int cl), (n!"count", .int inn.len),
    (n!"in", .words inn)]

/-- The local variables of `WriteAllDeltaScalar` in its loops. -/
def wdsEnv (inn : U32s) (stream : Bytes) (cl lj l4 : Int) (s : WSt) : Env :=
  [(n!"lowest4", .int l4), (n!"lowestJump", .int lj), (n!"encoded", .int s.encoded), (n!"ctrlPos", .int s.ctrlPos),
    (n!"dataPos", .int s.dataPos), (n!"stream", .bytes stream), (n!"ctrlLen", .int cl), (n!"count", .int inn.len),
    (n!"in", .words inn), (n!"prev", .u32 s.prev)]

/-- What holds before every iteration of the loops of the scalar writers. -/
def wsInv (inn : U32s) (stream : Bytes) (s : WSt) : Prop :=
  0 ≤ s.encoded ∧ s.encoded ≤ inn.len + 16 ∧ 4 * s.ctrlPos = s.encoded ∧ 0 ≤ s.dataPos ∧ s.dataPos ≤ stream.len + 1020

theorem call_WriteAllScalar (d : Nat) (inn : U32s) (hn : inn.len < 2 ^ 60) (hf : inn.len ≤ W.fuel) (h4f : 4 ≤ W.fuel) :
    W.call (d + 4) n!"writer" n!"WriteAllScalar" [.words inn] =
      (writeAllScalar W.fresh inn).bind fun r => .ret [.bytes r] := by
  rw [call_go W (d + 3) _ _ _ Files.wr_WriteAllScalar _ (by rw [hW, func_writer_WriteAllScalar]) rfl]
  unfold Files.wr_WriteAllScalar writeAllScalar
  rw [hW]
  simp only [bind_eq, pure_eq]
  have e3 : int64 ((inn.len : Int) + 3) = (inn.len : Int) + 3 := int64_eq (by omega) (by omega)
  obtain ⟨cl, hcl, hcl1, hcl2⟩ : ∃ cl : Int, goDiv ((inn.len : Int) + 3) 4 = cl ∧ 4 * cl ≤ inn.len + 3 ∧ inn.len ≤ 4 * cl := by
    refine ⟨_, rfl, ?_⟩
    rw [goDiv4]
    split <;> omega
  obtain ⟨lj, hlj, hlj1, hlj2⟩ : ∃ lj : Int, andNot (inn.len : Int) 15 = lj ∧ 0 ≤ lj ∧ lj ≤ inn.len ∧ lj % 16 = 0 := by
    refine ⟨_, rfl, ?_⟩
    rw [andNot15 (by omega) (by omega)]
    omega
  obtain ⟨l4, hl4, hl41, hl42⟩ : ∃ l4 : Int, andNot (inn.len : Int) 3 = l4 ∧ 0 ≤ l4 ∧ l4 ≤ inn.len ∧ inn.len ≤ l4 + 3 ∧
      l4 % 4 = 0 := by
    refine ⟨_, rfl, ?_⟩
    rw [andNot3 (by omega) (by omega)]
    omega
  have ej : (jump - 1 : Int) = 15 := rfl
  simp only [e3, hcl, ej, hlj, hl4]
  go_lhs
  iterate 2 go_stmt [e3, hcl]
  go_stmt
  have em : int64 (cl + int64 (maxBytesPerNum * (inn.len : Int))) = cl + 4 * inn.len := by
    unfold maxBytesPerNum
    rw [int64_eq (x := 4 * (inn.len : Int)) (by omega) (by omega), int64_eq (by omega) (by omega)]
  rw [em, Prog.bind_assoc]
  refine bind_congr' (leaves_makeBytes _ _) fun stream hst => ?_
  iterate 5 go_stmt [hlj, hl4]
  go_stmt
  rw [Prog.bind_assoc]
  refine for_step (wsEnv inn stream cl lj l4) (wsInv inn stream ) (fun s => (lj - s.encoded).toNat) rfl ?_ ?_ ?_ ?_ ?_ ?_ ?_
  · unfold wsInv; simp; omega
  · simp; omega
  · simp; omega
  · intro s hs; unfold wsEnv; go_lhs
  · intro s hs hc
    have hc := of_decide_eq_true hc
    unfold wsInv at hs
    omega
  · intro s hs hc K K' h
    have hc := of_decide_eq_true hc
    unfold wsEnv wsBody16
    unfold wsInv at hs
    simp only [bind_eq, pure_eq, jump_val, jumpCtrl_val]
    go_lhs
    iterate 15 go_stmt [call_Put4uint32Scalar W hW d, call_ControlByteToSize W hW (d + 2)]
    iterate 2 go_stmt
    go_stmt
    refine Eq.trans ?_ (h _ ?_ ?_)
    · rfl
    · unfold wsInv; simp; omega
    · simp; omega
  · intro s hs hc
    unfold wsEnv
    go_lhs
    go_stmt
    rw [Prog.bind_assoc]
    refine for_step (wsEnv inn stream cl lj l4) (wsInv inn stream) (fun s => (l4 - s.encoded).toNat) rfl ?_ ?_ ?_ ?_ ?_ ?_ ?_
    · exact hs
    · unfold wsInv at hs; try dsimp only
      omega
    · unfold wsInv at hs; try dsimp only
      omega
    · intro s hs; unfold wsEnv; go_lhs
    · intro s hs hc
      have hc := of_decide_eq_true hc
      unfold wsInv at hs
      omega
    · intro s hs hc K K' h
      have hc := of_decide_eq_true hc
      unfold wsEnv wsBody4
      unfold wsInv at hs
      simp only [bind_eq, pure_eq]
      go_lhs
      iterate 3 go_stmt [call_Put4uint32Scalar W hW d, call_ControlByteToSize W hW (d + 2)]
      iterate 2 go_stmt
      go_stmt
      refine Eq.trans ?_ (h _ ?_ ?_)
      · rfl
      · unfold wsInv; simp; omega
      · simp; omega
    · intro s hs hc
      unfold wsInv at hs
      unfold wsEnv
      go_lhs
      rw [execs_cons]
      go_lhs
      by_cases hcl4 : l4 = inn.len
      · simp only [hcl4, ne_eq, not_true_eq_false, if_false]
        go_lhs
        go_stmt
      · simp only [ne_eq, hcl4, not_false_eq_true, if_true]
        go_lhs
        go_stmt
        go_stmt [call_PutUint32Scalar W hW d _ _ _ h4f]
        iterate 4 go_stmt [call_ControlByteToSize W hW (d + 2)]
        go_lhs
        go_stmt

theorem call_WriteAllDeltaScalar (d : Nat) (inn : U32s) (prev : U32) (hn : inn.len < 2 ^ 60) (hf : inn.len ≤ W.fuel) (h4f : 4 ≤ W.fuel) :
    W.call (d + 4) n!"writer" n!"WriteAllDeltaScalar" [.words inn, .u32 prev] =
      (writeAllDeltaScalar W.fresh inn prev).bind fun r => .ret [.bytes r] := by
  rw [call_go W (d + 3) _ _ _ Files.wr_WriteAllDeltaScalar _ (by rw [hW, func_writer_WriteAllDeltaScalar]) rfl]
  unfold Files.wr_WriteAllDeltaScalar writeAllDeltaScalar
  rw [hW]
  simp only [bind_eq, pure_eq]
  have e3 : int64 ((inn.len : Int) + 3) = (inn.len : Int) + 3 := int64_eq (by omega) (by omega)
  obtain ⟨cl, hcl, hcl1, hcl2⟩ : ∃ cl : Int, goDiv ((inn.len : Int) + 3) 4 = cl ∧ 4 * cl ≤ inn.len + 3 ∧ inn.len ≤ 4 * cl := by
    refine ⟨_, rfl, ?_⟩
    rw [goDiv4]
    split <;> omega
  obtain ⟨lj, hlj, hlj1, hlj2⟩ : ∃ lj : Int, andNot (inn.len : Int) 15 = lj ∧ 0 ≤ lj ∧ lj ≤ inn.len ∧ lj % 16 = 0 := by
    refine ⟨_, rfl, ?_⟩
    rw [andNot15 (by omega) (by omega)]
    omega
  obtain ⟨l4, hl4, hl41, hl42⟩ : ∃ l4 : Int, andNot (inn.len : Int) 3 = l4 ∧ 0 ≤ l4 ∧ l4 ≤ inn.len ∧ inn.len ≤ l4 + 3 ∧
      l4 % 4 = 0 := by
    refine ⟨_, rfl, ?_⟩
    rw [andNot3 (by omega) (by omega)]
    omega
  have ej : (jump - 1 : Int) = 15 := rfl
  simp only [e3, hcl, ej, hlj, hl4]
  go_lhs
  iterate 2 go_stmt [e3, hcl]
  go_stmt
  have em : int64 (cl + int64 (maxBytesPerNum * (inn.len : Int))) = cl + 4 * inn.len := by
    unfold maxBytesPerNum
    rw [int64_eq (x := 4 * (inn.len : Int)) (by omega) (by omega), int64_eq (by omega) (by omega)]
  rw [em, Prog.bind_assoc]
  refine bind_congr' (leaves_makeBytes _ _) fun stream hst => ?_
  iterate 5 go_stmt [hlj, hl4]
  go_stmt
  rw [Prog.bind_assoc]
  refine for_step (wdsEnv inn stream cl lj l4) (wsInv inn stream ) (fun s => (lj - s.encoded).toNat) rfl ?_ ?_ ?_ ?_ ?_ ?_ ?_
  · unfold wsInv; simp; omega
  · simp; omega
  · simp; omega
  · intro s hs; unfold wdsEnv; go_lhs
  · intro s hs hc
    have hc := of_decide_eq_true hc
    unfold wsInv at hs
    omega
  · intro s hs hc K K' h
    have hc := of_decide_eq_true hc
    unfold wdsEnv wdsBody16
    unfold wsInv at hs
    simp only [bind_eq, pure_eq, jump_val, jumpCtrl_val]
    go_lhs
    iterate 15 go_stmt [call_Put4uint32DeltaScalar W hW d, call_ControlByteToSize W hW (d + 2)]
    iterate 3 go_stmt
    go_stmt
    refine Eq.trans ?_ (h _ ?_ ?_)
    · rfl
    · unfold wsInv; simp; omega
    · simp; omega
  · intro s hs hc
    unfold wdsEnv
    go_lhs
    go_stmt
    rw [Prog.bind_assoc]
    refine for_step (wdsEnv inn stream cl lj l4) (wsInv inn stream) (fun s => (l4 - s.encoded).toNat) rfl ?_ ?_ ?_ ?_ ?_ ?_ ?_
    · exact hs
    · unfold wsInv at hs; try dsimp only
      omega
    · unfold wsInv at hs; try dsimp only
      omega
    · intro s hs; unfold wdsEnv; go_lhs
    · intro s hs hc
      have hc := of_decide_eq_true hc
      unfold wsInv at hs
      omega
    · intro s hs hc K K' h
      have hc := of_decide_eq_true hc
      unfold wdsEnv wdsBody4
      unfold wsInv at hs
      simp only [bind_eq, pure_eq]
      go_lhs
      iterate 3 go_stmt [call_Put4uint32DeltaScalar W hW d, call_ControlByteToSize W hW (d + 2)]
      iterate 3 go_stmt
      go_stmt
      refine Eq.trans ?_ (h _ ?_ ?_)
      · rfl
      · unfold wsInv; simp; omega
      · simp; omega
    · intro s hs hc
      unfold wsInv at hs
      unfold wdsEnv
      go_lhs
      rw [execs_cons]
      go_lhs
      by_cases hcl4 : l4 = inn.len
      · simp only [hcl4, ne_eq, not_true_eq_false, if_false]
        go_lhs
        go_stmt
      · simp only [ne_eq, hcl4, not_false_eq_true, if_true]
        go_lhs
        go_stmt
        go_stmt [call_PutUint32DeltaScalar W hW d _ _ _ _ h4f]
        iterate 4 go_stmt [call_ControlByteToSize W hW (d + 2)]
        go_lhs
        go_stmt

/-! ## `/repo/pkg/stream/writer/writer_amd64.go` -/

/-- The local variables of `WriteAllFast` in its loops. -/
def wfEnv (inn : U32s) (stream : Bytes) (cl l32 : Int) (s : WSt) : Env :=
  [(n!"lowest32", .int l32), (n!"encoded", .int s.encoded), (n!"ctrlPos", .int s.ctrlPos),
    (n!"dataPos", .int s.dataPos), (n!"stream", .bytes stream), (n!"ctrlLen", .int cl), (n!"count", .int inn.len),
    (n!"in", .words inn)]

/-- The local variables of `WriteAllDeltaFast` in its loops. -/
def wdfEnv (inn : U32s) (stream : Bytes) (cl l32 : Int) (s : WSt) : Env :=
  [(n!"lowest32", .int l32), (n!"encoded", .int s.encoded), (n!"ctrlPos", .int s.ctrlPos),
    (n!"dataPos", .int s.dataPos), (n!"stream", .bytes stream), (n!"ctrlLen", .int cl), (n!"count", .int inn.len),
    (n!"in", .words inn), (n!"prev", .u32 s.prev)]

/-- What holds before every iteration of the loops of the fast writers. -/
def wfInv (inn : U32s) (stream : Bytes) (cl : Int) (s : WSt) : Prop :=
  0 ≤ s.encoded ∧ s.encoded ≤ inn.len + 32 ∧ 0 ≤ s.ctrlPos ∧ s.ctrlPos ≤ cl + 8 ∧ -40 ≤ s.dataPos ∧
    s.dataPos ≤ stream.len + 1020

/-- The first two loops encode four numbers per control byte. -/
def wfInv4 (inn : U32s) (stream : Bytes) (cl : Int) (s : WSt) : Prop :=
  wfInv inn stream cl s ∧ s.encoded = 4 * s.ctrlPos

omit hW in
theorem ofInt16_255 : BitVec.ofInt 16 255 = 255#16 := rfl

theorem encode_asm (ha : W.cpu.amd64 = true) (d : Nat) (vs : List Val) :
    W.call (d + 1) n!"encode" n!"Put8uint32FastAsm" vs = external n!"encode" n!"Put8uint32FastAsm" vs :=
  call_external W d _ _ vs (.inr ⟨_, by rw [hW, amd64_encode_Put8uint32FastAsm _ ha], rfl⟩)

theorem encode_asmDelta (ha : W.cpu.amd64 = true) (d : Nat) (vs : List Val) :
    W.call (d + 1) n!"encode" n!"Put8uint32DeltaFastAsm" vs = external n!"encode" n!"Put8uint32DeltaFastAsm" vs :=
  call_external W d _ _ vs (.inr ⟨_, by rw [hW, amd64_encode_Put8uint32DeltaFastAsm _ ha], rfl⟩)

theorem amd64_WriteAllFast (ha : W.cpu.amd64 = true) (d : Nat) (inn : U32s) (hn : inn.len < 2 ^ 60)
    (hf : inn.len ≤ W.fuel) (h4f : 4 ≤ W.fuel) :
    W.call (d + 4) n!"writer" n!"WriteAllFast" [.words inn] =
      (writeAllFast W.fresh inn).bind fun r => .ret [.bytes r] := by
  rw [call_go W (d + 3) _ _ _ Files.wrAmd64_WriteAllFast _ (by rw [hW, amd64_writer_WriteAllFast _ ha]) rfl]
  unfold Files.wrAmd64_WriteAllFast writeAllFast
  rw [hW]
  simp only [bind_eq, pure_eq]
  have e3 : int64 ((inn.len : Int) + 3) = (inn.len : Int) + 3 := int64_eq (by omega) (by omega)
  obtain ⟨cl, hcl, hcl1, hcl2⟩ : ∃ cl : Int, goDiv ((inn.len : Int) + 3) 4 = cl ∧ 4 * cl ≤ inn.len + 3 ∧ inn.len ≤ 4 * cl := by
    refine ⟨_, rfl, ?_⟩
    rw [goDiv4]
    split <;> omega
  have e32 : int64 (int64 (cl - 3) * 4) = (cl - 3) * 4 := by
    rw [int64_eq (x := cl - 3) (by omega) (by omega), int64_eq (by omega) (by omega)]
  obtain ⟨l32, hl32, hl32a⟩ : ∃ l32 : Int, andNot ((cl - 3) * 4) 31 = l32 ∧ l32 ≤ (cl - 3) * 4 := by
    refine ⟨_, rfl, ?_⟩
    rw [andNot31 (by omega) (by omega)]
    omega
  simp only [e3, hcl, lowest32Of, e32, hl32]
  go_lhs
  iterate 2 go_stmt [e3, hcl]
  go_stmt
  have em : int64 (cl + int64 (maxBytesPerNum * (inn.len : Int))) = cl + 4 * inn.len := by
    unfold maxBytesPerNum
    rw [int64_eq (x := 4 * (inn.len : Int)) (by omega) (by omega), int64_eq (by omega) (by omega)]
  rw [em, Prog.bind_assoc]
  refine bind_congr' (leaves_makeBytes _ _) fun stream hst => ?_
  iterate 3 go_stmt
  go_stmt [e32, hl32]
  go_stmt
  rw [Prog.bind_assoc]
  refine for_step (wfEnv inn stream cl l32) (wfInv4 inn stream cl) (fun s => (l32 - s.encoded).toNat) rfl ?_ ?_ ?_ ?_ ?_ ?_ ?_
  · unfold wfInv4 wfInv; simp; omega
  · simp; omega
  · simp; omega
  · intro s hs; unfold wfEnv; go_lhs
  · intro s hs hc
    have hc := of_decide_eq_true hc
    unfold wfInv4 wfInv at hs
    omega
  · intro s hs hc K K' h
    have hc := of_decide_eq_true hc
    unfold wfEnv wfBody32
    unfold wfInv4 wfInv at hs
    simp only [bind_eq, pure_eq, encShufPtr, ctrlLenPtr, lo8, hi8]
    go_lhs
    iterate 3 go_stmt
    iterate 16 go_stmt [encode_asm W hW ha, external_Put8uint32FastAsm, ofInt16_255, call_ControlByteToSizeTwo W hW]
    iterate 2 go_stmt
    go_stmt
    refine Eq.trans ?_ (h _ ?_ ?_)
    · rfl
    · unfold wfInv4 wfInv; simp; omega
    · simp; omega
  · intro s hs hc
    unfold wfEnv
    go_lhs
    go_stmt
    rw [Prog.bind_assoc]
    refine for_step (wfEnv inn stream cl l32) (wfInv4 inn stream cl) (fun s => (cl - s.ctrlPos).toNat) rfl ?_ ?_ ?_ ?_ ?_ ?_ ?_
    · exact hs
    · unfold wfInv4 wfInv at hs; try dsimp only
      omega
    · unfold wfInv4 wfInv at hs; try dsimp only
      omega
    · intro s hs; unfold wfEnv; go_lhs; go_int
    · intro s hs hc
      have hc := of_decide_eq_true hc
      unfold wfInv4 wfInv at hs
      omega
    · intro s hs hc K K' h
      have hc := of_decide_eq_true hc
      unfold wfEnv wfBody8
      unfold wfInv4 wfInv at hs
      simp only [bind_eq, pure_eq, encShufPtr, ctrlLenPtr, lo8, hi8]
      go_lhs
      iterate 3 go_stmt [encode_asm W hW ha, external_Put8uint32FastAsm, ofInt16_255]
      iterate 2 go_stmt [call_ControlByteToSizeTwo W hW]
      go_stmt
      refine Eq.trans ?_ (h _ ?_ ?_)
      · rfl
      · unfold wfInv4 wfInv; simp; omega
      · simp; omega
    · intro s hs hc
      unfold wfEnv
      go_lhs
      go_stmt
      rw [Prog.bind_assoc]
      refine for_step (wfEnv inn stream cl l32) (wfInv inn stream cl) (fun s => (cl - s.ctrlPos).toNat) rfl ?_ ?_ ?_ ?_ ?_ ?_ ?_
      · exact hs.1
      · unfold wfInv4 wfInv at hs; try dsimp only
        omega
      · unfold wfInv4 wfInv at hs; try dsimp only
        omega
      · intro s hs; unfold wfEnv; go_lhs
      · intro s hs hc
        have hc := of_decide_eq_true hc
        unfold wfInv at hs
        omega
      · intro s hs hc K K' h
        have hc := of_decide_eq_true hc
        unfold wfEnv wfBody1
        unfold wfInv at hs
        simp only [bind_eq, pure_eq]
        go_lhs
        go_stmt
        rw [execs_cons]
        go_lhs
        by_cases h4 : inn.len - s.encoded > 4
        · simp only [h4, if_true]
          go_lhs
          go_stmt
          go_lhs
          go_stmt [call_PutUint32Scalar W hW d _ _ _ h4f]
          iterate 5 go_stmt [call_ControlByteToSize W hW (d + 2)]
          skip
          go_stmt
          refine Eq.trans ?_ (h _ ?_ ?_)
          · rfl
          · unfold wfInv; simp; omega
          · simp; omega
        · simp only [h4, if_false]
          go_lhs
          go_stmt [call_PutUint32Scalar W hW d _ _ _ h4f]
          iterate 5 go_stmt [call_ControlByteToSize W hW (d + 2)]
          skip
          go_stmt
          refine Eq.trans ?_ (h _ ?_ ?_)
          · rfl
          · unfold wfInv; simp; omega
          · simp; omega
      · intro s hs hc
        unfold wfInv at hs
        unfold wfEnv
        go_lhs
        go_stmt

theorem amd64_WriteAllDeltaFast (ha : W.cpu.amd64 = true) (d : Nat) (inn : U32s) (prev : U32) (hn : inn.len < 2 ^ 60)
    (hf : inn.len ≤ W.fuel) (h4f : 4 ≤ W.fuel) :
    W.call (d + 4) n!"writer" n!"WriteAllDeltaFast" [.words inn, .u32 prev] =
      (writeAllDeltaFast W.fresh inn prev).bind fun r => .ret [.bytes r] := by
  rw [call_go W (d + 3) _ _ _ Files.wrAmd64_WriteAllDeltaFast _ (by rw [hW, amd64_writer_WriteAllDeltaFast _ ha]) rfl]
  unfold Files.wrAmd64_WriteAllDeltaFast writeAllDeltaFast
  rw [hW]
  simp only [bind_eq, pure_eq]
  have e3 : int64 ((inn.len : Int) + 3) = (inn.len : Int) + 3 := int64_eq (by omega) (by omega)
  obtain ⟨cl, hcl, hcl1, hcl2⟩ : ∃ cl : Int, goDiv ((inn.len : Int) + 3) 4 = cl ∧ 4 * cl ≤ inn.len + 3 ∧ inn.len ≤ 4 * cl := by
    refine ⟨_, rfl, ?_⟩
    rw [goDiv4]
    split <;> omega
  have e32 : int64 (int64 (cl - 3) * 4) = (cl - 3) * 4 := by
    rw [int64_eq (x := cl - 3) (by omega) (by omega), int64_eq (by omega) (by omega)]
  obtain ⟨l32, hl32, hl32a⟩ : ∃ l32 : Int, andNot ((cl - 3) * 4) 31 = l32 ∧ l32 ≤ (cl - 3) * 4 := by
    refine ⟨_, rfl, ?_⟩
    rw [andNot31 (by omega) (by omega)]
    omega
  simp only [e3, hcl, lowest32Of, e32, hl32]
  go_lhs
  iterate 2 go_stmt [e3, hcl]
  go_stmt
  have em : int64 (cl + int64 (maxBytesPerNum * (inn.len : Int))) = cl + 4 * inn.len := by
    unfold maxBytesPerNum
    rw [int64_eq (x := 4 * (inn.len : Int)) (by omega) (by omega), int64_eq (by omega) (by omega)]
  rw [em, Prog.bind_assoc]
  refine bind_congr' (leaves_makeBytes _ _) fun stream hst => ?_
  iterate 3 go_stmt
  go_stmt [e32, hl32]
  go_stmt
  rw [Prog.bind_assoc]
  refine for_step (wdfEnv inn stream cl l32) (wfInv4 inn stream cl) (fun s => (l32 - s.encoded).toNat) rfl ?_ ?_ ?_ ?_ ?_ ?_ ?_
  · unfold wfInv4 wfInv; simp; omega
  · simp; omega
  · simp; omega
  · intro s hs; unfold wdfEnv; go_lhs
  · intro s hs hc
    have hc := of_decide_eq_true hc
    unfold wfInv4 wfInv at hs
    omega
  · intro s hs hc K K' h
    have hc := of_decide_eq_true hc
    unfold wdfEnv wdfBody32
    unfold wfInv4 wfInv at hs
    simp only [bind_eq, pure_eq, encShufPtr, ctrlLenPtr, lo8, hi8]
    go_lhs
    iterate 3 go_stmt
    iterate 16 go_stmt [encode_asmDelta W hW ha, external_Put8uint32DeltaFastAsm, ofInt16_255, call_ControlByteToSizeTwo W hW]
    iterate 3 go_stmt
    go_stmt
    refine Eq.trans ?_ (h _ ?_ ?_)
    · rfl
    · unfold wfInv4 wfInv; simp; omega
    · simp; omega
  · intro s hs hc
    unfold wdfEnv
    go_lhs
    go_stmt
    rw [Prog.bind_assoc]
    refine for_step (wdfEnv inn stream cl l32) (wfInv4 inn stream cl) (fun s => (cl - s.ctrlPos).toNat) rfl ?_ ?_ ?_ ?_ ?_ ?_ ?_
    · exact hs
    · unfold wfInv4 wfInv at hs; try dsimp only
      omega
    · unfold wfInv4 wfInv at hs; try dsimp only
      omega
    · intro s hs; unfold wdfEnv; go_lhs; go_int
    · intro s hs hc
      have hc := of_decide_eq_true hc
      unfold wfInv4 wfInv at hs
      omega
    · intro s hs hc K K' h
      have hc := of_decide_eq_true hc
      unfold wdfEnv wdfBody8
      unfold wfInv4 wfInv at hs
      simp only [bind_eq, pure_eq, encShufPtr, ctrlLenPtr, lo8, hi8]
      go_lhs
      iterate 3 go_stmt [encode_asmDelta W hW ha, external_Put8uint32DeltaFastAsm, ofInt16_255]
      iterate 3 go_stmt [call_ControlByteToSizeTwo W hW]
      go_stmt
      refine Eq.trans ?_ (h _ ?_ ?_)
      · rfl
      · unfold wfInv4 wfInv; simp; omega
      · simp; omega
    · intro s hs hc
      unfold wdfEnv
      go_lhs
      go_stmt
      rw [Prog.bind_assoc]
      refine for_step (wdfEnv inn stream cl l32) (wfInv inn stream cl) (fun s => (cl - s.ctrlPos).toNat) rfl ?_ ?_ ?_ ?_ ?_ ?_ ?_
      · exact hs.1
      · unfold wfInv4 wfInv at hs; try dsimp only
        omega
      · unfold wfInv4 wfInv at hs; try dsimp only
        omega
      · intro s hs; unfold wdfEnv; go_lhs
      · intro s hs hc
        have hc := of_decide_eq_true hc
        unfold wfInv at hs
        omega
      · intro s hs hc K K' h
        have hc := of_decide_eq_true hc
        unfold wdfEnv wdfBody1
        unfold wfInv at hs
        simp only [bind_eq, pure_eq]
        go_lhs
        go_stmt
        rw [execs_cons]
        go_lhs
        by_cases h4 : inn.len - s.encoded > 4
        · simp only [h4, if_true]
          go_lhs
          go_stmt
          go_lhs
          go_stmt [call_PutUint32DeltaScalar W hW d _ _ _ _ h4f]
          iterate 5 go_stmt [call_ControlByteToSize W hW (d + 2)]
          go_stmt
          go_stmt
          refine Eq.trans ?_ (h _ ?_ ?_)
          · rfl
          · unfold wfInv; simp; omega
          · simp; omega
        · simp only [h4, if_false]
          go_lhs
          go_stmt [call_PutUint32DeltaScalar W hW d _ _ _ _ h4f]
          iterate 5 go_stmt [call_ControlByteToSize W hW (d + 2)]
          go_stmt
          go_stmt
          refine Eq.trans ?_ (h _ ?_ ?_)
          · rfl
          · unfold wfInv; simp; omega
          · simp; omega
      · intro s hs hc
        unfold wfInv at hs
        unfold wdfEnv
        go_lhs
        go_stmt

/-- On other architectures `WriteAllFast` is a stub that panics, `/repo/pkg/stream/writer/writer_base.go:5-7`. -/
theorem call_WriteAllFast (d : Nat) (inn : U32s) (hn : inn.len < 2 ^ 60) (hf : inn.len ≤ W.fuel) (h4f : 4 ≤ W.fuel) :
    W.call (d + 4) n!"writer" n!"WriteAllFast" [.words inn] =
      (onAmd64 W.cpu (writeAllFast W.fresh inn)).bind fun r => .ret [.bytes r] := by
  unfold onAmd64
  cases ha : W.cpu.amd64
  · rw [call_go W (d + 3) _ _ _ Files.wrBase_WriteAllFast _ (by rw [hW, other_writer_WriteAllFast _ ha]) rfl]
    unfold Files.wrBase_WriteAllFast
    rw [hW]
    go_simp
    rfl
  · exact amd64_WriteAllFast W hW ha d inn hn hf h4f

omit hW in
theorem encodeMode_amd64 (h : encodeMode W.cpu = .fast) : W.cpu.amd64 = true := by
  unfold encodeMode at h
  cases ha : W.cpu.amd64
  · simp [ha] at h
  · rfl

theorem call_WriteAll (d : Nat) (inn : U32s) (hn : inn.len < 2 ^ 60) (hf : inn.len ≤ W.fuel) (h4f : 4 ≤ W.fuel) :
    W.call (d + 5) n!"writer" n!"WriteAll" [.words inn] =
      (writeAll W.cpu W.fresh inn).bind fun r => .ret [.bytes r] := by
  rw [call_go W (d + 4) _ _ _ Files.wr_WriteAll _ (by rw [hW, func_writer_WriteAll]) rfl]
  unfold Files.wr_WriteAll writeAll
  rw [hW]
  cases hm : encodeMode W.cpu
  · go_simp [call_encode_GetMode W hW, hm, modeVal, call_WriteAllScalar W hW d inn hn hf h4f]
  · go_simp [call_encode_GetMode W hW, hm, modeVal, call_WriteAllFast W hW d inn hn hf h4f]

theorem call_WriteAllDelta (d : Nat) (inn : U32s) (prev : U32) (hn : inn.len < 2 ^ 60) (hf : inn.len ≤ W.fuel)
    (h4f : 4 ≤ W.fuel) :
    W.call (d + 5) n!"writer" n!"WriteAllDelta" [.words inn, .u32 prev] =
      (writeAllDelta W.cpu W.fresh inn prev).bind fun r => .ret [.bytes r] := by
  rw [call_go W (d + 4) _ _ _ Files.wr_WriteAllDelta _ (by rw [hW, func_writer_WriteAllDelta]) rfl]
  unfold Files.wr_WriteAllDelta writeAllDelta
  rw [hW]
  cases hm : encodeMode W.cpu
  · go_simp [call_encode_GetMode W hW, hm, modeVal, call_WriteAllDeltaScalar W hW d inn prev hn hf h4f]
  · have ha := encodeMode_amd64 W hm
    simp only [onAmd64, ha, if_true]
    go_simp [call_encode_GetMode W hW, hm, modeVal, amd64_global_writer_WriteAllDeltaFast _ _ ha,
      amd64_WriteAllDeltaFast W hW ha d inn prev hn hf h4f]

end SVB.Go
