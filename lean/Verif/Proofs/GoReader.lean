import Verif.Proofs.GoWriter

/-! # The functions of `/repo/pkg/stream/reader`, interpreted, are those of the model -/

set_option autoImplicit false
set_option linter.unusedSimpArgs false

namespace SVB.Go
open Prog Asm

theorem leaves_getUint32Scalar (inn : Bytes) (out : U32s) (ctrl : Byte) (count : Int) :
    (getUint32Scalar inn out ctrl count).Leaves fun r => 0 ≤ r ∧ r ≤ 1020 := by
  unfold getUint32Scalar
  simp only [bind_eq, pure_eq]
  split
  · exact ⟨by omega, by omega⟩
  · refine (leaves_loop (fun s : GetSt => 0 ≤ s.i ∧ s.i ≤ 4 ∧ 0 ≤ s.total ∧ s.total ≤ 255 * s.i) _ _ ?_ _ _ ?_).bind ?_
    · intro s hs hc
      have hc := of_decide_eq_true hc
      generalize ((ctrl >>> s.shift &&& BitVec.ofNat 8 3) + 1) = size
      have := size.isLt
      have h4 : s.i < 4 := by split at hc <;> omega
      repeat refine (leaves_true _).bind fun _ _ => ?_
      show _ ∧ _
      dsimp only
      omega
    · simp
    · intro s hs
      show _ ∧ _
      omega

theorem leaves_getUint32DeltaScalar (inn : Bytes) (out : U32s) (ctrl : Byte) (count : Int) (prev : U32) :
    (getUint32DeltaScalar inn out ctrl count prev).Leaves fun r => 0 ≤ r ∧ r ≤ 1020 := by
  unfold getUint32DeltaScalar
  simp only [bind_eq, pure_eq]
  split
  · exact ⟨by omega, by omega⟩
  · refine (leaves_loop (fun s : GetSt => 0 ≤ s.i ∧ s.i ≤ 4 ∧ 0 ≤ s.total ∧ s.total ≤ 255 * s.i) _ _ ?_ _ _ ?_).bind ?_
    · intro s hs hc
      have hc := of_decide_eq_true hc
      generalize ((ctrl >>> s.shift &&& BitVec.ofNat 8 3) + 1) = size
      have := size.isLt
      have h4 : s.i < 4 := by split at hc <;> omega
      repeat refine (leaves_true _).bind fun _ _ => ?_
      show _ ∧ _
      dsimp only
      omega
    · simp
    · intro s hs
      show _ ∧ _
      omega

theorem int64_bounds {x : Int} (h1 : -2 ^ 64 ≤ x) (h2 : x < 2 ^ 64) : -2 ^ 63 ≤ int64 x ∧ int64 x < 2 ^ 63 := by
  by_cases h : x < -2 ^ 63
  · rw [int64_wrap_neg h1 h]; omega
  · by_cases h' : x < 2 ^ 63
    · rw [int64_eq (by omega) h']; omega
    · rw [int64_wrap (by omega) h2]; omega

/-- Run the statement that calls `GetUint32Scalar` or `GetUint32DeltaScalar` and keep what is known of the result. -/
syntax "go_get" "[" Lean.Parser.Tactic.simpLemma,* "]" : tactic
macro_rules
  | `(tactic| go_get [$ls,*]) => `(tactic| (rw [execs_cons]; go_lhs [$ls,*]; go_int; (iterate 3 (go_peel; go_int)); (repeat rewrite [Prog.bind_assoc]); with_reducible first
      | refine bind_congr' (leaves_getUint32Scalar _ _ _ _) fun _ _ => ?_
      | refine bind_congr' (leaves_getUint32DeltaScalar _ _ _ _ _) fun _ _ => ?_))

variable (W : World) (hW : W.prog = filesFor W.cpu)
include hW

/-! ## `/repo/pkg/stream/reader/reader.go` -/

/-- The local variables of `ReadAllScalar` in its loops. -/
def rsEnv (count : Int) (stream : Bytes) (out : U32s) (cl lj l4 : Int) (s : RSt) : Env :=
  [(n!"lowest4", .int l4), (n!"lowestJump", .int lj), (n!"decoded", .int s.decoded), (n!"ctrlPos", .int s.ctrlPos),
    (n!"dataPos", .int s.dataPos), (n!"ctrlLen", .int cl), (n!"count", .int count), (n!"stream", .bytes stream),
    (n!"out", .words out)]

/-- The local variables of `ReadAllDeltaScalar` in its loops. -/
def rdsEnv (count : Int) (stream : Bytes) (out : U32s) (cl lj l4 : Int) (s : RSt) : Env :=
  [(n!"lowest4", .int l4), (n!"lowestJump", .int lj), (n!"decoded", .int s.decoded), (n!"ctrlPos", .int s.ctrlPos),
    (n!"dataPos", .int s.dataPos), (n!"ctrlLen", .int cl), (n!"count", .int count), (n!"stream", .bytes stream),
    (n!"out", .words out), (n!"prev", .u32 s.prev)]

/-- What holds before every iteration of the loops of the readers: the variables are far from the bounds of `int`. -/
def rdInv (s : RSt) : Prop :=
  0 ≤ s.decoded ∧ s.decoded ≤ 2 ^ 60 + 64 ∧ 0 ≤ s.ctrlPos ∧ s.ctrlPos ≤ 5 * 2 ^ 60 + 64 ∧ -2 ^ 62 ≤ s.dataPos ∧
    s.dataPos ≤ 6 * 2 ^ 60

set_option maxHeartbeats 400000 in
theorem call_ReadAllScalar (d : Nat) (count : Int) (stream : Bytes) (out : U32s) (hc1 : -2 ^ 63 ≤ count) (hc2 : count < 2 ^ 63)
    (hs1 : stream.len < 5 * 2 ^ 60) (hs2 : stream.cap < 5 * 2 ^ 60) (ho1 : out.len < 2 ^ 60) (ho2 : out.cap < 2 ^ 60)
    (hf : count < W.fuel) (h4f : 4 ≤ W.fuel) :
    W.call (d + 3) n!"reader" n!"ReadAllScalar" [.int count, .bytes stream, .words out] =
      (readAllScalar count stream out).bind fun _ => .ret [] := by
  rw [call_go W (d + 2) _ _ _ Files.rd_ReadAllScalar _ (by rw [hW, func_reader_ReadAllScalar]) rfl]
  unfold Files.rd_ReadAllScalar readAllScalar
  rw [hW]
  simp only [bind_eq, pure_eq]
  obtain ⟨c3, hc3, hc3a, hc3b⟩ : ∃ c3 : Int, int64 (count + 3) = c3 ∧ -2 ^ 63 ≤ c3 ∧ c3 < 2 ^ 63 := by
    refine ⟨_, rfl, ?_⟩
    exact int64_bounds (by omega) (by omega)
  obtain ⟨cl, hcl, hcl1, hcl2⟩ : ∃ cl : Int, goDiv c3 4 = cl ∧ -2 ^ 61 ≤ cl ∧ cl < 2 ^ 61 := by
    refine ⟨_, rfl, ?_⟩
    rw [goDiv4]
    split <;> omega
  obtain ⟨lj, hlj, hlj1⟩ : ∃ lj : Int, andNot count 15 = lj ∧ lj ≤ count := by
    refine ⟨_, rfl, ?_⟩
    rw [andNot15 (by omega) (by omega)]
    omega
  obtain ⟨l4, hl4, hl41, hl42⟩ : ∃ l4 : Int, andNot count 3 = l4 ∧ l4 ≤ count ∧ count ≤ l4 + 3 := by
    refine ⟨_, rfl, ?_⟩
    rw [andNot3 (by omega) (by omega)]
    omega
  have ej : (jump - 1 : Int) = 15 := rfl
  have em : int64 (count - l4) = count - l4 := int64_eq (by omega) (by omega)
  simp only [hc3, hcl, ej, hlj, hl4, em]
  go_lhs
  go_stmt [hc3, hcl]
  iterate 3 go_stmt
  iterate 2 go_stmt [hlj, hl4]
  go_stmt
  rw [Prog.bind_assoc]
  refine for_step (rsEnv count stream out cl lj l4) rdInv (fun s => (lj - s.decoded).toNat) rfl ?_ ?_ ?_ ?_ ?_ ?_ ?_
  · unfold rdInv; simp; omega
  · simp; omega
  · simp; omega
  · intro s hs; unfold rsEnv; go_lhs
  · intro s hs hc
    have hc := of_decide_eq_true hc
    unfold rdInv at hs
    omega
  · intro s hs hc K K' h
    have hc := of_decide_eq_true hc
    unfold rsEnv rsBody16
    unfold rdInv at hs
    simp only [bind_eq, pure_eq, jump_val, jumpCtrl_val]
    go_lhs
    iterate 15 go_stmt [call_Get4uint32Scalar W hW, call_ControlByteToSize W hW]
    iterate 2 go_stmt
    go_stmt
    refine Eq.trans ?_ (h _ ?_ ?_)
    · rfl
    · unfold rdInv; simp; omega
    · simp; omega
  · intro s hs hc
    unfold rsEnv
    go_lhs
    go_stmt
    rw [Prog.bind_assoc]
    refine for_step (rsEnv count stream out cl lj l4) rdInv (fun s => (l4 - s.decoded).toNat) rfl ?_ ?_ ?_ ?_ ?_ ?_ ?_
    · exact hs
    · unfold rdInv at hs; try dsimp only
      omega
    · unfold rdInv at hs; try dsimp only
      omega
    · intro s hs; unfold rsEnv; go_lhs
    · intro s hs hc
      have hc := of_decide_eq_true hc
      unfold rdInv at hs
      omega
    · intro s hs hc K K' h
      have hc := of_decide_eq_true hc
      unfold rsEnv rsBody4
      unfold rdInv at hs
      simp only [bind_eq, pure_eq]
      go_lhs
      iterate 3 go_stmt [call_Get4uint32Scalar W hW, call_ControlByteToSize W hW]
      iterate 2 go_stmt
      go_stmt
      refine Eq.trans ?_ (h _ ?_ ?_)
      · rfl
      · unfold rdInv; simp; omega
      · simp; omega
    · intro s hs hc
      unfold rdInv at hs
      unfold rsEnv
      go_lhs
      rw [execs_cons]
      go_lhs
      by_cases hcl4 : l4 = count
      · simp only [hcl4, ne_eq, not_true_eq_false, if_false]
        go_lhs
        rfl
      · simp only [ne_eq, hcl4, not_false_eq_true, if_true]
        go_lhs
        go_stmt [call_GetUint32Scalar W hW d _ _ _ _ h4f]
        rfl

set_option maxHeartbeats 400000 in
theorem call_ReadAllDeltaScalar (d : Nat) (count : Int) (stream : Bytes) (out : U32s) (prev : U32) (hc1 : -2 ^ 63 ≤ count) (hc2 : count < 2 ^ 63)
    (hs1 : stream.len < 5 * 2 ^ 60) (hs2 : stream.cap < 5 * 2 ^ 60) (ho1 : out.len < 2 ^ 60) (ho2 : out.cap < 2 ^ 60)
    (hf : count < W.fuel) (h4f : 4 ≤ W.fuel) :
    W.call (d + 3) n!"reader" n!"ReadAllDeltaScalar" [.int count, .bytes stream, .words out, .u32 prev] =
      (readAllDeltaScalar count stream out prev).bind fun _ => .ret [] := by
  rw [call_go W (d + 2) _ _ _ Files.rd_ReadAllDeltaScalar _ (by rw [hW, func_reader_ReadAllDeltaScalar]) rfl]
  unfold Files.rd_ReadAllDeltaScalar readAllDeltaScalar
  rw [hW]
  simp only [bind_eq, pure_eq]
  obtain ⟨c3, hc3, hc3a, hc3b⟩ : ∃ c3 : Int, int64 (count + 3) = c3 ∧ -2 ^ 63 ≤ c3 ∧ c3 < 2 ^ 63 := by
    refine ⟨_, rfl, ?_⟩
    exact int64_bounds (by omega) (by omega)
  obtain ⟨cl, hcl, hcl1, hcl2⟩ : ∃ cl : Int, goDiv c3 4 = cl ∧ -2 ^ 61 ≤ cl ∧ cl < 2 ^ 61 := by
    refine ⟨_, rfl, ?_⟩
    rw [goDiv4]
    split <;> omega
  obtain ⟨lj, hlj, hlj1⟩ : ∃ lj : Int, andNot count 15 = lj ∧ lj ≤ count := by
    refine ⟨_, rfl, ?_⟩
    rw [andNot15 (by omega) (by omega)]
    omega
  obtain ⟨l4, hl4, hl41, hl42⟩ : ∃ l4 : Int, andNot count 3 = l4 ∧ l4 ≤ count ∧ count ≤ l4 + 3 := by
    refine ⟨_, rfl, ?_⟩
    rw [andNot3 (by omega) (by omega)]
    omega
  have ej : (jump - 1 : Int) = 15 := rfl
  have em : int64 (count - l4) = count - l4 := int64_eq (by omega) (by omega)
  simp only [hc3, hcl, ej, hlj, hl4, em]
  go_lhs
  go_stmt [hc3, hcl]
  iterate 3 go_stmt
  iterate 2 go_stmt [hlj, hl4]
  go_stmt
  rw [Prog.bind_assoc]
  refine for_step (rdsEnv count stream out cl lj l4) rdInv (fun s => (lj - s.decoded).toNat) rfl ?_ ?_ ?_ ?_ ?_ ?_ ?_
  · unfold rdInv; simp; omega
  · simp; omega
  · simp; omega
  · intro s hs; unfold rdsEnv; go_lhs
  · intro s hs hc
    have hc := of_decide_eq_true hc
    unfold rdInv at hs
    omega
  · intro s hs hc K K' h
    have hc := of_decide_eq_true hc
    unfold rdsEnv rdsBody16
    unfold rdInv at hs
    simp only [bind_eq, pure_eq, jump_val, jumpCtrl_val]
    go_lhs
    iterate 15 go_stmt [call_Get4uint32DeltaScalar W hW, call_ControlByteToSize W hW]
    iterate 3 go_stmt
    go_stmt
    refine Eq.trans ?_ (h _ ?_ ?_)
    · rfl
    · unfold rdInv; simp; omega
    · simp; omega
  · intro s hs hc
    unfold rdsEnv
    go_lhs
    go_stmt
    rw [Prog.bind_assoc]
    refine for_step (rdsEnv count stream out cl lj l4) rdInv (fun s => (l4 - s.decoded).toNat) rfl ?_ ?_ ?_ ?_ ?_ ?_ ?_
    · exact hs
    · unfold rdInv at hs; try dsimp only
      omega
    · unfold rdInv at hs; try dsimp only
      omega
    · intro s hs; unfold rdsEnv; go_lhs
    · intro s hs hc
      have hc := of_decide_eq_true hc
      unfold rdInv at hs
      omega
    · intro s hs hc K K' h
      have hc := of_decide_eq_true hc
      unfold rdsEnv rdsBody4
      unfold rdInv at hs
      simp only [bind_eq, pure_eq]
      go_lhs
      iterate 3 go_stmt [call_Get4uint32DeltaScalar W hW, call_ControlByteToSize W hW]
      iterate 3 go_stmt
      go_stmt
      refine Eq.trans ?_ (h _ ?_ ?_)
      · rfl
      · unfold rdInv; simp; omega
      · simp; omega
    · intro s hs hc
      unfold rdInv at hs
      unfold rdsEnv
      go_lhs
      rw [execs_cons]
      go_lhs
      by_cases hcl4 : l4 = count
      · simp only [hcl4, ne_eq, not_true_eq_false, if_false]
        go_lhs
        rfl
      · simp only [ne_eq, hcl4, not_false_eq_true, if_true]
        go_lhs
        go_stmt [call_GetUint32DeltaScalar W hW d _ _ _ _ _ h4f]
        rfl

/-! ## `/repo/pkg/stream/reader/reader_amd64.go` -/

/-- The local variables of `ReadAllFast` in its loops. -/
def rfEnv (count : Int) (stream : Bytes) (out : U32s) (cl l32 : Int) (s : RSt) : Env :=
  [(n!"lowest32", .int l32), (n!"ctrlLen", .int cl), (n!"dataPos", .int s.dataPos), (n!"decoded", .int s.decoded),
    (n!"ctrlPos", .int s.ctrlPos), (n!"count", .int count), (n!"stream", .bytes stream), (n!"out", .words out)]

/-- The local variables of `ReadAllDeltaFast` in its loops. -/
def rdfEnv (count : Int) (stream : Bytes) (out : U32s) (cl l32 : Int) (s : RSt) : Env :=
  [(n!"lowest32", .int l32), (n!"ctrlLen", .int cl), (n!"dataPos", .int s.dataPos), (n!"decoded", .int s.decoded),
    (n!"ctrlPos", .int s.ctrlPos), (n!"count", .int count), (n!"stream", .bytes stream), (n!"out", .words out),
    (n!"prev", .u32 s.prev)]

theorem decode_asm (ha : W.cpu.amd64 = true) (d : Nat) (vs : List Val) :
    W.call (d + 1) n!"decode" n!"Get8uint32FastAsm" vs = external n!"decode" n!"Get8uint32FastAsm" vs :=
  call_external W d _ _ vs (.inr ⟨_, by rw [hW, amd64_decode_Get8uint32FastAsm _ ha], rfl⟩)

theorem decode_asmDelta (ha : W.cpu.amd64 = true) (d : Nat) (vs : List Val) :
    W.call (d + 1) n!"decode" n!"Get8uint32DeltaFastAsm" vs = external n!"decode" n!"Get8uint32DeltaFastAsm" vs :=
  call_external W d _ _ vs (.inr ⟨_, by rw [hW, amd64_decode_Get8uint32DeltaFastAsm _ ha], rfl⟩)

set_option maxHeartbeats 1000000 in
theorem amd64_ReadAllFast (ha : W.cpu.amd64 = true) (d : Nat) (count : Int) (stream : Bytes) (out : U32s)
    (hc1 : -2 ^ 63 ≤ count) (hc2 : count < 2 ^ 63)
    (hs1 : stream.len < 5 * 2 ^ 60) (hs2 : stream.cap < 5 * 2 ^ 60) (ho1 : out.len < 2 ^ 60) (ho2 : out.cap < 2 ^ 60)
    (hf : count < W.fuel) (h4f : 4 ≤ W.fuel) :
    W.call (d + 3) n!"reader" n!"ReadAllFast" [.int count, .bytes stream, .words out] =
      (readAllFast count stream out).bind fun _ => .ret [] := by
  rw [call_go W (d + 2) _ _ _ Files.rdAmd64_ReadAllFast _ (by rw [hW, amd64_reader_ReadAllFast _ ha]) rfl]
  unfold Files.rdAmd64_ReadAllFast readAllFast
  rw [hW]
  simp only [bind_eq, pure_eq]
  obtain ⟨c3, hc3, hc3a, hc3b⟩ : ∃ c3 : Int, int64 (count + 3) = c3 ∧ (c3 = count + 3 ∨ c3 = count + 3 - 2 ^ 64) ∧
      -2 ^ 63 ≤ c3 ∧ c3 < 2 ^ 63 := by
    refine ⟨_, rfl, ?_⟩
    by_cases h : count + 3 < 2 ^ 63
    · rw [int64_eq (by omega) h]; omega
    · rw [int64_wrap (by omega) (by omega)]; omega
  obtain ⟨cl, hcl, hcl1⟩ : ∃ cl : Int, goDiv c3 4 = cl ∧ -2 ^ 61 ≤ cl ∧ cl < 2 ^ 61 ∧ (cl ≤ 0 ∨ 4 * cl ≤ c3) := by
    refine ⟨_, rfl, ?_⟩
    rw [goDiv4]
    split <;> omega
  have e3 : int64 (cl - 3) = cl - 3 := int64_eq (by omega) (by omega)
  obtain ⟨b, hb, hb1, hb2⟩ : ∃ b : Int, int64 ((cl - 3) * 4) = b ∧ (0 ≤ cl → b = (cl - 3) * 4) ∧ -2 ^ 63 ≤ b ∧ b < 2 ^ 63 := by
    refine ⟨_, rfl, fun h => int64_eq (by omega) (by omega), ?_⟩
    exact int64_bounds (by omega) (by omega)
  obtain ⟨l32, hl32, hl32a⟩ : ∃ l32 : Int, andNot b 31 = l32 ∧ l32 ≤ b := by
    refine ⟨_, rfl, ?_⟩
    rw [andNot31 (by omega) (by omega)]
    omega
  simp only [hc3, hcl, lowest32Of, e3, hb, hl32]
  go_lhs
  iterate 2 go_stmt
  go_stmt [hc3, hcl]
  go_stmt
  go_stmt [e3, hb, hl32]
  go_stmt
  rw [Prog.bind_assoc]
  refine for_step (rfEnv count stream out cl l32) (fun s => rdInv s ∧ (0 ≤ cl ∨ s.dataPos < 0))
    (fun s => if 0 ≤ cl then (l32 - s.decoded).toNat else 1) rfl ?_ ?_ ?_ ?_ ?_ ?_ ?_
  · unfold rdInv; simp; omega
  · simp; split <;> omega
  · simp; split <;> omega
  · intro s hs; unfold rfEnv; go_lhs
  · intro s hs hc
    have hc := of_decide_eq_true hc
    unfold rdInv at hs
    split <;> omega
  · intro s hs hc K K' h
    have hc := of_decide_eq_true hc
    unfold rfEnv rfBody32
    unfold rdInv at hs
    simp only [bind_eq, pure_eq, decShufPtr, ctrlLenPtr, mk16]
    go_lhs
    iterate 15 go_stmt [decode_asm W hW ha, external_Get8uint32FastAsm, call_ControlByteToSize W hW]
    iterate 2 go_stmt
    go_stmt
    refine Eq.trans ?_ (h _ ?_ ?_)
    · rfl
    · unfold rdInv; simp; omega
    · have h0 : 0 ≤ cl := by omega
      rw [if_pos h0, if_pos h0]; simp; omega
  · intro s hs hc
    replace hs := hs.1
    unfold rfEnv
    go_lhs
    go_stmt
    rw [Prog.bind_assoc]
    refine for_step (rfEnv count stream out cl l32) rdInv (fun s => (cl - s.ctrlPos).toNat) rfl ?_ ?_ ?_ ?_ ?_ ?_ ?_
    · exact hs
    · unfold rdInv at hs; try dsimp only
      omega
    · unfold rdInv at hs; try dsimp only
      omega
    · intro s hs; unfold rfEnv; go_lhs; go_int
    · intro s hs hc
      have hc := of_decide_eq_true hc
      unfold rdInv at hs
      omega
    · intro s hs hc K K' h
      have hc := of_decide_eq_true hc
      unfold rfEnv rfBody8
      unfold rdInv at hs
      simp only [bind_eq, pure_eq, decShufPtr, ctrlLenPtr, mk16]
      go_lhs
      iterate 3 go_stmt [decode_asm W hW ha, external_Get8uint32FastAsm, call_ControlByteToSize W hW]
      go_stmt
      skip
      go_stmt
      refine Eq.trans ?_ (h _ ?_ ?_)
      · rfl
      · unfold rdInv; simp; omega
      · simp; omega
    · intro s hs hc
      unfold rfEnv
      go_lhs
      go_stmt
      rw [Prog.bind_assoc]
      refine for_step (rfEnv count stream out cl l32) rdInv (fun s => (cl - s.ctrlPos).toNat) rfl ?_ ?_ ?_ ?_ ?_ ?_ ?_
      · exact hs
      · unfold rdInv at hs; try dsimp only
        omega
      · unfold rdInv at hs; try dsimp only
        omega
      · intro s hs; unfold rfEnv; go_lhs
      · intro s hs hc
        have hc := of_decide_eq_true hc
        unfold rdInv at hs
        omega
      · intro s hs hc K K' h
        have hc := of_decide_eq_true hc
        unfold rfEnv rfBody1
        unfold rdInv at hs
        simp only [bind_eq, pure_eq]
        go_lhs
        go_stmt
        rw [execs_cons]
        go_lhs
        by_cases h4 : count - s.decoded > 4
        · simp only [h4, if_true]
          go_lhs
          go_stmt
          go_lhs
          go_get [call_GetUint32Scalar W hW d _ _ _ _ h4f]
          go_int
          go_stmt
          skip
          go_stmt
          refine Eq.trans ?_ (h _ ?_ ?_)
          · rfl
          · unfold rdInv; simp; omega
          · simp; omega
        · simp only [h4, if_false]
          go_lhs
          go_get [call_GetUint32Scalar W hW d _ _ _ _ h4f]
          go_int
          go_stmt
          skip
          go_stmt
          refine Eq.trans ?_ (h _ ?_ ?_)
          · rfl
          · unfold rdInv; simp; omega
          · simp; omega
      · intro s hs hc
        unfold rfEnv
        go_lhs
        rfl

set_option maxHeartbeats 1000000 in
theorem amd64_ReadAllDeltaFast (ha : W.cpu.amd64 = true) (d : Nat) (count : Int) (stream : Bytes) (out : U32s) (prev : U32)
    (hc1 : -2 ^ 63 ≤ count) (hc2 : count < 2 ^ 63)
    (hs1 : stream.len < 5 * 2 ^ 60) (hs2 : stream.cap < 5 * 2 ^ 60) (ho1 : out.len < 2 ^ 60) (ho2 : out.cap < 2 ^ 60)
    (hf : count < W.fuel) (h4f : 4 ≤ W.fuel) :
    W.call (d + 3) n!"reader" n!"ReadAllDeltaFast" [.int count, .bytes stream, .words out, .u32 prev] =
      (readAllDeltaFast count stream out prev).bind fun _ => .ret [] := by
  rw [call_go W (d + 2) _ _ _ Files.rdAmd64_ReadAllDeltaFast _ (by rw [hW, amd64_reader_ReadAllDeltaFast _ ha]) rfl]
  unfold Files.rdAmd64_ReadAllDeltaFast readAllDeltaFast
  rw [hW]
  simp only [bind_eq, pure_eq]
  obtain ⟨c3, hc3, hc3a, hc3b⟩ : ∃ c3 : Int, int64 (count + 3) = c3 ∧ (c3 = count + 3 ∨ c3 = count + 3 - 2 ^ 64) ∧
      -2 ^ 63 ≤ c3 ∧ c3 < 2 ^ 63 := by
    refine ⟨_, rfl, ?_⟩
    by_cases h : count + 3 < 2 ^ 63
    · rw [int64_eq (by omega) h]; omega
    · rw [int64_wrap (by omega) (by omega)]; omega
  obtain ⟨cl, hcl, hcl1⟩ : ∃ cl : Int, goDiv c3 4 = cl ∧ -2 ^ 61 ≤ cl ∧ cl < 2 ^ 61 ∧ (cl ≤ 0 ∨ 4 * cl ≤ c3) := by
    refine ⟨_, rfl, ?_⟩
    rw [goDiv4]
    split <;> omega
  have e3 : int64 (cl - 3) = cl - 3 := int64_eq (by omega) (by omega)
  obtain ⟨b, hb, hb1, hb2⟩ : ∃ b : Int, int64 ((cl - 3) * 4) = b ∧ (0 ≤ cl → b = (cl - 3) * 4) ∧ -2 ^ 63 ≤ b ∧ b < 2 ^ 63 := by
    refine ⟨_, rfl, fun h => int64_eq (by omega) (by omega), ?_⟩
    exact int64_bounds (by omega) (by omega)
  obtain ⟨l32, hl32, hl32a⟩ : ∃ l32 : Int, andNot b 31 = l32 ∧ l32 ≤ b := by
    refine ⟨_, rfl, ?_⟩
    rw [andNot31 (by omega) (by omega)]
    omega
  simp only [hc3, hcl, lowest32Of, e3, hb, hl32]
  go_lhs
  iterate 2 go_stmt
  go_stmt [hc3, hcl]
  go_stmt
  go_stmt [e3, hb, hl32]
  go_stmt
  rw [Prog.bind_assoc]
  refine for_step (rdfEnv count stream out cl l32) (fun s => rdInv s ∧ (0 ≤ cl ∨ s.dataPos < 0))
    (fun s => if 0 ≤ cl then (l32 - s.decoded).toNat else 1) rfl ?_ ?_ ?_ ?_ ?_ ?_ ?_
  · unfold rdInv; simp; omega
  · simp; split <;> omega
  · simp; split <;> omega
  · intro s hs; unfold rdfEnv; go_lhs
  · intro s hs hc
    have hc := of_decide_eq_true hc
    unfold rdInv at hs
    split <;> omega
  · intro s hs hc K K' h
    have hc := of_decide_eq_true hc
    unfold rdfEnv rdfBody32
    unfold rdInv at hs
    simp only [bind_eq, pure_eq, decShufPtr, ctrlLenPtr, mk16]
    go_lhs
    iterate 15 go_stmt [decode_asmDelta W hW ha, external_Get8uint32DeltaFastAsm, call_ControlByteToSize W hW]
    iterate 3 go_stmt
    go_stmt
    refine Eq.trans ?_ (h _ ?_ ?_)
    · rfl
    · unfold rdInv; simp; omega
    · have h0 : 0 ≤ cl := by omega
      rw [if_pos h0, if_pos h0]; simp; omega
  · intro s hs hc
    replace hs := hs.1
    unfold rdfEnv
    go_lhs
    go_stmt
    rw [Prog.bind_assoc]
    refine for_step (rdfEnv count stream out cl l32) rdInv (fun s => (cl - s.ctrlPos).toNat) rfl ?_ ?_ ?_ ?_ ?_ ?_ ?_
    · exact hs
    · unfold rdInv at hs; try dsimp only
      omega
    · unfold rdInv at hs; try dsimp only
      omega
    · intro s hs; unfold rdfEnv; go_lhs; go_int
    · intro s hs hc
      have hc := of_decide_eq_true hc
      unfold rdInv at hs
      omega
    · intro s hs hc K K' h
      have hc := of_decide_eq_true hc
      unfold rdfEnv rdfBody8
      unfold rdInv at hs
      simp only [bind_eq, pure_eq, decShufPtr, ctrlLenPtr, mk16]
      go_lhs
      iterate 3 go_stmt [decode_asmDelta W hW ha, external_Get8uint32DeltaFastAsm, call_ControlByteToSize W hW]
      go_stmt
      go_stmt
      go_stmt
      refine Eq.trans ?_ (h _ ?_ ?_)
      · rfl
      · unfold rdInv; simp; omega
      · simp; omega
    · intro s hs hc
      unfold rdfEnv
      go_lhs
      go_stmt
      rw [Prog.bind_assoc]
      refine for_step (rdfEnv count stream out cl l32) rdInv (fun s => (cl - s.ctrlPos).toNat) rfl ?_ ?_ ?_ ?_ ?_ ?_ ?_
      · exact hs
      · unfold rdInv at hs; try dsimp only
        omega
      · unfold rdInv at hs; try dsimp only
        omega
      · intro s hs; unfold rdfEnv; go_lhs
      · intro s hs hc
        have hc := of_decide_eq_true hc
        unfold rdInv at hs
        omega
      · intro s hs hc K K' h
        have hc := of_decide_eq_true hc
        unfold rdfEnv rdfBody1
        unfold rdInv at hs
        simp only [bind_eq, pure_eq]
        go_lhs
        go_stmt
        rw [execs_cons]
        go_lhs
        by_cases h4 : count - s.decoded > 4
        · simp only [h4, if_true]
          go_lhs
          go_stmt
          go_lhs
          go_get [call_GetUint32DeltaScalar W hW d _ _ _ _ _ h4f]
          go_int
          go_stmt
          go_stmt
          go_stmt
          refine Eq.trans ?_ (h _ ?_ ?_)
          · rfl
          · unfold rdInv; simp; omega
          · simp; omega
        · simp only [h4, if_false]
          go_lhs
          go_get [call_GetUint32DeltaScalar W hW d _ _ _ _ _ h4f]
          go_int
          go_stmt
          go_stmt
          go_stmt
          refine Eq.trans ?_ (h _ ?_ ?_)
          · rfl
          · unfold rdInv; simp; omega
          · simp; omega
      · intro s hs hc
        unfold rdfEnv
        go_lhs
        rfl

omit hW in
theorem decodeMode_amd64 (h : decodeMode W.cpu = .fast) : W.cpu.amd64 = true := by
  unfold decodeMode at h
  cases ha : W.cpu.amd64
  · simp [ha] at h
  · rfl

/-- On other architectures `ReadAllFast` is a stub that panics, `/repo/pkg/stream/reader/reader_base.go:5-7`. -/
theorem call_ReadAllFast (d : Nat) (count : Int) (stream : Bytes) (out : U32s)
    (hc1 : -2 ^ 63 ≤ count) (hc2 : count < 2 ^ 63)
    (hs1 : stream.len < 5 * 2 ^ 60) (hs2 : stream.cap < 5 * 2 ^ 60) (ho1 : out.len < 2 ^ 60) (ho2 : out.cap < 2 ^ 60)
    (hf : count < W.fuel) (h4f : 4 ≤ W.fuel) :
    W.call (d + 3) n!"reader" n!"ReadAllFast" [.int count, .bytes stream, .words out] =
      (onAmd64 W.cpu (readAllFast count stream out)).bind fun _ => .ret [] := by
  unfold onAmd64
  cases ha : W.cpu.amd64
  · rw [call_go W (d + 2) _ _ _ Files.rdBase_ReadAllFast _ (by rw [hW, other_reader_ReadAllFast _ ha]) rfl]
    unfold Files.rdBase_ReadAllFast
    rw [hW]
    go_simp
    rfl
  · exact amd64_ReadAllFast W hW ha d count stream out hc1 hc2 hs1 hs2 ho1 ho2 hf h4f

theorem call_ReadAll (d : Nat) (count : Int) (stream : Bytes) (out : U32s)
    (hc1 : -2 ^ 63 ≤ count) (hc2 : count < 2 ^ 63)
    (hs1 : stream.len < 5 * 2 ^ 60) (hs2 : stream.cap < 5 * 2 ^ 60) (ho1 : out.len < 2 ^ 60) (ho2 : out.cap < 2 ^ 60)
    (hf : count < W.fuel) (h4f : 4 ≤ W.fuel) :
    W.call (d + 4) n!"reader" n!"ReadAll" [.int count, .bytes stream, .words out] =
      (readAll W.cpu count stream out).bind fun _ => .ret [] := by
  rw [call_go W (d + 3) _ _ _ Files.rd_ReadAll _ (by rw [hW, func_reader_ReadAll]) rfl]
  unfold Files.rd_ReadAll readAll
  rw [hW]
  cases hm : decodeMode W.cpu
  · go_simp [call_decode_GetMode W hW, hm, modeVal,
      call_ReadAllScalar W hW d count stream out hc1 hc2 hs1 hs2 ho1 ho2 hf h4f]
  · go_simp [call_decode_GetMode W hW, hm, modeVal,
      call_ReadAllFast W hW d count stream out hc1 hc2 hs1 hs2 ho1 ho2 hf h4f]

theorem call_ReadAllDelta (d : Nat) (count : Int) (stream : Bytes) (out : U32s) (prev : U32)
    (hc1 : -2 ^ 63 ≤ count) (hc2 : count < 2 ^ 63)
    (hs1 : stream.len < 5 * 2 ^ 60) (hs2 : stream.cap < 5 * 2 ^ 60) (ho1 : out.len < 2 ^ 60) (ho2 : out.cap < 2 ^ 60)
    (hf : count < W.fuel) (h4f : 4 ≤ W.fuel) :
    W.call (d + 4) n!"reader" n!"ReadAllDelta" [.int count, .bytes stream, .words out, .u32 prev] =
      (readAllDelta W.cpu count stream out prev).bind fun _ => .ret [] := by
  rw [call_go W (d + 3) _ _ _ Files.rd_ReadAllDelta _ (by rw [hW, func_reader_ReadAllDelta]) rfl]
  unfold Files.rd_ReadAllDelta readAllDelta
  rw [hW]
  cases hm : decodeMode W.cpu
  · go_simp [call_decode_GetMode W hW, hm, modeVal,
      call_ReadAllDeltaScalar W hW d count stream out prev hc1 hc2 hs1 hs2 ho1 ho2 hf h4f]
  · have ha := decodeMode_amd64 W hm
    simp only [onAmd64, ha, if_true]
    go_simp [call_decode_GetMode W hW, hm, modeVal, amd64_global_reader_ReadAllDeltaFast _ _ ha,
      amd64_ReadAllDeltaFast W hW ha d count stream out prev hc1 hc2 hs1 hs2 ho1 ho2 hf h4f]

end SVB.Go
