import Verif.Proofs.GoEncode

/-! # The functions of `/repo/pkg/decode`, interpreted, are those of the model -/

set_option autoImplicit false
set_option linter.unusedSimpArgs false

namespace SVB.Go
open Prog Asm

theorem u8_eq (a b : Byte) : ((a.toNat : Int) = (b.toNat : Int)) = (a = b) :=
  propext ⟨fun h => BitVec.eq_of_toNat_eq (by omega), fun h => by rw [h]⟩

theorem loadRow4 (b : Block) (n : Nat) : loadRow ⟨b, n⟩ 4 =
    (load8 ⟨b, n⟩).bind fun l0 => (load8 ⟨b, n + 1⟩).bind fun l1 => (load8 ⟨b, n + 2⟩).bind fun l2 =>
      (load8 ⟨b, n + 3⟩).bind fun l3 => .ret [l0, l1, l2, l3] := rfl

theorem index_row (a b c d : Byte) : indexVal (.arr [a, b, c, d]) 0 = .ret (.u8 a) ∧
    indexVal (.arr [a, b, c, d]) 1 = .ret (.u8 b) ∧ indexVal (.arr [a, b, c, d]) 2 = .ret (.u8 c) ∧
    indexVal (.arr [a, b, c, d]) 3 = .ret (.u8 d) := ⟨rfl, rfl, rfl, rfl⟩

theorem index_lens (c : Byte) : indexVal (.table .numLen [256, 4]) c.toNat =
    (perNumLenRow c).bind fun r => .ret (.arr [r.1, r.2.1, r.2.2.1, r.2.2.2]) := by
  have := c.isLt
  rw [indexVal_rows, if_pos ⟨by omega, by omega⟩]
  rfl

variable (W : World) (hW : W.prog = filesFor W.cpu)
include hW

/-! ## `/repo/pkg/decode/decode.go` -/

theorem call_decodeOne (d : Nat) (b : Bytes) (size : Byte) :
    W.call (d + 1) n!"decode" n!"decodeOne" [.bytes b, .u8 size] = (decodeOne b size).bind fun r => .ret [.u32 r] := by
  rw [call_go W d _ _ _ Files.dec_decodeOne _ (by rw [hW, func_decode_decodeOne]) rfl]
  unfold Files.dec_decodeOne decodeOne
  rw [hW]
  have e4 : BitVec.ofInt 8 4 = (4 : Byte) := rfl
  have e3 : BitVec.ofInt 8 3 = (3 : Byte) := rfl
  have e2 : BitVec.ofInt 8 2 = (2 : Byte) := rfl
  have e1 : BitVec.ofInt 8 1 = (1 : Byte) := rfl
  go_simp [u8_eq, e1, e2, e3, e4]

theorem call_Get4uint32Scalar (d : Nat) (inn : Bytes) (out : U32s) (ctrl : Byte) :
    W.call (d + 2) n!"decode" n!"Get4uint32Scalar" [.bytes inn, .words out, .u8 ctrl] =
      (get4uint32Scalar inn out ctrl).bind fun _ => .ret [] := by
  rw [call_go W (d + 1) _ _ _ Files.dec_Get4uint32Scalar _ (by rw [hW, func_decode_Get4uint32Scalar]) rfl]
  unfold Files.dec_Get4uint32Scalar get4uint32Scalar
  rw [hW]
  simp only [bind_eq, pure_eq]
  go_lhs
  go_stmt [index_lens]
  iterate 4 go_stmt [index_row]
  iterate 4 go_stmt [call_decodeOne W hW]

theorem call_Get4uint32DeltaScalar (d : Nat) (inn : Bytes) (out : U32s) (ctrl : Byte) (prev : U32) :
    W.call (d + 2) n!"decode" n!"Get4uint32DeltaScalar" [.bytes inn, .words out, .u8 ctrl, .u32 prev] =
      (get4uint32DeltaScalar inn out ctrl prev).bind fun _ => .ret [] := by
  rw [call_go W (d + 1) _ _ _ Files.dec_Get4uint32DeltaScalar _ (by rw [hW, func_decode_Get4uint32DeltaScalar]) rfl]
  unfold Files.dec_Get4uint32DeltaScalar get4uint32DeltaScalar
  rw [hW]
  simp only [bind_eq, pure_eq]
  go_lhs
  go_stmt [index_lens]
  iterate 4 go_stmt [index_row]
  iterate 5 go_stmt [call_decodeOne W hW]

theorem call_Get8uint32Scalar (d : Nat) (inn : Bytes) (out : U32s) (ctrl : U16) :
    W.call (d + 3) n!"decode" n!"Get8uint32Scalar" [.bytes inn, .words out, .u16 ctrl] =
      (get8uint32Scalar inn out ctrl).bind fun _ => .ret [] := by
  rw [call_go W (d + 2) _ _ _ Files.dec_Get8uint32Scalar _ (by rw [hW, func_decode_Get8uint32Scalar]) rfl]
  unfold Files.dec_Get8uint32Scalar get8uint32Scalar
  rw [hW]
  simp only [bind_eq, pure_eq]
  have e : BitVec.ofInt 16 255 = BitVec.ofNat 16 255 := rfl
  go_lhs
  iterate 5 go_stmt [call_Get4uint32Scalar W hW, call_ControlByteToSize W hW, e]

theorem call_Get8uint32DeltaScalar (d : Nat) (inn : Bytes) (out : U32s) (ctrl : U16) (prev : U32) :
    W.call (d + 3) n!"decode" n!"Get8uint32DeltaScalar" [.bytes inn, .words out, .u16 ctrl, .u32 prev] =
      (get8uint32DeltaScalar inn out ctrl prev).bind fun _ => .ret [] := by
  rw [call_go W (d + 2) _ _ _ Files.dec_Get8uint32DeltaScalar _ (by rw [hW, func_decode_Get8uint32DeltaScalar]) rfl]
  unfold Files.dec_Get8uint32DeltaScalar get8uint32DeltaScalar
  rw [hW]
  simp only [bind_eq, pure_eq]
  have e : BitVec.ofInt 16 255 = BitVec.ofNat 16 255 := rfl
  go_lhs
  iterate 5 go_stmt [call_Get4uint32DeltaScalar W hW, call_ControlByteToSize W hW, e]

/-- The local variables of `GetUint32Scalar` in its loop. -/
def getEnv (inn : Bytes) (out : U32s) (ctrl : Byte) (count : Int) (s : GetSt) : Env :=
  [(n!"i", .int s.i), (n!"total", .int s.total), (n!"shift", .int s.shift), (n!"in", .bytes inn), (n!"out", .words out),
    (n!"ctrl", .u8 ctrl), (n!"count", .int count)]

/-- The local variables of `GetUint32DeltaScalar` in its loop. -/
def getDeltaEnv (inn : Bytes) (out : U32s) (ctrl : Byte) (count : Int) (s : GetSt) : Env :=
  [(n!"i", .int s.i), (n!"total", .int s.total), (n!"shift", .int s.shift), (n!"in", .bytes inn), (n!"out", .words out),
    (n!"ctrl", .u8 ctrl), (n!"count", .int count), (n!"prev", .u32 s.prev)]

theorem call_GetUint32Scalar (d : Nat) (inn : Bytes) (out : U32s) (ctrl : Byte) (count : Int) (hf : 4 ≤ W.fuel) :
    W.call (d + 2) n!"decode" n!"GetUint32Scalar" [.bytes inn, .words out, .u8 ctrl, .int count] =
      (getUint32Scalar inn out ctrl count).bind fun r => .ret [.int r] := by
  rw [call_go W (d + 1) _ _ _ Files.dec_GetUint32Scalar _ (by rw [hW, func_decode_GetUint32Scalar]) rfl]
  unfold Files.dec_GetUint32Scalar getUint32Scalar
  rw [hW]
  simp only [bind_eq, pure_eq]
  have e3 : BitVec.ofInt 8 3 = BitVec.ofNat 8 3 := rfl
  have e1 : BitVec.ofInt 8 1 = 1 := rfl
  go_lhs
  go_stmt
  by_cases h0 : count = 0
  · simp only [if_pos h0]
    go_stmt
    rfl
  simp only [if_neg h0]
  go_lhs
  go_stmt
  by_cases h4 : count > 4
  all_goals first | simp only [if_pos h4]; go_stmt | simp only [if_neg h4]
  all_goals
    iterate 3 go_stmt
    rw [Prog.bind_assoc]
    refine for_step (getEnv inn out ctrl _)
      (fun s => 0 ≤ s.i ∧ s.shift = 2 * s.i ∧ 0 ≤ s.total ∧ s.total ≤ 255 * s.i)
      (fun s => (4 - s.i).toNat) rfl ?_ ?_ ?_ ?_ ?_ ?_ ?_
    · simp
    · simpa using hf
    · simp
    · intro s hs; unfold getEnv; go_lhs
    · intro s hs hc
      have hc := of_decide_eq_true hc
      simp; omega
    · intro s hs hc K K' h
      have hc := of_decide_eq_true hc
      unfold getEnv
      go_lhs
      go_stmt [Int.natCast_nonneg, Int.toNat_natCast, e3, e1]
      generalize hz : ((ctrl >>> s.shift &&& BitVec.ofNat 8 3) + 1) = size
      have := size.isLt
      iterate 4 go_stmt [call_decodeOne W hW]
      refine Eq.trans ?_ (h _ ?_ ?_)
      · rfl
      · simp; omega
      · simp; omega
    · intro s hs hc
      unfold getEnv
      go_lhs
      go_stmt
      rfl

theorem call_GetUint32DeltaScalar (d : Nat) (inn : Bytes) (out : U32s) (ctrl : Byte) (count : Int) (prev : U32) (hf : 4 ≤ W.fuel) :
    W.call (d + 2) n!"decode" n!"GetUint32DeltaScalar" [.bytes inn, .words out, .u8 ctrl, .int count, .u32 prev] =
      (getUint32DeltaScalar inn out ctrl count prev).bind fun r => .ret [.int r] := by
  rw [call_go W (d + 1) _ _ _ Files.dec_GetUint32DeltaScalar _ (by rw [hW, func_decode_GetUint32DeltaScalar]) rfl]
  unfold Files.dec_GetUint32DeltaScalar getUint32DeltaScalar
  rw [hW]
  simp only [bind_eq, pure_eq]
  have e3 : BitVec.ofInt 8 3 = BitVec.ofNat 8 3 := rfl
  have e1 : BitVec.ofInt 8 1 = 1 := rfl
  go_lhs
  go_stmt
  by_cases h0 : count = 0
  · simp only [if_pos h0]
    go_stmt
    rfl
  simp only [if_neg h0]
  go_lhs
  go_stmt
  by_cases h4 : count > 4
  all_goals first | simp only [if_pos h4]; go_stmt | simp only [if_neg h4]
  all_goals
    iterate 3 go_stmt
    rw [Prog.bind_assoc]
    refine for_step (getDeltaEnv inn out ctrl _)
      (fun s => 0 ≤ s.i ∧ s.shift = 2 * s.i ∧ 0 ≤ s.total ∧ s.total ≤ 255 * s.i)
      (fun s => (4 - s.i).toNat) rfl ?_ ?_ ?_ ?_ ?_ ?_ ?_
    · simp
    · simpa using hf
    · simp
    · intro s hs; unfold getDeltaEnv; go_lhs
    · intro s hs hc
      have hc := of_decide_eq_true hc
      simp; omega
    · intro s hs hc K K' h
      have hc := of_decide_eq_true hc
      unfold getDeltaEnv
      go_lhs
      go_stmt [Int.natCast_nonneg, Int.toNat_natCast, e3, e1]
      generalize hz : ((ctrl >>> s.shift &&& BitVec.ofNat 8 3) + 1) = size
      have := size.isLt
      iterate 6 go_stmt [call_decodeOne W hW]
      refine Eq.trans ?_ (h _ ?_ ?_)
      · rfl
      · simp; omega
      · simp; omega
    · intro s hs hc
      unfold getDeltaEnv
      go_lhs
      go_stmt
      rfl

/-! ## `/repo/pkg/decode/decode_amd64.go`, `/repo/pkg/decode/decode_base.go` -/

theorem call_decode_GetMode (d : Nat) : W.call (d + 1) n!"decode" n!"GetMode" [] = .ret [modeVal (decodeMode W.cpu)] := by
  unfold decodeMode
  cases ha : W.cpu.amd64
  · rw [call_go W d _ _ _ Files.decBase_GetMode _ (by rw [hW, other_decode_GetMode _ ha]) rfl]
    unfold Files.decBase_GetMode
    rw [hW]
    go_simp [modeVal]
  · rw [call_go W d _ _ _ Files.decAmd64_GetMode _ (by rw [hW, amd64_decode_GetMode _ ha]) rfl]
    unfold Files.decAmd64_GetMode
    rw [hW]
    go_simp
    cases W.cpu.avx <;> rfl

omit hW in
theorem external_Get8uint32FastAsm (i : Bytes) (o : U32s) (c : U16) (s l : Block) (x y : List Nat) :
    external n!"decode" n!"Get8uint32FastAsm" [.bytes i, .words o, .u16 c, .table s x, .table l y] =
      (get8uint32FastAsm i o c ⟨s, 0⟩ ⟨l, 0⟩).bind fun _ => .ret [] := rfl

omit hW in
theorem external_Get8uint32DeltaFastAsm (i : Bytes) (o : U32s) (c : U16) (p : U32) (s l : Block) (x y : List Nat) :
    external n!"decode" n!"Get8uint32DeltaFastAsm" [.bytes i, .words o, .u16 c, .u32 p, .table s x, .table l y] =
      (get8uint32DeltaFastAsm i o c p ⟨s, 0⟩ ⟨l, 0⟩).bind fun _ => .ret [] := rfl

theorem call_Get8uint32Fast (d : Nat) (inn : Bytes) (out : U32s) (ctrl : U16) :
    W.call (d + 2) n!"decode" n!"Get8uint32Fast" [.bytes inn, .words out, .u16 ctrl] =
      (onAmd64 W.cpu (get8uint32Fast inn out ctrl)).bind fun _ => .ret [] := by
  unfold onAmd64
  cases ha : W.cpu.amd64
  · rw [call_go W (d + 1) _ _ _ Files.decBase_Get8uint32Fast _ (by rw [hW, other_decode_Get8uint32Fast _ ha]) rfl]
    unfold Files.decBase_Get8uint32Fast
    rw [hW]
    go_simp
    rfl
  · rw [call_go W (d + 1) _ _ _ Files.decAmd64_Get8uint32Fast _ (by rw [hW, amd64_decode_Get8uint32Fast _ ha]) rfl]
    unfold Files.decAmd64_Get8uint32Fast get8uint32Fast
    rw [hW]
    have h (vs : List Val) : W.call (d + 1) n!"decode" n!"Get8uint32FastAsm" vs =
        external n!"decode" n!"Get8uint32FastAsm" vs :=
      call_external W d _ _ vs (.inr ⟨_, by rw [hW, amd64_decode_Get8uint32FastAsm _ ha], rfl⟩)
    go_simp [amd64_global_decode_Get8uint32FastAsm _ _ ha, h, external_Get8uint32FastAsm]
    rfl

theorem call_Get8uint32DeltaFast (d : Nat) (inn : Bytes) (out : U32s) (ctrl : U16) (prev : U32) :
    W.call (d + 2) n!"decode" n!"Get8uint32DeltaFast" [.bytes inn, .words out, .u16 ctrl, .u32 prev] =
      (onAmd64 W.cpu (get8uint32DeltaFast inn out ctrl prev)).bind fun _ => .ret [] := by
  unfold onAmd64
  cases ha : W.cpu.amd64
  · rw [call_go W (d + 1) _ _ _ Files.decBase_Get8uint32DeltaFast _ (by rw [hW, other_decode_Get8uint32DeltaFast _ ha]) rfl]
    unfold Files.decBase_Get8uint32DeltaFast
    rw [hW]
    go_simp
    rfl
  · rw [call_go W (d + 1) _ _ _ Files.decAmd64_Get8uint32DeltaFast _ (by rw [hW, amd64_decode_Get8uint32DeltaFast _ ha]) rfl]
    unfold Files.decAmd64_Get8uint32DeltaFast get8uint32DeltaFast
    rw [hW]
    have h (vs : List Val) : W.call (d + 1) n!"decode" n!"Get8uint32DeltaFastAsm" vs =
        external n!"decode" n!"Get8uint32DeltaFastAsm" vs :=
      call_external W d _ _ vs (.inr ⟨_, by rw [hW, amd64_decode_Get8uint32DeltaFastAsm _ ha], rfl⟩)
    go_simp [amd64_global_decode_Get8uint32DeltaFastAsm _ _ ha, h, external_Get8uint32DeltaFastAsm]
    rfl

/-- What the `init` function of package `decode` stores in `getImpl`. -/
def getChoice (c : Cpu) : Val :=
  match decodeMode c with
  | .fast => .fn n!"decode" n!"Get8uint32Fast"
  | .normal => .fn n!"decode" n!"Get8uint32Scalar"

/-- What the `init` function of package `decode` stores in `getDeltaImpl`. -/
def getDeltaChoice (c : Cpu) : Val :=
  match decodeMode c with
  | .fast => .fn n!"decode" n!"Get8uint32DeltaFast"
  | .normal => .fn n!"decode" n!"Get8uint32DeltaScalar"

theorem init_decode (d : Nat) : initVars W (d + 1) Files.dec =
    .ret [(n!"getImpl", getChoice W.cpu), (n!"getDeltaImpl", getDeltaChoice W.cpu)] := by
  have e : Files.dec.pkg = n!"decode" := rfl
  have e' : Files.dec_init.body = some _ := rfl
  have ev : Files.dec.vars.map (fun v => (v.1, Val.str [])) = [(n!"getImpl", Val.str []), (n!"getDeltaImpl", Val.str [])] := rfl
  unfold initVars getChoice getDeltaChoice
  rw [hW]
  simp only [e, func_decode_init, e', ev]
  cases hm : decodeMode W.cpu <;> go_simp [call_decode_GetMode W hW, hm, modeVal]

theorem call_Get8uint32 (d : Nat) (inn : Bytes) (out : U32s) (ctrl : U16)
    (hv : W.vars [n!"decode", n!"getImpl"] = some (getChoice W.cpu)) :
    W.call (d + 4) n!"decode" n!"Get8uint32" [.bytes inn, .words out, .u16 ctrl] =
      (get8uint32 W.cpu inn out ctrl).bind fun _ => .ret [] := by
  rw [call_go W (d + 3) _ _ _ Files.dec_Get8uint32 _ (by rw [hW, func_decode_Get8uint32]) rfl]
  unfold Files.dec_Get8uint32 get8uint32
  rw [hW]
  unfold getChoice at hv
  cases hm : decodeMode W.cpu <;> rw [hm] at hv <;>
    go_simp [hv, call_Get8uint32Scalar W hW, call_Get8uint32Fast W hW]

theorem call_Get8uint32Delta (d : Nat) (inn : Bytes) (out : U32s) (ctrl : U16) (prev : U32)
    (hv : W.vars [n!"decode", n!"getDeltaImpl"] = some (getDeltaChoice W.cpu)) :
    W.call (d + 4) n!"decode" n!"Get8uint32Delta" [.bytes inn, .words out, .u16 ctrl, .u32 prev] =
      (get8uint32Delta W.cpu inn out ctrl prev).bind fun _ => .ret [] := by
  rw [call_go W (d + 3) _ _ _ Files.dec_Get8uint32Delta _ (by rw [hW, func_decode_Get8uint32Delta]) rfl]
  unfold Files.dec_Get8uint32Delta get8uint32Delta
  rw [hW]
  unfold getDeltaChoice at hv
  cases hm : decodeMode W.cpu <;> rw [hm] at hv <;>
    go_simp [hv, call_Get8uint32DeltaScalar W hW, call_Get8uint32DeltaFast W hW]

end SVB.Go
