import Verif.Proofs.GoTac

/-! # The functions of `/repo/pkg/shared/gen.go` and `/repo/pkg/encode`, interpreted, are those of the model -/

set_option autoImplicit false
set_option linter.unusedSimpArgs false

namespace SVB.Go
open Prog Asm

variable (W : World) (hW : W.prog = filesFor W.cpu)
include hW

/-! ## `/repo/pkg/shared/gen.go` -/

theorem call_ControlByteToSize (d : Nat) (c : Byte) :
    W.call (d + 1) n!"shared" n!"ControlByteToSize" [.u8 c] = (controlByteToSize c).bind fun r => .ret [.int r] := by
  rw [call_go W d _ _ _ Files.gen_ControlByteToSize _ (by rw [hW, func_shared_ControlByteToSize]) rfl]
  unfold Files.gen_ControlByteToSize controlByteToSize
  rw [hW]
  have := c.isLt
  go_simp
  rw [if_pos ⟨by omega, by omega⟩]
  refine bind_congr_all fun b => ?_
  have := b.isLt
  go_int

theorem call_ControlByteToSizeTwo (d : Nat) (c : U16) :
    W.call (d + 1) n!"shared" n!"ControlByteToSizeTwo" [.u16 c] =
      (controlByteToSizeTwo c).bind fun r => .ret [.int r] := by
  rw [call_go W d _ _ _ Files.gen_ControlByteToSizeTwo _ (by rw [hW, func_shared_ControlByteToSizeTwo]) rfl]
  unfold Files.gen_ControlByteToSizeTwo controlByteToSizeTwo
  rw [hW]
  go_simp
  have h1 : (c &&& 255#16).toNat < 256 := by
    rw [BitVec.toNat_and]
    exact Nat.lt_of_le_of_lt Nat.and_le_right (by decide)
  have h2 : (c >>> 8).toNat < 256 := by
    rw [BitVec.toNat_ushiftRight, Nat.shiftRight_eq_div_pow]
    have := c.isLt
    omega
  have e : BitVec.ofInt 16 255 = 255#16 := rfl
  rw [e, if_pos ⟨by omega, by omega⟩, if_pos ⟨h1, h2⟩]
  refine bind_congr_all fun a => ?_
  rw [if_pos ⟨by omega, by omega⟩]
  refine bind_congr_all fun b => ?_
  have := (a + b).isLt
  go_int

/-! ## `/repo/pkg/encode/encode.go` -/

theorem call_max (d : Nat) (a b : Int) :
    W.call (d + 1) n!"encode" n!"max" [.const a, .int b] = .ret [.int (goMax (int64 a) b)] := by
  rw [call_go W d _ _ _ Files.enc_max _ (by rw [hW, func_encode_max]) rfl]
  unfold Files.enc_max goMax
  rw [hW]
  go_simp
  split <;> rfl

theorem call_LeadingZeros32 (d : Nat) (x : U32) :
    W.call (d + 1) n!"bits" n!"LeadingZeros32" [.u32 x] = .ret [.int (leadingZeros32 x)] := by
  rw [call_external W d _ _ _ (.inl (by rw [hW, none_bits_LeadingZeros32]))]
  rfl

theorem call_encodeOne (d : Nat) (num : U32) (out : Bytes) :
    W.call (d + 2) n!"encode" n!"encodeOne" [.u32 num, .bytes out] =
      (encodeOne num out).bind fun r => .ret [.int r] := by
  rw [call_go W (d + 1) _ _ _ Files.enc_encodeOne _ (by rw [hW, func_encode_encodeOne]) rfl]
  unfold Files.enc_encodeOne encodeOne
  rw [hW]
  go_simp [call_LeadingZeros32 W hW, call_max W hW]
  have h := leadingZeros32_le num
  have e : goDiv (leadingZeros32 num) 8 = ((leadingZeros32 num / 8 : Nat) : Int) := rfl
  have e0 : int64 1 = 1 := rfl
  have e1 : int64 (goDiv (leadingZeros32 num) 8) = goDiv (leadingZeros32 num) 8 := by
    rw [e]; exact int64_eq (by omega) (by omega)
  have e2 : int64 (4 - goDiv (leadingZeros32 num) 8) = 4 - goDiv (leadingZeros32 num) 8 := by
    rw [e]; exact int64_eq (by omega) (by omega)
  rw [e0, e1, e2]
  have h := encodeSize_range num
  generalize goMax 1 (4 - goDiv (leadingZeros32 num) 8) = size at h ⊢
  have hs : size = 1 ∨ size = 2 ∨ size = 3 ∨ size = 4 := by omega
  rcases hs with rfl | rfl | rfl | rfl <;> go_simp [byteOf, BitVec.ushiftRight_zero, or_self]

omit hW in
/-- The control byte, computed on 64-bit `int`. -/
theorem pack_eq (l0 l1 l2 l3 : Int) :
    BitVec.ofInt 8
      (BitVec.ofInt 64
            (BitVec.ofInt 64
                  (BitVec.ofInt 64 (l0 - 1) ||| BitVec.ofInt 64 (BitVec.ofInt 64 (l1 - 1) <<< 2).toInt).toInt |||
                BitVec.ofInt 64 (BitVec.ofInt 64 (l2 - 1) <<< 4).toInt).toInt |||
          BitVec.ofInt 64 (BitVec.ofInt 64 (l3 - 1) <<< 6).toInt).toInt = packCtrl l0 l1 l2 l3 := by
  have h (x : U64) : BitVec.ofInt 8 x.toInt = x.setWidth 8 := by
    apply BitVec.eq_of_toInt_eq
    rw [BitVec.toInt_ofInt, BitVec.toInt_setWidth, BitVec.toInt_eq_toNat_bmod]
    exact Int.bmod_bmod_of_dvd (by decide)
  simp only [BitVec.ofInt_toInt, h]
  rfl

theorem call_Put4uint32Scalar (d : Nat) (inn : U32s) (out : Bytes) :
    W.call (d + 3) n!"encode" n!"Put4uint32Scalar" [.words inn, .bytes out] =
      (put4uint32Scalar inn out).bind fun r => .ret [.u8 r] := by
  rw [call_go W (d + 2) _ _ _ Files.enc_Put4uint32Scalar _ (by rw [hW, func_encode_Put4uint32Scalar]) rfl]
  unfold Files.enc_Put4uint32Scalar put4uint32Scalar
  rw [hW]
  simp only [bind_eq, pure_eq]
  go_lhs
  iterate 10 go_stmt [call_encodeOne W hW]
  rw [pack_eq]
  rfl

theorem call_Put4uint32DeltaScalar (d : Nat) (inn : U32s) (out : Bytes) (prev : U32) :
    W.call (d + 3) n!"encode" n!"Put4uint32DeltaScalar" [.words inn, .bytes out, .u32 prev] =
      (put4uint32DeltaScalar inn out prev).bind fun r => .ret [.u8 r] := by
  rw [call_go W (d + 2) _ _ _ Files.enc_Put4uint32DeltaScalar _ (by rw [hW, func_encode_Put4uint32DeltaScalar]) rfl]
  unfold Files.enc_Put4uint32DeltaScalar put4uint32DeltaScalar
  rw [hW]
  simp only [bind_eq, pure_eq]
  go_lhs
  iterate 10 go_stmt [call_encodeOne W hW]
  rw [pack_eq]
  rfl

theorem call_Put8uint32Scalar (d : Nat) (inn : U32s) (out : Bytes) :
    W.call (d + 4) n!"encode" n!"Put8uint32Scalar" [.words inn, .bytes out] =
      (put8uint32Scalar inn out).bind fun r => .ret [.u16 r] := by
  rw [call_go W (d + 3) _ _ _ Files.enc_Put8uint32Scalar _ (by rw [hW, func_encode_Put8uint32Scalar]) rfl]
  unfold Files.enc_Put8uint32Scalar put8uint32Scalar
  rw [hW]
  simp only [bind_eq, pure_eq]
  go_lhs
  iterate 6 go_stmt [call_Put4uint32Scalar W hW, call_ControlByteToSize W hW]
  rfl

theorem call_Put8uint32DeltaScalar (d : Nat) (inn : U32s) (out : Bytes) (prev : U32) :
    W.call (d + 4) n!"encode" n!"Put8uint32DeltaScalar" [.words inn, .bytes out, .u32 prev] =
      (put8uint32DeltaScalar inn out prev).bind fun r => .ret [.u16 r] := by
  rw [call_go W (d + 3) _ _ _ Files.enc_Put8uint32DeltaScalar _ (by rw [hW, func_encode_Put8uint32DeltaScalar]) rfl]
  unfold Files.enc_Put8uint32DeltaScalar put8uint32DeltaScalar
  rw [hW]
  simp only [bind_eq, pure_eq]
  go_lhs
  iterate 6 go_stmt [call_Put4uint32DeltaScalar W hW, call_ControlByteToSize W hW]
  rfl

/-- The local variables of `PutUint32Scalar` in its loop. -/
def putEnv (inn : U32s) (out : Bytes) (count : Int) (s : PutSt) : Env :=
  [(n!"i", .int s.i), (n!"total", .int s.total), (n!"shift", .int s.shift), (n!"ctrl", .u8 s.ctrl), (n!"in", .words inn),
    (n!"out", .bytes out), (n!"count", .int count)]

/-- The local variables of `PutUint32DeltaScalar` in its loop. -/
def putDeltaEnv (inn : U32s) (out : Bytes) (count : Int) (s : PutSt) : Env :=
  [(n!"i", .int s.i), (n!"total", .int s.total), (n!"shift", .int s.shift), (n!"ctrl", .u8 s.ctrl), (n!"in", .words inn),
    (n!"out", .bytes out), (n!"count", .int count), (n!"prev", .u32 s.prev)]

theorem call_PutUint32Scalar (d : Nat) (inn : U32s) (out : Bytes) (count : Int) (hf : 4 ≤ W.fuel) :
    W.call (d + 3) n!"encode" n!"PutUint32Scalar" [.words inn, .bytes out, .int count] =
      (putUint32Scalar inn out count).bind fun r => .ret [.u8 r] := by
  rw [call_go W (d + 2) _ _ _ Files.enc_PutUint32Scalar _ (by rw [hW, func_encode_PutUint32Scalar]) rfl]
  unfold Files.enc_PutUint32Scalar putUint32Scalar
  rw [hW]
  simp only [bind_eq, pure_eq]
  go_lhs
  go_stmt
  by_cases h0 : count = 0
  · simp only [if_pos h0]
    go_stmt
    rfl
  simp only [if_neg h0]
  go_lhs
  go_stmt
  by_cases h4 : count > 4
  all_goals first | simp only [if_pos h4]; go_stmt | simp only [if_neg h4]
  all_goals
    iterate 4 go_stmt
    rw [Prog.bind_assoc]
    refine for_step (putEnv inn out _) (fun s => 0 ≤ s.i ∧ s.shift = 2 * s.i ∧ 0 ≤ s.total ∧ s.total ≤ 4 * s.i)
      (fun s => (4 - s.i).toNat) rfl ?_ ?_ ?_ ?_ ?_ ?_ ?_
    · simp
    · simpa using hf
    · simp
    · intro s hs; unfold putEnv; go_lhs
    · intro s hs hc
      have hc := of_decide_eq_true hc
      simp; omega
    · intro s hs hc K K' h
      have hc := of_decide_eq_true hc
      unfold putEnv
      go_lhs
      go_stmt [call_encodeOne W hW]
      go_stmt
      go_stmt [Int.natCast_nonneg, Int.toNat_natCast]
      iterate 2 go_stmt
      refine Eq.trans ?_ (h _ ?_ ?_)
      · rfl
      · simp; omega
      · simp; omega
    · intro s hs hc
      unfold putEnv
      go_lhs
      go_stmt
      rfl

theorem call_PutUint32DeltaScalar (d : Nat) (inn : U32s) (out : Bytes) (count : Int) (prev : U32) (hf : 4 ≤ W.fuel) :
    W.call (d + 3) n!"encode" n!"PutUint32DeltaScalar" [.words inn, .bytes out, .int count, .u32 prev] =
      (putUint32DeltaScalar inn out count prev).bind fun r => .ret [.u8 r] := by
  rw [call_go W (d + 2) _ _ _ Files.enc_PutUint32DeltaScalar _ (by rw [hW, func_encode_PutUint32DeltaScalar]) rfl]
  unfold Files.enc_PutUint32DeltaScalar putUint32DeltaScalar
  rw [hW]
  simp only [bind_eq, pure_eq]
  go_lhs
  go_stmt
  by_cases h0 : count = 0
  · simp only [if_pos h0]
    go_stmt
    rfl
  simp only [if_neg h0]
  go_lhs
  go_stmt
  by_cases h4 : count > 4
  all_goals first | simp only [if_pos h4]; go_stmt | simp only [if_neg h4]
  all_goals
    iterate 4 go_stmt
    rw [Prog.bind_assoc]
    refine for_step (putDeltaEnv inn out _) (fun s => 0 ≤ s.i ∧ s.shift = 2 * s.i ∧ 0 ≤ s.total ∧ s.total ≤ 4 * s.i)
      (fun s => (4 - s.i).toNat) rfl ?_ ?_ ?_ ?_ ?_ ?_ ?_
    · simp
    · simpa using hf
    · simp
    · intro s hs; unfold putDeltaEnv; go_lhs
    · intro s hs hc
      have hc := of_decide_eq_true hc
      simp; omega
    · intro s hs hc K K' h
      have hc := of_decide_eq_true hc
      unfold putDeltaEnv
      go_lhs
      go_stmt [call_encodeOne W hW]
      go_stmt
      go_stmt [Int.natCast_nonneg, Int.toNat_natCast]
      iterate 3 go_stmt
      refine Eq.trans ?_ (h _ ?_ ?_)
      · rfl
      · simp; omega
      · simp; omega
    · intro s hs hc
      unfold putDeltaEnv
      go_lhs
      go_stmt
      rfl

/-! ## `/repo/pkg/encode/encode_amd64.go`, `/repo/pkg/encode/encode_base.go` -/

/-- `shared.Normal`, `shared.Fast` -/
def modeVal : Mode → Val
  | .normal => .int 0
  | .fast => .int 1

theorem call_encode_GetMode (d : Nat) : W.call (d + 1) n!"encode" n!"GetMode" [] = .ret [modeVal (encodeMode W.cpu)] := by
  unfold encodeMode
  cases ha : W.cpu.amd64
  · rw [call_go W d _ _ _ Files.encBase_GetMode _ (by rw [hW, other_encode_GetMode _ ha]) rfl]
    unfold Files.encBase_GetMode
    rw [hW]
    go_simp [modeVal]
  · rw [call_go W d _ _ _ Files.encAmd64_GetMode _ (by rw [hW, amd64_encode_GetMode _ ha]) rfl]
    unfold Files.encAmd64_GetMode
    rw [hW]
    go_simp
    cases W.cpu.avx <;> cases W.cpu.avx2 <;> rfl

omit hW in
theorem external_Put8uint32FastAsm (i : U32s) (o : Bytes) (s l : Block) (x y : List Nat) :
    external n!"encode" n!"Put8uint32FastAsm" [.words i, .bytes o, .table s x, .table l y] =
      (put8uint32FastAsm i o ⟨s, 0⟩ ⟨l, 0⟩).bind fun r => .ret [.u16 r] := rfl

omit hW in
theorem external_Put8uint32DeltaFastAsm (i : U32s) (o : Bytes) (p : U32) (s l : Block) (x y : List Nat) :
    external n!"encode" n!"Put8uint32DeltaFastAsm" [.words i, .bytes o, .u32 p, .table s x, .table l y] =
      (put8uint32DeltaFastAsm i o p ⟨s, 0⟩ ⟨l, 0⟩).bind fun r => .ret [.u16 r] := rfl

theorem call_Put8uint32Fast (d : Nat) (inn : U32s) (out : Bytes) :
    W.call (d + 2) n!"encode" n!"Put8uint32Fast" [.words inn, .bytes out] =
      (onAmd64 W.cpu (put8uint32Fast inn out)).bind fun r => .ret [.u16 r] := by
  unfold onAmd64
  cases ha : W.cpu.amd64
  · rw [call_go W (d + 1) _ _ _ Files.encBase_Put8uint32Fast _ (by rw [hW, other_encode_Put8uint32Fast _ ha]) rfl]
    unfold Files.encBase_Put8uint32Fast
    rw [hW]
    go_simp
    rfl
  · rw [call_go W (d + 1) _ _ _ Files.encAmd64_Put8uint32Fast _ (by rw [hW, amd64_encode_Put8uint32Fast _ ha]) rfl]
    unfold Files.encAmd64_Put8uint32Fast put8uint32Fast
    rw [hW]
    have h (vs : List Val) : W.call (d + 1) n!"encode" n!"Put8uint32FastAsm" vs =
        external n!"encode" n!"Put8uint32FastAsm" vs :=
      call_external W d _ _ vs (.inr ⟨_, by rw [hW, amd64_encode_Put8uint32FastAsm _ ha], rfl⟩)
    go_simp [amd64_global_encode_Put8uint32FastAsm _ _ ha, h, external_Put8uint32FastAsm]
    rfl

theorem call_Put8uint32DeltaFast (d : Nat) (inn : U32s) (out : Bytes) (prev : U32) :
    W.call (d + 2) n!"encode" n!"Put8uint32DeltaFast" [.words inn, .bytes out, .u32 prev] =
      (onAmd64 W.cpu (put8uint32DeltaFast inn out prev)).bind fun r => .ret [.u16 r] := by
  unfold onAmd64
  cases ha : W.cpu.amd64
  · rw [call_go W (d + 1) _ _ _ Files.encBase_Put8uint32DeltaFast _ (by rw [hW, other_encode_Put8uint32DeltaFast _ ha]) rfl]
    unfold Files.encBase_Put8uint32DeltaFast
    rw [hW]
    go_simp
    rfl
  · rw [call_go W (d + 1) _ _ _ Files.encAmd64_Put8uint32DeltaFast _ (by rw [hW, amd64_encode_Put8uint32DeltaFast _ ha]) rfl]
    unfold Files.encAmd64_Put8uint32DeltaFast put8uint32DeltaFast
    rw [hW]
    have h (vs : List Val) : W.call (d + 1) n!"encode" n!"Put8uint32DeltaFastAsm" vs =
        external n!"encode" n!"Put8uint32DeltaFastAsm" vs :=
      call_external W d _ _ vs (.inr ⟨_, by rw [hW, amd64_encode_Put8uint32DeltaFastAsm _ ha], rfl⟩)
    go_simp [amd64_global_encode_Put8uint32DeltaFastAsm _ _ ha, h, external_Put8uint32DeltaFastAsm]
    rfl

/-- What the `init` function of package `encode` stores in `putImpl`. -/
def putChoice (c : Cpu) : Val :=
  match encodeMode c with
  | .fast => .fn n!"encode" n!"Put8uint32Fast"
  | .normal => .fn n!"encode" n!"Put8uint32Scalar"

/-- What the `init` function of package `encode` stores in `putDeltaImpl`. -/
def putDeltaChoice (c : Cpu) : Val :=
  match encodeMode c with
  | .fast => .fn n!"encode" n!"Put8uint32DeltaFast"
  | .normal => .fn n!"encode" n!"Put8uint32DeltaScalar"

theorem init_encode (d : Nat) : initVars W (d + 1) Files.enc =
    .ret [(n!"putImpl", putChoice W.cpu), (n!"putDeltaImpl", putDeltaChoice W.cpu)] := by
  have e : Files.enc.pkg = n!"encode" := rfl
  have e' : Files.enc_init.body = some _ := rfl
  have ev : Files.enc.vars.map (fun v => (v.1, Val.str [])) = [(n!"putImpl", Val.str []), (n!"putDeltaImpl", Val.str [])] := rfl
  unfold initVars putChoice putDeltaChoice
  rw [hW]
  simp only [e, func_encode_init, e', ev]
  cases hm : encodeMode W.cpu <;> go_simp [call_encode_GetMode W hW, hm, modeVal]

theorem call_Put8uint32 (d : Nat) (inn : U32s) (out : Bytes)
    (hv : W.vars [n!"encode", n!"putImpl"] = some (putChoice W.cpu)) :
    W.call (d + 5) n!"encode" n!"Put8uint32" [.words inn, .bytes out] =
      (put8uint32 W.cpu inn out).bind fun r => .ret [.u16 r] := by
  rw [call_go W (d + 4) _ _ _ Files.enc_Put8uint32 _ (by rw [hW, func_encode_Put8uint32]) rfl]
  unfold Files.enc_Put8uint32 put8uint32
  rw [hW]
  unfold putChoice at hv
  cases hm : encodeMode W.cpu <;> rw [hm] at hv <;>
    go_simp [hv, call_Put8uint32Scalar W hW, call_Put8uint32Fast W hW] <;> rfl

theorem call_Put8uint32Delta (d : Nat) (inn : U32s) (out : Bytes) (prev : U32)
    (hv : W.vars [n!"encode", n!"putDeltaImpl"] = some (putDeltaChoice W.cpu)) :
    W.call (d + 5) n!"encode" n!"Put8uint32Delta" [.words inn, .bytes out, .u32 prev] =
      (put8uint32Delta W.cpu inn out prev).bind fun r => .ret [.u16 r] := by
  rw [call_go W (d + 4) _ _ _ Files.enc_Put8uint32Delta _ (by rw [hW, func_encode_Put8uint32Delta]) rfl]
  unfold Files.enc_Put8uint32Delta put8uint32Delta
  rw [hW]
  unfold putDeltaChoice at hv
  cases hm : encodeMode W.cpu <;> rw [hm] at hv <;>
    go_simp [hv, call_Put8uint32DeltaScalar W hW, call_Put8uint32DeltaFast W hW] <;> rfl

end SVB.Go
