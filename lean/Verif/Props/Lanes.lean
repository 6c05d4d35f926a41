import Verif.Proofs.AsmEnc
import Verif.Proofs.AsmDec
import Verif.Proofs.Bridge
import Verif.Proofs.SpecFacts
import Verif.Proofs.Results
import Verif.Setting

/-!
# C83: the comments' accounts of the differences, the sums and the shuffles

The comments of the assembly functions draw the contents of the registers: `/repo/pkg/encode/encode_amd64.go:181-194` and
`:200-210`, `/repo/pkg/decode/decode_amd64.go:41-46` and `:52-63`.  Here the drawings are stated for all numbers and compared with
the registers after each instruction.
-/

set_option autoImplicit false

namespace SVB.Props
open SVB.Spec SVB.Asm

/-- The four numbers in a register. -/
def laneNums (v : Vec) : List U32 := [lane32 v 0, lane32 v 1, lane32 v 2, lane32 v 3]

/-- The sixteen bytes in a register. -/
def regBytes (v : Vec) : List Byte := (List.range 16).map v

/-! ## Differences, `/repo/pkg/encode/encode_amd64.go:200-210` -/

/-- `/repo/pkg/encode/encode_amd64.s:53-57`: the five instructions between the loads and the control bytes. -/
def deltaInstrs : List Instr := (put8uint32DeltaFastText.drop 3).take 5

/-- C83: the registers after each of the five instructions, for all numbers in the registers and every previous number: the
second half is shifted against the first (line 53) and subtracted (54), then the previous number is placed in all laneNums (55),
`[P A B C]` is formed from it and the first half (56) and subtracted (57). -/
theorem C83_differences (fr : Frame) (s : St) (m : Mem) (P a b c d e f g h : U32) (hfr : fr.get 48 = some (.d P))
    (h0 : laneNums (s.x .X0) = [a, b, c, d]) (h1 : laneNums (s.x .X1) = [e, f, g, h]) :
    (∃ s', run (exec fr (deltaInstrs.take 1) s) m = (.ok s', m) ∧ laneNums (s'.x .X2) = [d, e, f, g]) ∧
    (∃ s', run (exec fr (deltaInstrs.take 2) s) m = (.ok s', m) ∧ laneNums (s'.x .X1) = [e - d, f - e, g - f, h - g]) ∧
    (∃ s', run (exec fr (deltaInstrs.take 3) s) m = (.ok s', m) ∧ laneNums (s'.x .X2) = [P, P, P, P] ∧
      laneNums (s'.x .X0) = [a, b, c, d]) ∧
    (∃ s', run (exec fr (deltaInstrs.take 4) s) m = (.ok s', m) ∧ laneNums (s'.x .X2) = [P, a, b, c]) ∧
    (∃ s', run (exec fr deltaInstrs s) m = (.ok s', m) ∧ laneNums (s'.x .X0) = [a - P, b - a, c - b, d - c] ∧
      laneNums (s'.x .X1) = [e - d, f - e, g - f, h - g]) := by
  simp only [laneNums, List.cons.injEq, and_true] at h0 h1
  obtain ⟨rfl, rfl, rfl, rfl⟩ := h0
  obtain ⟨rfl, rfl, rfl, rfl⟩ := h1
  refine ⟨⟨_, rfl, ?_⟩, ⟨_, rfl, ?_⟩, ?_, ?_, ?_⟩
  · rfl
  · simp [laneNums, St.setX, lane32_of32, lane32_palignr12]
  all_goals
    simp only [deltaInstrs, put8uint32DeltaFastText, List.drop, List.take, List.cons_append, List.nil_append, exec, step, hfr]
    refine ⟨_, rfl, ?_⟩
    simp [laneNums, St.setX, lane32_of32, lane32_palignr12]

/-- C83: together these are the differences of the eight numbers, the first against the previous number. -/
theorem C83_differences_all (fr : Frame) (s : St) (m : Mem) (P : U32) (hfr : fr.get 48 = some (.d P)) :
    ∃ s', run (exec fr deltaInstrs s) m = (.ok s', m) ∧
      laneNums (s'.x .X0) ++ laneNums (s'.x .X1) = delta P (laneNums (s.x .X0) ++ laneNums (s.x .X1)) := by
  obtain ⟨s', hr, e0, e1⟩ := (C83_differences fr s m P _ _ _ _ _ _ _ _ hfr rfl rfl).2.2.2.2
  exact ⟨s', hr, by rw [e0, e1]; rfl⟩

/-! ## Sums, `/repo/pkg/decode/decode_amd64.go:52-63` -/

/-- `/repo/pkg/decode/decode_amd64.s:56-67`: the twelve instructions between the shuffles and the stores. -/
def sumInstrs : List Instr := (get8uint32DeltaFastText.drop 20).take 12

/-- C83: the registers after each of the first seven instructions.  The comment lists the second shift below the addition of the
previous number; the code shifts before it, which gives the values that the comment shows. -/
theorem C83_sums (fr : Frame) (s : St) (m : Mem) (P a b c d : U32) (hfr : fr.get 52 = some (.d P))
    (h0 : laneNums (s.x .X0) = [a, b, c, d]) :
    (∃ s', run (exec fr (sumInstrs.take 1) s) m = (.ok s', m) ∧ laneNums (s'.x .X2) = [P, P, P, P]) ∧
    (∃ s', run (exec fr (sumInstrs.take 2) s) m = (.ok s', m) ∧ laneNums (s'.x .X3) = [0, a, b, c]) ∧
    (∃ s', run (exec fr (sumInstrs.take 3) s) m = (.ok s', m) ∧ laneNums (s'.x .X0) = [a, a + b, b + c, c + d]) ∧
    (∃ s', run (exec fr (sumInstrs.take 4) s) m = (.ok s', m) ∧ laneNums (s'.x .X3) = [0, 0, a, a + b]) ∧
    (∃ s', run (exec fr (sumInstrs.take 5) s) m = (.ok s', m) ∧
      laneNums (s'.x .X0) = [P + a, P + a + b, P + b + c, P + c + d] ∧ laneNums (s'.x .X3) = [0, 0, a, a + b]) ∧
    (∃ s', run (exec fr (sumInstrs.take 6) s) m = (.ok s', m) ∧
      laneNums (s'.x .X0) = [P + a, P + a + b, P + a + b + c, P + a + b + c + d]) ∧
    (∃ s', run (exec fr (sumInstrs.take 7) s) m = (.ok s', m) ∧
      laneNums (s'.x .X0) = [P + a, P + a + b, P + a + b + c, P + a + b + c + d] ∧
      laneNums (s'.x .X2) = [P + a + b + c + d, P + a + b + c + d, P + a + b + c + d, P + a + b + c + d] ∧
      s'.x .X1 = s.x .X1) := by
  simp only [laneNums, List.cons.injEq, and_true] at h0
  obtain ⟨rfl, rfl, rfl, rfl⟩ := h0
  refine ⟨?_, ?_, ?_, ?_, ?_, ?_, ?_⟩
  all_goals
    simp only [sumInstrs, get8uint32DeltaFastText, decCoreText, List.drop, List.take, List.cons_append, List.nil_append, exec,
      step, hfr]
    refine ⟨_, rfl, ?_⟩
    simp [laneNums, St.setX, lane32_of32, lane32_pslldq4, lane32_pslldq8, lane32_pshufd255]
    try ac_rfl
    try grind

/-- C83: the registers after each of the five instructions for the second half, from any registers in which `X2` holds the last
sum of the first half in all places; the first half is left alone. -/
theorem C83_sums_second (fr : Frame) (s : St) (m : Mem) (P a b c d : U32) (h2 : laneNums (s.x .X2) = [P, P, P, P])
    (h1 : laneNums (s.x .X1) = [a, b, c, d]) :
    (∃ s', run (exec fr ((sumInstrs.drop 7).take 1) s) m = (.ok s', m) ∧ laneNums (s'.x .X3) = [0, a, b, c]) ∧
    (∃ s', run (exec fr ((sumInstrs.drop 7).take 2) s) m = (.ok s', m) ∧ laneNums (s'.x .X1) = [a, a + b, b + c, c + d]) ∧
    (∃ s', run (exec fr ((sumInstrs.drop 7).take 3) s) m = (.ok s', m) ∧ laneNums (s'.x .X3) = [0, 0, a, a + b]) ∧
    (∃ s', run (exec fr ((sumInstrs.drop 7).take 4) s) m = (.ok s', m) ∧
      laneNums (s'.x .X1) = [P + a, P + a + b, P + b + c, P + c + d] ∧ laneNums (s'.x .X3) = [0, 0, a, a + b]) ∧
    (∃ s', run (exec fr (sumInstrs.drop 7) s) m = (.ok s', m) ∧
      laneNums (s'.x .X1) = [P + a, P + a + b, P + a + b + c, P + a + b + c + d] ∧ s'.x .X0 = s.x .X0) := by
  simp only [laneNums, List.cons.injEq, and_true] at h1 h2
  obtain ⟨rfl, rfl, rfl, rfl⟩ := h1
  obtain ⟨rfl, h21, h22, h23⟩ := h2
  refine ⟨?_, ?_, ?_, ?_, ?_⟩
  all_goals
    simp only [sumInstrs, get8uint32DeltaFastText, decCoreText, List.drop, List.take, List.cons_append, List.nil_append, exec,
      step]
    refine ⟨_, rfl, ?_⟩
    simp [laneNums, St.setX, lane32_of32, lane32_pslldq4, lane32_pslldq8, h21, h22, h23]
    try ac_rfl
    try grind

/-- C83: the five instructions for the second half do the same with the last sum of the first half; the registers end up with the
running sums of all eight differences, starting from the previous number. -/
theorem C83_sums_all (fr : Frame) (s : St) (m : Mem) (P : U32) (hfr : fr.get 52 = some (.d P)) :
    ∃ s', run (exec fr sumInstrs s) m = (.ok s', m) ∧
      laneNums (s'.x .X0) ++ laneNums (s'.x .X1) = undelta P (laneNums (s.x .X0) ++ laneNums (s.x .X1)) := by
  simp only [sumInstrs, get8uint32DeltaFastText, decCoreText, List.drop, List.take, List.cons_append, List.nil_append, exec,
      step, hfr]
  refine ⟨_, rfl, ?_⟩
  simp [laneNums, St.setX, lane32_of32, lane32_pslldq4, lane32_pslldq8, lane32_pshufd255, undelta]
  grind

/-- The instructions of the first half in the order of the comment: the second shift after the addition of the previous number. -/
def sumCommentOrder : List Instr := [
  .VBROADCASTSS_arg 52 .X2, .VPSLLDQ 4 .X0 .X3, .VPADDD .X0 .X3 .X0, .VPADDD .X0 .X2 .X0, .VPSLLDQ 8 .X0 .X3, .VPADDD .X0 .X3 .X0]

/-- The two orders have the same instructions. -/
example : sumCommentOrder = ((sumInstrs.take 6).set 3 (.VPADDD .X0 .X2 .X0)).set 4 (.VPSLLDQ 8 .X0 .X3) := rfl

/-- C83: the order matters.  With the shift below the addition, the third and fourth number would be too large by the previous
number: right for all differences or for none, according to whether the previous number is 0. -/
theorem C83_order (fr : Frame) (s : St) (m : Mem) (P a b c d : U32) (hfr : fr.get 52 = some (.d P))
    (h0 : laneNums (s.x .X0) = [a, b, c, d]) :
    ∃ s', run (exec fr sumCommentOrder s) m = (.ok s', m) ∧
      laneNums (s'.x .X0) = [P + a, P + a + b, P + (P + a + b + c), P + (P + a + b + c + d)] ∧
      (laneNums (s'.x .X0) = undelta P [a, b, c, d] ↔ P = 0) := by
  simp only [laneNums, List.cons.injEq, and_true] at h0
  obtain ⟨rfl, rfl, rfl, rfl⟩ := h0
  simp only [sumCommentOrder, exec, step, hfr]
  refine ⟨_, rfl, ?_, ?_⟩
  · simp [laneNums, St.setX, lane32_of32, lane32_pslldq4, lane32_pslldq8]
    grind
  · simp [laneNums, St.setX, lane32_of32, lane32_pslldq4, lane32_pslldq8, undelta]
    constructor
    · intro h; grind
    · rintro rfl; grind

/-! ## Shuffles, `/repo/pkg/encode/encode_amd64.go:181-194` and `/repo/pkg/decode/decode_amd64.go:41-46` -/

/-- A row of the encoding table names the bytes of the numbers one after the other, then 0xff. -/
private theorem encRows : ∀ c < 256, encodeShuffleTable.getD c [] =
    (let pos := (List.range 4).flatMap fun n => (List.range (c / 4 ^ n % 4 + 1)).map fun r => 4 * n + r
     pos ++ List.replicate (16 - pos.length) 255) := by decide +kernel

private theorem leBytes_lane (x : Vec) (n : Nat) :
    leBytes (lane32 x n) = (List.range (byteLen (lane32 x n))).map fun r => x (4 * n + r) := by
  unfold leBytes
  refine List.map_congr_left fun r hr => ?_
  have h4 : byteLen (lane32 x n) ≤ 4 := byteLen_le (by have := (lane32 x n).isLt; omega) (by omega)
  have hr4 : r < 4 := by have := List.mem_range.1 hr; omega
  apply BitVec.eq_of_toNat_eq
  rw [BitVec.toNat_ofNat, lane32_toNat]
  have b0 := (x (4 * n)).isLt; have b1 := (x (4 * n + 1)).isLt; have b2 := (x (4 * n + 2)).isLt
  have b3 := (x (4 * n + 3)).isLt
  obtain rfl | rfl | rfl | rfl : r = 0 ∨ r = 1 ∨ r = 2 ∨ r = 3 := by omega
  all_goals simp only [Nat.reducePow, Nat.add_zero]; omega

private theorem run_loadN (m : Mem) : ∀ (n : Nat) (p : Ptr), run (loadN p n) m = (.ok ((List.range n).map fun k => m (p.add k)), m)
  | 0, _ => rfl
  | n + 1, p => by
    have ih := run_loadN m n (p.add 1)
    rw [show loadN p (n + 1) = .load p fun b => (loadN (p.add 1) n).bind fun bs => .ret (b :: bs) from rfl]
    show run ((loadN (p.add 1) n).bind fun bs => .ret (m p :: bs)) m = _
    rw [run_bind, ih, List.range_succ_eq_map]
    simp only [run, List.map_cons, List.map_map]
    refine congrArg (fun l => (Outcome.ok l, m)) ?_
    refine congrArg (m p :: ·) (List.map_congr_left fun k _ => ?_)
    simp only [Function.comp, Ptr.add, Nat.add_assoc, Nat.add_comm 1 k, Nat.succ_eq_add_one]

private theorem run_load16 (p : Ptr) (m : Mem) : ∃ v, run (load16 p) m = (.ok v, m) ∧ ∀ k < 16, v k = m (p.add k) := by
  refine ⟨fun i => ((List.range 16).map fun k => m (p.add k)).getD i 0, ?_, fun k hk => ?_⟩
  · rw [show load16 p = (loadN p 16).bind fun bs => .ret fun i => bs.getD i 0 from rfl, run_bind, run_loadN]
    rfl
  · show ((List.range 16).map fun k => m (p.add k)).getD k 0 = _
    rw [getD_eq_getElem' _ (by simpa using hk)]
    simp

private theorem run_shuffle (fr : Frame) (s : St) (m : Mem) (q : GP) (a d : XR) (p : Ptr) (hq : s.gp q = .ptr p) :
    ∃ mask : Vec, run (step fr s (.VPSHUFB q a d)) m = (.ok (s.setX d (pshufb mask (s.x a))), m) ∧
      ∀ k < 16, mask k = m (p.add k) := by
  obtain ⟨v, hv, hm⟩ := run_load16 p m
  refine ⟨v, ?_, hm⟩
  simp only [step, hq]
  rw [show (load16 p >>= fun mask => (pure (s.setX d (pshufb mask (s.x a))) : Prog St)) =
    (load16 p).bind fun mask => .ret (s.setX d (pshufb mask (s.x a))) from rfl, run_bind, hv]
  rfl

/-- C83: the shuffle of the encoder packs any four numbers: with the row of their control byte, the register holds the data bytes
of the numbers, without gaps, then zeros. -/
theorem C83_pack (fr : Frame) (s : St) (m : Mem) (hT : TablesLoaded m) (q : GP) (a d : XR)
    (hq : s.gp q = .ptr ⟨.encShuf, 16 * (ctrlByte (laneNums (s.x a))).toNat⟩) :
    ∃ s', run (step fr s (.VPSHUFB q a d)) m = (.ok s', m) ∧
      regBytes (s'.x d) = dataBytes (laneNums (s.x a)) ++ List.replicate (16 - (dataBytes (laneNums (s.x a))).length) 0 := by
  obtain ⟨mask, hr, hm⟩ := run_shuffle fr s m q a d _ hq
  refine ⟨_, hr, ?_⟩
  generalize s.x a = x at *
  have hc := (ctrlByte (laneNums x)).isLt
  have hcode : ∀ n < 4, code (ctrlByte (laneNums x)) n + 1 = byteLen (lane32 x n) := by
    intro n hn
    rw [ctrlByte_code (by simp [laneNums])]
    obtain rfl | rfl | rfl | rfl : n = 0 ∨ n = 1 ∨ n = 2 ∨ n = 3 := by omega
    all_goals rfl
  have hrow := encRows _ hc
  have hlen : (encodeShuffleTable.getD (ctrlByte (laneNums x)).toNat []).length = 16 := by
    generalize (ctrlByte (laneNums x)).toNat = c at hc
    revert c; decide +kernel
  have e1 : regBytes (pshufb mask x) = (encodeShuffleTable.getD (ctrlByte (laneNums x)).toNat []).map
      fun (b : Nat) => if (BitVec.ofNat 8 b).msb then (0 : Byte) else x ((BitVec.ofNat 8 b).toNat % 16) := by
    refine List.ext_getElem (by rw [List.length_map, hlen]; simp [regBytes]) fun k h1 h2 => ?_
    have hk : k < 16 := by simpa [regBytes] using h1
    have := (hm k hk).trans (hT.encShuf _ hc k hk)
    simp only [regBytes, List.getElem_map, List.getElem_range, pshufb, this]
    rw [getD_eq_getElem' _ (by omega)]
  have e2 : ∀ n < 4, ∀ l ≤ 4, ((List.range l).map fun r => 4 * n + r).map
      (fun (b : Nat) => if (BitVec.ofNat 8 b).msb then (0 : Byte) else x ((BitVec.ofNat 8 b).toNat % 16)) =
      (List.range l).map fun r => x (4 * n + r) := by
    intro n hn l hl
    rw [List.map_map]
    refine List.map_congr_left fun r hr => ?_
    have hr' := List.mem_range.1 hr
    have ht : (BitVec.ofNat 8 (4 * n + r)).toNat = 4 * n + r := by rw [BitVec.toNat_ofNat]; omega
    have hmsb : (BitVec.ofNat 8 (4 * n + r)).msb = false := by
      rw [BitVec.msb_eq_false_iff_two_mul_lt, ht]; omega
    simp only [Function.comp, hmsb, ht, Nat.mod_eq_of_lt (show 4 * n + r < 16 by omega)]
    rfl
  have hle : ∀ n, byteLen (lane32 x n) ≤ 4 := fun n =>
    byteLen_le (by have := (lane32 x n).isLt; omega) (by omega)
  have c0 := hcode 0 (by omega); have c1 := hcode 1 (by omega); have c2 := hcode 2 (by omega); have c3 := hcode 3 (by omega)
  unfold code at c0 c1 c2 c3
  have hr4 : List.range 4 = [0, 1, 2, 3] := rfl
  show regBytes ((s.setX d (pshufb mask x)).x d) = _
  rw [show (s.setX d (pshufb mask x)).x d = pshufb mask x by simp [St.setX], e1, hrow]
  simp only [hr4, List.flatMap_cons, List.flatMap_nil, List.append_nil, c0, c1, c2, c3, List.map_append, List.map_replicate,
    e2 0 (by omega) _ (hle 0), e2 1 (by omega) _ (hle 1), e2 2 (by omega) _ (hle 2), e2 3 (by omega) _ (hle 3),
    List.length_append, List.length_map, List.length_range, List.append_assoc]
  simp only [dataBytes, laneNums, List.flatMap_cons, List.flatMap_nil, List.append_nil, leBytes_lane, List.length_append,
    List.length_map, List.length_range, List.append_assoc]
  rfl

private theorem take_bytes (y : Vec) (o l : Nat) (h : o + l ≤ 16) :
    ((regBytes y).drop o).take l = (List.range l).map fun k => y (o + k) := by
  refine List.ext_getElem (by simp [regBytes]; omega) fun k h1 h2 => ?_
  simp [regBytes]

private theorem lane_value (y z : Vec) (n o l : Nat) (hl : 1 ≤ l ∧ l ≤ 4)
    (h : ∀ k < 4, z (4 * n + k) = if k < l then y (o + k) else 0) :
    lane32 z n = BitVec.ofNat 32 (leValue ((List.range l).map fun k => y (o + k))) := by
  apply BitVec.eq_of_toNat_eq
  have k0 := h 0 (by omega); have k1 := h 1 (by omega); have k2 := h 2 (by omega); have k3 := h 3 (by omega)
  rw [lane32_toNat, k1, k2, k3]
  simp only [Nat.add_zero] at k0
  rw [k0, BitVec.toNat_ofNat]
  have b0 := (y o).isLt; have b1 := (y (o + 1)).isLt; have b2 := (y (o + 2)).isLt; have b3 := (y (o + 3)).isLt
  obtain rfl | rfl | rfl | rfl : l = 1 ∨ l = 2 ∨ l = 3 ∨ l = 4 := by omega
  all_goals
    simp [List.range_succ, leValue]
    try omega

/-- C83: the shuffle of the decoder decompresses any bytes: with the row of any control byte, the register holds the four numbers
that the lengths in the control byte cut off the bytes. -/
theorem C83_unpack (fr : Frame) (s : St) (m : Mem) (hT : TablesLoaded m) (q : GP) (a d : XR) (c : Byte)
    (hq : s.gp q = .ptr ⟨.decShuf, 16 * c.toNat⟩) :
    ∃ s', run (step fr s (.VPSHUFB q a d)) m = (.ok s', m) ∧
      readNums (codeLens 4 c.toNat) (regBytes (s.x a)) = some (laneNums (s'.x d)) := by
  obtain ⟨mask, hr, hm⟩ := run_shuffle fr s m q a d _ hq
  refine ⟨_, hr, ?_⟩
  rw [show (s.setX d (pshufb mask (s.x a))).x d = pshufb mask (s.x a) by simp [St.setX]]
  generalize s.x a = y at *
  have hc := c.isLt
  have hl : ∀ n < 4, 1 ≤ c.toNat / 4 ^ n % 4 + 1 ∧ c.toNat / 4 ^ n % 4 + 1 ≤ 4 := fun n _ => by omega
  have key : ∀ n < 4, lane32 (pshufb mask y) n = BitVec.ofNat 32 (leValue
      ((List.range (c.toNat / 4 ^ n % 4 + 1)).map fun k => y (gOff c.toNat n + k))) := by
    intro n hn
    refine lane_value y _ n _ _ (hl n hn) fun k hk => ?_
    have hb := gOff_bound _ hc n hn
    have hmk : mask (4 * n + k) = _ := (hm (4 * n + k) (by omega)).trans (hT.decShuf _ hc (4 * n + k) (by omega))
    rw [decShuf_table _ hc n hn k hk] at hmk
    unfold pshufb
    rw [hmk]
    split
    · have ht : (BitVec.ofNat 8 (gOff c.toNat n + k)).toNat = gOff c.toNat n + k := by rw [BitVec.toNat_ofNat]; omega
      have hmsb : (BitVec.ofNat 8 (gOff c.toNat n + k)).msb = false := by
        rw [BitVec.msb_eq_false_iff_two_mul_lt, ht]; omega
      rw [hmsb, ht, Nat.mod_eq_of_lt (by omega)]
      rfl
    · rfl
  have hlen : (regBytes y).length = 16 := by simp [regBytes]
  have o0 : gOff c.toNat 0 = 0 := rfl
  have o1 : gOff c.toNat 1 = c.toNat / 4 ^ 0 % 4 + 1 := by simp [gOff, psum]
  have o2 : gOff c.toNat 2 = c.toNat / 4 ^ 0 % 4 + 1 + (c.toNat / 4 ^ 1 % 4 + 1) := by simp [gOff, psum]
  have o3 : gOff c.toNat 3 = c.toNat / 4 ^ 0 % 4 + 1 + (c.toNat / 4 ^ 1 % 4 + 1) + (c.toNat / 4 ^ 2 % 4 + 1) := by
    simp [gOff, psum]
  have k0 := key 0 (by omega); have k1 := key 1 (by omega); have k2 := key 2 (by omega); have k3 := key 3 (by omega)
  have l0 := hl 0 (by omega); have l1 := hl 1 (by omega); have l2 := hl 2 (by omega); have l3 := hl 3 (by omega)
  rw [o0] at k0; rw [o1] at k1; rw [o2] at k2; rw [o3] at k3
  unfold laneNums codeLens
  rw [k0, k1, k2, k3, show List.range 4 = [0, 1, 2, 3] from rfl]
  simp only [List.map_cons, List.map_nil]
  generalize c.toNat / 4 ^ 0 % 4 + 1 = n0 at *
  generalize c.toNat / 4 ^ 1 % 4 + 1 = n1 at *
  generalize c.toNat / 4 ^ 2 % 4 + 1 = n2 at *
  generalize c.toNat / 4 ^ 3 % 4 + 1 = n3 at *
  simp only [readNums, List.length_drop, hlen, List.drop_drop]
  rw [if_neg (by omega), if_neg (by omega), if_neg (by omega), if_neg (by omega)]
  have t0 := take_bytes y 0 n0 (by omega)
  rw [List.drop_zero] at t0
  rw [t0, take_bytes y _ n1 (by omega), take_bytes y _ n2 (by omega), take_bytes y _ n3 (by omega)]
  rfl

/-- C83: the decoder's shuffle undoes the encoder's, whatever follows the packed bytes. -/
theorem C83_unpack_pack (fr : Frame) (s : St) (m : Mem) (hT : TablesLoaded m) (q : GP) (a d : XR) (ns : List U32)
    (rest : List Byte) (hn : ns.length = 4) (hb : regBytes (s.x a) = dataBytes ns ++ rest)
    (hq : s.gp q = .ptr ⟨.decShuf, 16 * (ctrlByte ns).toNat⟩) :
    ∃ s', run (step fr s (.VPSHUFB q a d)) m = (.ok s', m) ∧ laneNums (s'.x d) = ns := by
  obtain ⟨s', hr, h⟩ := C83_unpack fr s m hT q a d _ hq
  refine ⟨s', hr, ?_⟩
  have e : codeLens 4 (ctrlByte ns).toNat = ns.map byteLen := by
    refine List.ext_getElem (by simp [codeLens, hn]) fun k h1 h2 => ?_
    have hk : k < ns.length := by simpa using h2
    have := ctrlByte_code (g := ns) (by omega) k
    rw [getD_eq_getElem' _ hk] at this
    simpa [codeLens, code] using this
  rw [hb, e, readNums_data] at h
  exact (Option.some.inj h).symm

/-! ## Cases -/

/-- A state with two numbers of the comment and six further ones. -/
def exLanes : St := { St.init with
  gp := fun _ => .ptr ⟨.encShuf, 16 * (ctrlByte [1234, 789123, 1073741824, 7]).toNat⟩
  x := fun r => match r with
    | .X0 => of32 fun i => [1234, 789123, 1073741824, 7].getD i 0
    | .X1 => of32 fun i => [0, 4294967295, 65536, 111].getD i 0
    | _ => fun _ => 0 }

example : laneNums (exLanes.x .X0) = [1234, 789123, 1073741824, 7] ∧ laneNums (exLanes.x .X1) = [0, 4294967295, 65536, 111] := by
  decide +kernel

/-- The frame of a call with previous number 1000. -/
example : Frame.get [(48, .d 1000), (52, .d 1000)] 48 = some (.d 1000) ∧
    Frame.get [(48, .d 1000), (52, .d 1000)] 52 = some (.d 1000) := ⟨rfl, rfl⟩

/-- Differences and sums of the eight numbers wrap. -/
example : delta 1000 [1234, 789123, 1073741824, 7, 0, 4294967295, 65536, 111] =
      [234, 787889, 1072952701, 3221225479, 4294967289, 4294967295, 65537, 4294901871] ∧
    undelta 1000 [1234, 789123, 1073741824, 7] = [2234, 791357, 1074533181, 1074533188] := by decide

/-- The hypotheses of `C83_pack` hold: the pointer is the row of the control byte. -/
example : exLanes.gp .DX = .ptr ⟨.encShuf, 16 * (ctrlByte (laneNums (exLanes.x .X0))).toNat⟩ := by
  have : laneNums (exLanes.x .X0) = [1234, 789123, 1073741824, 7] := by decide +kernel
  rw [this]; rfl

/-- The drawing of the comment, `/repo/pkg/encode/encode_amd64.go:185-194`: the mask of 1234 and 789123 begins 00 01 04 05 06. -/
example : (encodeShuffleTable.getD (ctrlByte [1234, 789123, 1073741824, 7]).toNat []).take 5 = [0, 1, 4, 5, 6] ∧
    (dataBytes [1234, 789123, 1073741824, 7]).take 5 = [0b11010010, 0b00000100, 0b10000011, 0b00001010, 0b00001100] := by
  decide +kernel

/-- The hypotheses of `C83_unpack_pack`: ten bytes of data and six bytes that belong to other numbers. -/
example : dataBytes [1234, 789123, 1073741824, 7] ++ [1, 2, 3, 4, 5, 6] =
    regBytes fun i => ([0xd2, 0x04, 0x83, 0x0a, 0x0c, 0, 0, 0, 0x40, 7, 1, 2, 3, 4, 5, 6] : List Byte).getD i 0 := by
  decide +kernel

end SVB.Props
