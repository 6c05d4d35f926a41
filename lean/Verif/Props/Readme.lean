import Verif.Proofs.AsmEnc
import Verif.Setting

/-!
# C61: the README's account of the control bytes

`/repo/README.md:307-445` explains how the encoder finds the lengths of eight numbers: it follows the steps for one number.  Here
the steps are written down for one number, with plain arithmetic, and compared with the registers of the assembly.
-/

set_option autoImplicit false

namespace SVB.Props
open SVB.Spec SVB.Asm

/-! ## The steps for one number, `/repo/README.md:307-445` -/

/-- Byte `j` of a number. -/
def byteNo (x j : Nat) : Nat := x / 256 ^ j % 256

/-- `byte-min(x, 0x0101 mask)`, README:323-328: the minimum of every byte and 1. -/
def byteMin (x : Nat) : Nat :=
  min (byteNo x 0) 1 + 256 * min (byteNo x 1) 1 + 65536 * min (byteNo x 2) 1 + 16777216 * min (byteNo x 3) 1

/-- `pack unsigned saturating 16-bit to 8-bit`, README:334-342: each half becomes a byte. -/
def packHalves (y : Nat) : Nat := min (y % 65536) 255 + 256 * min (y / 65536) 255

/-- `signed 16-bit min` with 0x0101, README:356-364: numbers from 0x8000 on are negative. -/
def signedMin (v : Nat) : Nat := if 32768 ≤ v then v else min v 0x0101

/-- `add unsigned saturating 16-bit` of 0x7F00, README:392-403. -/
def addSat (v : Nat) : Nat := min (v + 0x7F00) 0xFFFF

/-- `move byte mask`, README:437-443: the top bits of the two bytes. -/
def topBits (v : Nat) : Nat := v / 128 % 2 + 2 * (v / 32768)

/-- The control bits stream of a number, after the pack. -/
def stream1 (x : U32) : Nat := packHalves (byteMin x.toNat)

/-! ## What the README says about the steps -/

private theorem byteLen_bytes_ne (x : U32) : byteLen x = if byteNo x.toNat 3 ≠ 0 then 4 else if byteNo x.toNat 2 ≠ 0 then 3 else
    if byteNo x.toNat 1 ≠ 0 then 2 else 1 := by
  have hlt := x.isLt
  simp only [byteLen, byteNo, Nat.reducePow, Nat.pow_one]
  by_cases h3 : x.toNat / 16777216 % 256 = 0
  · rw [if_neg (not_not_intro h3)]
    by_cases h2 : x.toNat / 65536 % 256 = 0
    · rw [if_neg (not_not_intro h2)]
      by_cases h1 : x.toNat / 256 % 256 = 0
      · rw [if_neg (not_not_intro h1), if_pos (by omega)]
      · rw [if_pos h1, if_neg (by omega), if_pos (by omega)]
    · rw [if_pos h2, if_neg (by omega), if_neg (by omega), if_pos (by omega)]
  · rw [if_pos h3, if_neg (by omega), if_neg (by omega), if_neg (by omega)]

/-- Which bytes of a number are not 0 settles everything. -/
private theorem flags (x : U32) : ∃ t0 t1 t2 t3 : Bool,
    stream1 x = packHalves (t0.toNat + 256 * t1.toNat + 65536 * t2.toNat + 16777216 * t3.toNat) ∧
    byteLen x = (if t3 then 4 else if t2 then 3 else if t1 then 2 else 1) ∧
    (byteNo x.toNat 1 ≠ 0 ↔ t1 = true) := by
  have hlt := x.isLt
  have h : ∀ n : Nat, min n 1 = (decide (n ≠ 0)).toNat := by
    intro n
    by_cases h : n = 0
    · subst h; rfl
    · rw [decide_eq_true h]; show _ = 1; omega
  refine ⟨decide (byteNo x.toNat 0 ≠ 0), decide (byteNo x.toNat 1 ≠ 0), decide (byteNo x.toNat 2 ≠ 0),
    decide (byteNo x.toNat 3 ≠ 0), by rw [stream1, byteMin, h, h, h, h], ?_, by rw [decide_eq_true_eq]⟩
  simp only [decide_eq_true_eq]
  exact byteLen_bytes_ne x

/-- C61: "the result will have a 1 at every byte that had a value in the original integer" (README:330-332). -/
theorem C61_min (x : U32) (j : Nat) (hj : j < 4) :
    byteNo (byteMin x.toNat) j = if byteNo x.toNat j = 0 then 0 else 1 := by
  have e : ∀ n : Nat, (if n = 0 then 0 else 1) = min n 1 := by intro n; split <;> omega
  rw [e]
  generalize hx : x.toNat = y
  unfold byteMin
  have k : ∀ j, min (byteNo y j) 1 ≤ 1 := fun j => by omega
  have k0 := k 0; have k1 := k 1; have k2 := k 2; have k3 := k 3
  obtain rfl | rfl | rfl | rfl : j = 0 ∨ j = 1 ∨ j = 2 ∨ j = 3 := by omega
  all_goals
    generalize min (byteNo y 0) 1 = t0 at *
    generalize min (byteNo y 1) 1 = t1 at *
    generalize min (byteNo y 2) 1 = t2 at *
    generalize min (byteNo y 3) 1 = t3 at *
    simp only [byteNo, Nat.reducePow, Nat.pow_zero, Nat.pow_one, Nat.div_one]
    omega

/-- C61: the two top bits at the end are the length minus one, for every number (README:318-321). -/
theorem C61_length (x : U32) : topBits (addSat (signedMin (stream1 x))) + 1 = byteLen x := by
  obtain ⟨t0, t1, t2, t3, h, hl, -⟩ := flags x
  rw [h, hl]
  clear h hl
  revert t0 t1 t2 t3; decide

/-- C61: "for 3-byte integers, it has the effect of turning off the MSB of the lowest byte" (README:380-384). -/
theorem C61_three (x : U32) (hx : byteLen x = 3) :
    signedMin (stream1 x) / 128 % 2 = 0 ∧ signedMin (stream1 x) / 256 = 1 := by
  obtain ⟨t0, t1, t2, t3, h, hl, -⟩ := flags x
  rw [hl] at hx
  rw [h]
  clear h hl
  revert t0 t1 t2 t3; decide

/-- C61: "for 1 and 2 byte integers, it has no effect"; a 2-byte number keeps its top bit, a 1-byte number has none
(README:389-390). -/
theorem C61_one_two (x : U32) (hx : byteLen x ≤ 2) :
    signedMin (stream1 x) = stream1 x ∧ stream1 x / 128 = if byteLen x = 2 then 1 else 0 := by
  obtain ⟨t0, t1, t2, t3, h, hl, -⟩ := flags x
  rw [hl] at hx
  rw [h, hl]
  clear h hl
  revert t0 t1 t2 t3; decide

/-- C61: a 4-byte number is not changed by the signed minimum, its upper top bit is on, and the saturating addition turns on all
bits (README:386-387, 432-435). -/
theorem C61_four (x : U32) (hx : byteLen x = 4) :
    signedMin (stream1 x) = stream1 x ∧ stream1 x / 32768 = 1 ∧ addSat (stream1 x) = 0xFFFF := by
  obtain ⟨t0, t1, t2, t3, h, hl, -⟩ := flags x
  rw [hl] at hx
  rw [h]
  clear h hl
  revert t0 t1 t2 t3; decide

/-- C61: the signed minimum does not leave both top bits of every 4-byte number on, as README:386 has it: the lower one is on
exactly if byte 1 of the number is not 0 (the saturating addition turns it on). -/
theorem C61_four_lower (x : U32) (hx : byteLen x = 4) :
    signedMin (stream1 x) / 128 % 2 = 1 ↔ byteNo x.toNat 1 ≠ 0 := by
  obtain ⟨t0, t1, t2, t3, h, hl, h1⟩ := flags x
  rw [hl] at hx
  rw [h1, h]
  clear h hl h1
  revert t0 t1 t2 t3; decide

/-- C61: "the unsigned saturation behavior is really important" (README:414): with an addition that wraps around the result
would be wrong for every 4-byte number (not only for those with nothing but the top byte), and for no other number. -/
theorem C61_saturation (x : U32) :
    topBits ((signedMin (stream1 x) + 0x7F00) % 65536) + 1 = byteLen x ↔ byteLen x ≠ 4 := by
  obtain ⟨t0, t1, t2, t3, h, hl, -⟩ := flags x
  rw [h, hl]
  clear h hl
  revert t0 t1 t2 t3; decide

-- the numbers of the README: 1234, 789123 and 1073741824 (README:323-441)
example : byteMin 1234 = 0x0101 ∧ stream1 1234 = 0x00ff ∧ signedMin 0x00ff = 0x00ff ∧ addSat 0x00ff = 0x7fff ∧
    topBits 0x7fff = 0b01 := by decide
example : byteMin 789123 = 0x00010101 ∧ stream1 789123 = 0x01ff ∧ signedMin 0x01ff = 0x0101 ∧ addSat 0x0101 = 0x8001 ∧
    topBits 0x8001 = 0b10 := by decide
example : byteMin 1073741824 = 0x01000000 ∧ stream1 1073741824 = 0xff00 ∧ signedMin 0xff00 = 0xff00 ∧
    addSat 0xff00 = 0xffff ∧ topBits 0xffff = 0b11 := by decide
example : byteLen 1234 = 2 ∧ byteLen 789123 = 3 ∧ byteLen 1073741824 = 4 ∧ byteLen 111 = 1 := by decide

/-! ## The registers -/

/-- The eight numbers in registers X0 and X1. -/
def number (s : St) (n : Nat) : U32 := if n < 4 then lane32 (s.x .X0) n else lane32 (s.x .X1) (n - 4)

private theorem one (i : Nat) : of16 (fun _ => 0x0101#16) i = 1 := by
  unfold of16; simp only; split <;> decide

private theorem minU8_toNat (b : Byte) : (minU8 b 1).toNat = min b.toNat 1 := by
  rw [minU8_one]
  split
  · next h => rw [h]; rfl
  · next h =>
    have : b.toNat ≠ 0 := fun h' => h (BitVec.eq_of_toNat_eq h')
    have : (1 : Byte).toNat = 1 := rfl
    omega

private theorem byteMin_lane (v : Vec) (n : Nat) :
    (lane32 (fun i => minU8 (v i) 1) n).toNat = byteMin (lane32 v n).toNat := by
  rw [lane32_toNat, lane32_toNat]
  simp only [minU8_toNat, byteMin, byteNo, Nat.reducePow, Nat.pow_zero, Nat.pow_one, Nat.div_one]
  have := (v (4 * n)).isLt; have := (v (4 * n + 1)).isLt; have := (v (4 * n + 2)).isLt; have := (v (4 * n + 3)).isLt
  omega

private theorem satU8_toNat (w : U16) (h : w.toNat < 32768) : (satU8 w).toNat = min w.toNat 255 := by
  have hi : w.toInt = w.toNat := by rw [BitVec.toInt_eq_toNat_cond]; split <;> omega
  unfold satU8
  rw [hi, if_neg (by omega)]
  split
  · have : (255 : Byte).toNat = 255 := rfl
    omega
  · rw [BitVec.toNat_setWidth]; omega

private theorem pack_lane (v : Vec) (hv : ∀ i, (v i).toNat ≤ 1) (n : Nat) :
    (satU8 (lane16 v (2 * n + 1)) ++ satU8 (lane16 v (2 * n))).toNat = packHalves (lane32 v n).toNat := by
  have h0 := hv (4 * n); have h1 := hv (4 * n + 1); have h2 := hv (4 * n + 2); have h3 := hv (4 * n + 3)
  have e1 : (lane16 v (2 * n + 1)).toNat = (v (4 * n + 3)).toNat * 256 + (v (4 * n + 2)).toNat := by
    unfold lane16
    rw [append_toNat, show 2 * (2 * n + 1) + 1 = 4 * n + 3 by omega, show 2 * (2 * n + 1) = 4 * n + 2 by omega]
    omega
  have e0 : (lane16 v (2 * n)).toNat = (v (4 * n + 1)).toNat * 256 + (v (4 * n)).toNat := by
    unfold lane16
    rw [append_toNat, show 2 * (2 * n) + 1 = 4 * n + 1 by omega, show 2 * (2 * n) = 4 * n by omega]
    omega
  rw [append_toNat, satU8_toNat _ (by omega), satU8_toNat _ (by omega), e0, e1, lane32_toNat, packHalves]
  omega

private theorem minS16_toNat (w : U16) : (minS16 w 0x0101#16).toNat = signedMin w.toNat := by
  have := w.isLt
  unfold minS16 signedMin
  rw [BitVec.toInt_eq_toNat_cond, show (0x0101#16).toInt = 257 by decide]
  have : (0x0101#16).toNat = 257 := rfl
  split <;> split <;> split <;> omega

private theorem addUS16_toNat (w : U16) : (addUS16 w 0x7f00#16).toNat = addSat w.toNat := by
  have := w.isLt
  unfold addUS16 addSat
  have h : (0x7f00#16).toNat = 0x7f00 := rfl
  rw [h]
  split
  · have : (65535 : U16).toNat = 65535 := rfl
    omega
  · rw [BitVec.toNat_add, h]; omega

/-- C61: these instructions stand once in each of the two functions, after the numbers (or their differences) have been loaded. -/
theorem C61_where :
    (∃ after, put8uint32FastText = put8uint32FastText.take 3 ++ ctrlInstrs ++ after) ∧
    (∃ after, put8uint32DeltaFastText = put8uint32DeltaFastText.take 8 ++ ctrlInstrs ++ after) :=
  ⟨⟨_, rfl⟩, ⟨_, rfl⟩⟩

/-- C61: after each of the instructions `/repo/pkg/encode/encode_amd64.s:19-24` the registers hold for each of the eight numbers
what the README says; at the end AX holds the top bits, and code `n` of it is the length of number `n` minus one. -/
theorem C61_registers (fr : Frame) (s : St) (m : Mem) (hT : TablesLoaded m) (n : Nat) (hn : n < 8) :
    (∃ s', run (exec fr (ctrlInstrs.take 4) s) m = (.ok s', m) ∧
      (if n < 4 then lane32 (s'.x .X4) n else lane32 (s'.x .X5) (n - 4)).toNat = byteMin (number s n).toNat) ∧
    (∃ s', run (exec fr (ctrlInstrs.take 5) s) m = (.ok s', m) ∧ (lane16 (s'.x .X4) n).toNat = stream1 (number s n)) ∧
    (∃ s', run (exec fr (ctrlInstrs.take 6) s) m = (.ok s', m) ∧
      (lane16 (s'.x .X4) n).toNat = signedMin (stream1 (number s n))) ∧
    (∃ s', run (exec fr (ctrlInstrs.take 7) s) m = (.ok s', m) ∧
      (lane16 (s'.x .X4) n).toNat = addSat (signedMin (stream1 (number s n)))) ∧
    (∃ s' ax, run (exec fr ctrlInstrs s) m = (.ok s', m) ∧ s'.gp .AX = .int ax ∧ number s' n = number s n ∧
      code16 (ax.setWidth 16) n = topBits (addSat (signedMin (stream1 (number s n)))) ∧
      code16 (ax.setWidth 16) n + 1 = byteLen (number s n)) := by
  have l0 : m ⟨.mask0101, 0⟩ = 1 := hT.mask0101.1
  have l1 : m ⟨.mask0101, 1⟩ = 1 := hT.mask0101.2
  have l2 : m ⟨.mask7F00, 0⟩ = 0 := hT.mask7F00.1
  have l3 : m ⟨.mask7F00, 1⟩ = 0x7f := hT.mask7F00.2
  have w1 : (1 : Byte) ++ (1 : Byte) = 0x0101#16 := by decide
  have w2 : (0x7f : Byte) ++ (0 : Byte) = 0x7f00#16 := by decide
  have le1 : ∀ b : Byte, (minU8 b 1).toNat ≤ 1 := fun b => by rw [minU8_toNat]; omega
  have pk : ∀ x0 x1 : Vec, (lane16 (fun i => if i < 8 then satU8 (lane16 (fun i => minU8 (x0 i) 1) i)
      else satU8 (lane16 (fun i => minU8 (x1 i) 1) (i - 8))) n).toNat =
      packHalves (byteMin (if n < 4 then lane32 x0 n else lane32 x1 (n - 4)).toNat) := by
    intro x0 x1
    by_cases h4 : n < 4
    · rw [lane16, if_pos (by omega), if_pos (by omega), pack_lane _ (fun i => le1 _), byteMin_lane, if_pos h4]
    · rw [lane16, if_neg (by omega), if_neg (by omega), show 2 * n + 1 - 8 = 2 * (n - 4) + 1 by omega,
        show 2 * n - 8 = 2 * (n - 4) by omega, pack_lane _ (fun i => le1 _), byteMin_lane, if_neg h4]
  refine ⟨⟨_, rfl, ?_⟩, ⟨_, rfl, ?_⟩, ⟨_, rfl, ?_⟩, ⟨_, rfl, ?_⟩, ⟨_, _, rfl, rfl, rfl, ?_, ?_⟩⟩
  · show (if n < 4 then lane32 (fun i => minU8 (s.x .X0 i) (of16 (fun _ => m ⟨.mask0101, 1⟩ ++ m ⟨.mask0101, 0⟩) i)) n
      else lane32 (fun i => minU8 (s.x .X1 i) (of16 (fun _ => m ⟨.mask0101, 1⟩ ++ m ⟨.mask0101, 0⟩) i)) (n - 4)).toNat = _
    simp only [l0, l1, w1, one]
    unfold number
    split
    · exact byteMin_lane _ _
    · exact byteMin_lane _ _
  · show (lane16 (fun i => if i < 8 then
        satU8 (lane16 (fun i => minU8 (s.x .X0 i) (of16 (fun _ => m ⟨.mask0101, 1⟩ ++ m ⟨.mask0101, 0⟩) i)) i)
      else satU8 (lane16 (fun i => minU8 (s.x .X1 i) (of16 (fun _ => m ⟨.mask0101, 1⟩ ++ m ⟨.mask0101, 0⟩) i)) (i - 8))) n).toNat = _
    simp only [l0, l1, w1, one]
    exact pk _ _
  · show (lane16 (of16 fun i => minS16 (lane16 (fun i => if i < 8 then
        satU8 (lane16 (fun i => minU8 (s.x .X0 i) (of16 (fun _ => m ⟨.mask0101, 1⟩ ++ m ⟨.mask0101, 0⟩) i)) i)
      else satU8 (lane16 (fun i => minU8 (s.x .X1 i) (of16 (fun _ => m ⟨.mask0101, 1⟩ ++ m ⟨.mask0101, 0⟩) i)) (i - 8))) i)
      (lane16 (of16 fun _ => m ⟨.mask0101, 1⟩ ++ m ⟨.mask0101, 0⟩) i)) n).toNat = _
    simp only [l0, l1, one, lane16_of16, w1, minS16_toNat]
    rw [pk]; rfl
  · show (lane16 (of16 fun i => addUS16 (lane16 (of16 fun i => minS16 (lane16 (fun i => if i < 8 then
        satU8 (lane16 (fun i => minU8 (s.x .X0 i) (of16 (fun _ => m ⟨.mask0101, 1⟩ ++ m ⟨.mask0101, 0⟩) i)) i)
      else satU8 (lane16 (fun i => minU8 (s.x .X1 i) (of16 (fun _ => m ⟨.mask0101, 1⟩ ++ m ⟨.mask0101, 0⟩) i)) (i - 8))) i)
      (lane16 (of16 fun _ => m ⟨.mask0101, 1⟩ ++ m ⟨.mask0101, 0⟩) i)) i)
      (lane16 (of16 fun _ => m ⟨.mask7F00, 1⟩ ++ m ⟨.mask7F00, 0⟩) i)) n).toNat = _
    simp only [l0, l1, l2, l3, one, lane16_of16, w1, w2, minS16_toNat, addUS16_toNat]
    rw [pk]; rfl
  · have h := ctrlExpr_code (s.x .X0) (s.x .X1) n hn
    have e := C61_length (number s n)
    show code16 (BitVec.setWidth 16 (BitVec.ofNat 64 (ctrlExpr (s.x .X0) (s.x .X1) (m ⟨.mask0101, 0⟩) (m ⟨.mask0101, 1⟩)
      (m ⟨.mask7F00, 0⟩) (m ⟨.mask7F00, 1⟩)))) n = _
    rw [l0, l1, l2, l3]
    have : byteLen (number s n) = byteLen (if n < 4 then lane32 (s.x .X0) n else lane32 (s.x .X1) (n - 4)) := rfl
    omega
  · have h := ctrlExpr_code (s.x .X0) (s.x .X1) n hn
    show code16 (BitVec.setWidth 16 (BitVec.ofNat 64 (ctrlExpr (s.x .X0) (s.x .X1) (m ⟨.mask0101, 0⟩) (m ⟨.mask0101, 1⟩)
      (m ⟨.mask7F00, 0⟩) (m ⟨.mask7F00, 1⟩)))) n + 1 = _
    rw [l0, l1, l2, l3]
    exact h

-- a state with eight numbers in the registers, lengths 1, 2, 3, 4, 4, 3, 2, 1
example : (List.range 8).map (fun n => byteLen (number { St.init with x := fun r => match r with
    | .X0 => of32 fun i => [111, 1234, 789123, 1073741824].getD i 0
    | .X1 => of32 fun i => [1073741824, 789123, 1234, 111].getD i 0
    | _ => fun _ => 0 } n)) = [1, 2, 3, 4, 4, 3, 2, 1] := by decide +kernel

end SVB.Props
