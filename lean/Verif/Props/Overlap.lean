import Verif.Proofs.Blocks
import Verif.Model.Dispatch

/-!
# C73: overlapping input and output

The block functions when the slice read and the slice written share memory, as with a `[]byte` view of the numbers made with
`unsafe`.  The vector code and the encoders of four numbers read everything before they write anything, so they work on any
overlap; the other scalar functions work on some overlaps only, and where they do not, the result depends on the CPU.
-/

set_option autoImplicit false

namespace SVB.Props
open Spec

variable {num : U32s} {byt : Bytes} {m : Mem}

/-! ## Any overlap -/

/-- C73: `Put8uint32Fast`. -/
theorem C73_put8Fast (hT : TablesLoaded m) (hl : 32 ≤ byt.len) :
    ∃ m', run (put8uint32Fast num byt) m = (.ok (ctrl16 (wordsN m num 8)), m') ∧
      (bytesOf m' byt).take (dataBytes (wordsN m num 8)).length = dataBytes (wordsN m num 8) ∧
      ∀ q, ¬ inPrefix byt 32 q → m' q = m q := by
  obtain ⟨⟨m', hr, hb⟩, -, hf⟩ := (put8Fast_res (inn := num) hT hl).imp1
  rw [hr] at hf
  exact ⟨m', hr, hb, fun q hq => hf q fun hs => hq ⟨hs.1, hs.2.1, by have := hs.2.2; omega⟩⟩

/-- C73: `Put8uint32DeltaFast`. -/
theorem C73_put8DeltaFast (prev : U32) (hT : TablesLoaded m) (hl : 32 ≤ byt.len) :
    ∃ m', run (put8uint32DeltaFast num byt prev) m = (.ok (ctrl16 (delta prev (wordsN m num 8))), m') ∧
      (bytesOf m' byt).take (dataBytes (delta prev (wordsN m num 8))).length = dataBytes (delta prev (wordsN m num 8)) ∧
      ∀ q, ¬ inPrefix byt 32 q → m' q = m q := by
  obtain ⟨⟨m', hr, hb⟩, -, hf⟩ := (put8DeltaFast_res (inn := num) prev hT hl).imp1
  rw [hr] at hf
  exact ⟨m', hr, hb, fun q hq => hf q fun hs => hq ⟨hs.1, hs.2.1, by have := hs.2.2; omega⟩⟩

/-- C73: `Get8uint32Fast`. -/
theorem C73_get8Fast (ctrl : U16) (hT : TablesLoaded m) (hl : 32 ≤ byt.len) :
    ∃ m', run (get8uint32Fast byt num ctrl) m = (.ok (), m') ∧
      some (wordsN m' num 8) = readNums (codeLens 8 ctrl.toNat) (bytesOf m byt) ∧ ∀ q, ¬ inPrefix num 8 q → m' q = m q := by
  have hs := csz_sum_le ctrl.toNat 8
  obtain ⟨⟨m', hr, hw⟩, -, hf⟩ := (get8Fast_res (inn := byt) (out := num) ctrl hT).imp1
  rw [hr] at hf
  refine ⟨m', hr, ?_, hf⟩
  rw [readNums_block, codeLens_sum, if_pos (by omega), hw]

/-- C73: `Get8uint32DeltaFast`. -/
theorem C73_get8DeltaFast (ctrl : U16) (prev : U32) (hT : TablesLoaded m) (hl : 32 ≤ byt.len) :
    ∃ m', run (get8uint32DeltaFast byt num ctrl prev) m = (.ok (), m') ∧
      some (wordsN m' num 8) = (readNums (codeLens 8 ctrl.toNat) (bytesOf m byt)).map (undelta prev) ∧
      ∀ q, ¬ inPrefix num 8 q → m' q = m q := by
  have hs := csz_sum_le ctrl.toNat 8
  obtain ⟨⟨m', hr, hw⟩, -, hf⟩ := (get8DeltaFast_res (inn := byt) (out := num) ctrl prev hT).imp1
  rw [hr] at hf
  refine ⟨m', hr, ?_, hf⟩
  rw [readNums_block, codeLens_sum, if_pos (by omega), hw, Option.map_some, undelta_range]

/-- C73: `Put4uint32Scalar`; no table is read. -/
theorem C73_put4 (hn : 4 ≤ num.len) (hl : (dataBytes (wordsN m num 4)).length ≤ byt.len) :
    ∃ m', run (put4uint32Scalar num byt) m = (.ok (ctrlByte (wordsN m num 4)), m') ∧
      (bytesOf m' byt).take (dataBytes (wordsN m num 4)).length = dataBytes (wordsN m num 4) ∧
      ∀ q, ¬ inPrefix byt (dataBytes (wordsN m num 4)).length q → m' q = m q := by
  have h := put4_res (inn := num) (out := byt) (m := m)
  obtain ⟨m', hr, hb⟩ := h.good ⟨hn, hl⟩
  have hf := h.frame
  rw [hr] at hf
  exact ⟨m', hr, hb, fun q hq => hf q fun hs => hq ⟨hs.1, hs.2.1, by have := hs.2.2; omega⟩⟩

/-- C73: `Put4uint32DeltaScalar`. -/
theorem C73_put4Delta (prev : U32) (hn : 4 ≤ num.len) (hl : (dataBytes (delta prev (wordsN m num 4))).length ≤ byt.len) :
    ∃ m', run (put4uint32DeltaScalar num byt prev) m = (.ok (ctrlByte (delta prev (wordsN m num 4))), m') ∧
      (bytesOf m' byt).take (dataBytes (delta prev (wordsN m num 4))).length = dataBytes (delta prev (wordsN m num 4)) ∧
      ∀ q, ¬ inPrefix byt (dataBytes (delta prev (wordsN m num 4))).length q → m' q = m q := by
  have h := put4Delta_res (inn := num) (out := byt) (m := m) prev
  obtain ⟨m', hr, hb⟩ := h.good ⟨hn, hl⟩
  have hf := h.frame
  rw [hr] at hf
  exact ⟨m', hr, hb, fun q hq => hf q fun hs => hq ⟨hs.1, hs.2.1, by have := hs.2.2; omega⟩⟩

/-- C73: so the vector code encodes eight numbers in their own place and brings them back. -/
theorem C73_inplace_roundtrip (hT : TablesLoaded m) (hh : num.blk.isConst = false) (hb : byt.blk = num.blk) (ho : byt.off = num.off)
    (hl : 32 ≤ byt.len) :
    ∃ m', run (put8uint32Fast num byt >>= fun c => get8uint32Fast byt num c) m = (.ok (), m') ∧
      wordsN m' num 8 = wordsN m num 8 ∧ ∀ q, ¬ inPrefix num 8 q → m' q = m q := by
  obtain ⟨m₁, r1, b1, f1⟩ := C73_put8Fast (num := num) hT hl
  have hT1 : TablesLoaded m₁ := hT.frame fun q hq => f1 q fun h => by
    rw [h.1, hb, hh] at hq; exact absurd hq (by decide)
  obtain ⟨m₂, r2, w2, f2⟩ := C73_get8Fast (num := num) (ctrl16 (wordsN m num 8)) hT1 hl
  refine ⟨m₂, ?_, ?_, fun q hq => (f2 q hq).trans (f1 q fun h => hq ⟨h.1.trans hb, by rw [← ho]; exact h.2.1, ?_⟩)⟩
  · rw [Prog.bind_eq, run_bind, r1]; exact r2
  · have hl8 := wordsN_length m num 8
    obtain ⟨p, e⟩ := block_back hl8 b1
    rw [ctrl16_toNat (by omega), readNums_block, codeLens_sum, if_pos p, e] at w2
    exact Option.some.inj w2
  · have := h.2.2; omega

/-- C73: the same with differences. -/
theorem C73_inplace_roundtrip_delta (prev : U32) (hT : TablesLoaded m) (hh : num.blk.isConst = false) (hb : byt.blk = num.blk)
    (ho : byt.off = num.off) (hl : 32 ≤ byt.len) :
    ∃ m', run (put8uint32DeltaFast num byt prev >>= fun c => get8uint32DeltaFast byt num c prev) m = (.ok (), m') ∧
      wordsN m' num 8 = wordsN m num 8 ∧ ∀ q, ¬ inPrefix num 8 q → m' q = m q := by
  obtain ⟨m₁, r1, b1, f1⟩ := C73_put8DeltaFast (num := num) prev hT hl
  have hT1 : TablesLoaded m₁ := hT.frame fun q hq => f1 q fun h => by
    rw [h.1, hb, hh] at hq; exact absurd hq (by decide)
  obtain ⟨m₂, r2, w2, f2⟩ := C73_get8DeltaFast (num := num) (ctrl16 (delta prev (wordsN m num 8))) prev hT1 hl
  refine ⟨m₂, ?_, ?_, fun q hq => (f2 q hq).trans (f1 q fun h => hq ⟨h.1.trans hb, by rw [← ho]; exact h.2.1, ?_⟩)⟩
  · rw [Prog.bind_eq, run_bind, r1]; exact r2
  · have hl8 : (delta prev (wordsN m num 8)).length = 8 := by rw [delta_length, wordsN_length]
    obtain ⟨p, e⟩ := block_back hl8 b1
    rw [ctrl16_toNat (by omega), readNums_block, codeLens_sum, if_pos p, e, Option.map_some, undelta_delta] at w2
    exact Option.some.inj w2
  · have := h.2.2; omega

/-! ## Some overlaps -/

/-- C73: `Put8uint32Scalar` if the output does not begin after the numbers. -/
theorem C73_put8Scalar (hT : TablesLoaded m) (hh : byt.blk.isConst = false) (ho : byt.blk = num.blk → byt.off ≤ num.off)
    (hn : 8 ≤ num.len) (hl : (dataBytes (wordsN m num 8)).length ≤ byt.len) :
    ∃ m', run (put8uint32Scalar num byt) m = (.ok (ctrl16 (wordsN m num 8)), m') ∧
      (bytesOf m' byt).take (dataBytes (wordsN m num 8)).length = dataBytes (wordsN m num 8) ∧
      ∀ q, ¬ inPrefix byt (dataBytes (wordsN m num 8)).length q → m' q = m q := by
  have h : EncRes (put8uint32Scalar num byt) (ctrl16 (wordsN m num 8))
      (8 ≤ num.len ∧ (dataBytes (wordsN m num 8)).length ≤ byt.len) (wordsN m num 8) byt
      (dataBytes (wordsN m num 8)).length m :=
    encRes_of_wp _ (wordsN_length _ _ _) (fun _ _ => rfl) (codes_ctrl16 (wordsN_length _ _ _))
      (put8_specO (fn (wordsN m num 8)) 0 byt.off num byt m hT hh rfl
        (fun q h1 h2 h3 => by
          have := ho (h3.1.symm.trans h1.1)
          have := h1.2.1
          omega)
        (fun k hk _ => word_wordsN m num 8 k hk))
  obtain ⟨m', hr, hb⟩ := h.good ⟨hn, hl⟩
  have hf := h.frame
  rw [hr] at hf
  exact ⟨m', hr, hb, fun q hq => hf q fun hs => hq ⟨hs.1, hs.2.1, by have := hs.2.2; omega⟩⟩

/-- C73: `Get4uint32Scalar` if the output does not begin before the bytes. -/
theorem C73_get4Scalar (c : Byte) (hT : TablesLoaded m) (ho : byt.blk = num.blk → byt.off ≤ num.off) (hn : 4 ≤ num.len)
    (hl : (codeLens 4 c.toNat).sum ≤ byt.len) :
    ∃ m', run (get4uint32Scalar byt num c) m = (.ok (), m') ∧
      some (wordsN m' num 4) = readNums (codeLens 4 c.toNat) (bytesOf m byt) ∧ ∀ q, ¬ inPrefix num 4 q → m' q = m q := by
  rw [codeLens_sum] at hl
  have h : DecRes (get4uint32Scalar byt num c) () (4 ≤ num.len ∧ psum (csz c.toNat) 4 ≤ byt.len)
      ((List.range 4).map (bd byt c.toNat m)) num 4 m := by
    refine decRes_of_wp (fun _ => True) (fun _ _ => rfl)
      (wp_conseq (get4_specO (csz c.toNat) (bd byt c.toNat m) 0 byt.off byt num c m hT (sizes_csz c) rfl
        (fun _ t _ _ => bd_dec _ _ _ t) ?_) (fun _ h => h) (fun _ h => h) (fun _ _ _ h => h.1) fun _ _ _ h => ⟨trivial, h⟩)
    intro _ _ t ht q h1 h2
    have := ho (h1.1.symm.trans h2.1)
    have := csz_sum_le c.toNat (0 + t + 1)
    have := h1.2.2
    have := h2.2.1
    omega
  obtain ⟨m', hr, hw⟩ := h.good ⟨hn, by omega⟩
  have hf := h.frame
  rw [hr] at hf
  refine ⟨m', hr, ?_, hf⟩
  rw [readNums_block, codeLens_sum, if_pos (by omega), hw]

/-! ## The other overlaps -/

/-- The numbers of the witnesses, in heap block 0, and the bytes of the same memory. -/
def ovNum : U32s := ⟨.heap 0, 0, 8, 8⟩
def ovByt : Bytes := ⟨.heap 0, 0, 32, 32⟩
def ovMem : Mem := memWith [0x01020304, 0x11121314, 0x21222324, 0x31323334, 0x41424344, 0x51525354, 0x61626364, 0x71727374] []

/-- C73: `Put8uint32Scalar` overwrites its second half of numbers if the output begins after the numbers. -/
theorem C73_put8Scalar_wrong : ∃ (num : U32s) (byt : Bytes) (m : Mem), TablesLoaded m ∧ num.blk.isConst = false ∧ byt.blk = num.blk ∧
    num.off < byt.off ∧ 8 ≤ num.len ∧ 32 ≤ byt.len ∧
    (bytesOf (run (put8uint32Scalar num byt) m).2 byt).take (dataBytes (wordsN m num 8)).length ≠ dataBytes (wordsN m num 8) :=
  ⟨ovNum, { ovByt with off := 4 }, ovMem, memWith_tables _ _, rfl, rfl, by decide, by decide, by decide, by decide +kernel⟩

/-- C73: `Put8uint32DeltaScalar` does not work in place: it reads the fourth number again after having overwritten it. -/
theorem C73_put8DeltaScalar_wrong : ∃ (num : U32s) (byt : Bytes) (prev : U32) (m : Mem), TablesLoaded m ∧ num.blk.isConst = false ∧
    byt.blk = num.blk ∧ byt.off = num.off ∧ 8 ≤ num.len ∧ 32 ≤ byt.len ∧
    (bytesOf (run (put8uint32DeltaScalar num byt prev) m).2 byt).take (dataBytes (delta prev (wordsN m num 8))).length ≠
      dataBytes (delta prev (wordsN m num 8)) :=
  ⟨ovNum, ovByt, 5, ovMem, memWith_tables _ _, rfl, rfl, rfl, by decide, by decide, by decide +kernel⟩

/-- C73: nor does `PutUint32DeltaScalar`, for the same reason, from the second number on. -/
theorem C73_putDeltaScalar_wrong : ∃ (num : U32s) (byt : Bytes) (prev : U32) (m : Mem), TablesLoaded m ∧ num.blk.isConst = false ∧
    byt.blk = num.blk ∧ byt.off = num.off ∧ 8 ≤ num.len ∧ 32 ≤ byt.len ∧
    (bytesOf (run (putUint32DeltaScalar num byt 2 prev) m).2 byt).take (dataBytes (delta prev (wordsN m num 2))).length ≠
      dataBytes (delta prev (wordsN m num 2)) :=
  ⟨ovNum, ovByt, 5, ovMem, memWith_tables _ _, rfl, rfl, rfl, by decide, by decide, by decide +kernel⟩

/-- C73: nor do the scalar decoders, except `Get4uint32Scalar`, which stores the last number first. -/
theorem C73_getScalar_wrong : ∃ (num : U32s) (byt : Bytes) (m : Mem), TablesLoaded m ∧ num.blk.isConst = false ∧
    byt.blk = num.blk ∧ byt.off = num.off ∧ 8 ≤ num.len ∧ 32 ≤ byt.len ∧
    some (wordsN (run (get8uint32Scalar byt num 0) m).2 num 8) ≠ readNums (codeLens 8 0) (bytesOf m byt) ∧
    some (wordsN (run (getUint32Scalar byt num 0 4) m).2 num 4) ≠ readNums (codeLens 4 0) (bytesOf m byt) ∧
    some (wordsN (run (get8uint32DeltaScalar byt num 0 5) m).2 num 8) ≠ (readNums (codeLens 8 0) (bytesOf m byt)).map (undelta 5) ∧
    some (wordsN (run (get4uint32DeltaScalar byt num 0 5) m).2 num 4) ≠ (readNums (codeLens 4 0) (bytesOf m byt)).map (undelta 5) ∧
    some (wordsN (run (getUint32DeltaScalar byt num 0 4 5) m).2 num 4) ≠ (readNums (codeLens 4 0) (bytesOf m byt)).map (undelta 5) :=
  ⟨ovNum, ovByt, ovMem, memWith_tables _ _, rfl, rfl, rfl, by decide, by decide,
   by decide +kernel, by decide +kernel, by decide +kernel, by decide +kernel, by decide +kernel⟩

/-- C73: so on such arguments the numbers decoded by `Get8uint32` and `Get8uint32Delta`, and the bytes stored by `Put8uint32` and
`Put8uint32Delta`, depend on the CPU. -/
theorem C73_depends_on_cpu : ∃ (c c' : Cpu) (num : U32s) (byt : Bytes) (m : Mem), TablesLoaded m ∧ num.blk.isConst = false ∧
    byt.blk = num.blk ∧ byt.off = num.off ∧ 8 ≤ num.len ∧ 32 ≤ byt.len ∧
    wordsN (run (get8uint32 c byt num 0) m).2 num 8 ≠ wordsN (run (get8uint32 c' byt num 0) m).2 num 8 ∧
    wordsN (run (get8uint32Delta c byt num 0 5) m).2 num 8 ≠ wordsN (run (get8uint32Delta c' byt num 0 5) m).2 num 8 ∧
    bytesOf (run (put8uint32Delta c num byt 5) m).2 byt ≠ bytesOf (run (put8uint32Delta c' num byt 5) m).2 byt ∧
    bytesOf (run (put8uint32 c num { byt with off := byt.off + 4 }) m).2 byt ≠
      bytesOf (run (put8uint32 c' num { byt with off := byt.off + 4 }) m).2 byt :=
  ⟨⟨true, true, true⟩, ⟨true, false, false⟩, ovNum, ovByt, ovMem, memWith_tables _ _, rfl, rfl, rfl, by decide, by decide,
   by decide +kernel, by decide +kernel, by decide +kernel, by decide +kernel⟩

/-! ## The positive theorems at work -/

/-- Numbers with codes 0 to 3; in place, the data bytes take 26 of the 32 bytes. -/
def ovMem' : Mem := memWith [1, 300, 0x12345, 0xFFFFFFFF, 7, 0x12345678, 0xABCDEF, 0x11223344] []

example := C73_put8Fast (num := ovNum) (byt := ovByt) (m := ovMem') (memWith_tables _ _) (by decide)
example := C73_put8DeltaFast (num := ovNum) (byt := { ovByt with off := 3 }) (m := ovMem') 1000 (memWith_tables _ _) (by decide)
example := C73_get8Fast (num := ovNum) (byt := { ovByt with off := 7 }) (m := ovMem') 0xE4E4 (memWith_tables _ _) (by decide)
example := C73_get8DeltaFast (num := ovNum) (byt := ovByt) (m := ovMem') 0xE4E4 9 (memWith_tables _ _) (by decide)
example := C73_put4 (num := ovNum) (byt := { ovByt with off := 5 }) (m := ovMem') (by decide) (by decide +kernel)
example := C73_put4Delta (num := ovNum) (byt := ovByt) (m := ovMem') 1000 (by decide) (by decide +kernel)
example := C73_put8Scalar (num := ovNum) (byt := ovByt) (m := ovMem') (memWith_tables _ _) rfl (fun _ => by decide) (by decide)
  (by decide +kernel)
example := C73_get4Scalar (num := ovNum) (byt := ovByt) (m := ovMem') 0xE4 (memWith_tables _ _) (fun _ => by decide) (by decide)
  (by decide +kernel)
example := C73_inplace_roundtrip (num := ovNum) (byt := ovByt) (m := ovMem') (memWith_tables _ _) rfl rfl rfl (by decide)
example := C73_inplace_roundtrip_delta (num := ovNum) (byt := ovByt) (m := ovMem') 1000 (memWith_tables _ _) rfl rfl rfl (by decide)
example : bytesOf (run (put8uint32Fast ovNum ovByt) ovMem').2 ovByt ≠ bytesOf ovMem' ovByt ∧
    wordsN (run (get4uint32Scalar ovByt ovNum 0xE4) ovMem').2 ovNum 4 = [1, 0, 0x12c00, 0x23450000] := by decide +kernel

end SVB.Props
