import Verif.Proofs.Blocks

/-!
# Properties of the block encoders and decoders: C17–C21, C37, C26 (blocks)

`wordsN m inn 8` are the first eight numbers of `inn`, `ctrl16`/`ctrlByte` the control value of the
format, `dataBytes` the data bytes of the format, `codeLens n c` the lengths announced by a control value
and `readNums` cuts numbers of given lengths off a byte string (all `Verif/Spec.lean`).
-/

set_option autoImplicit false

namespace SVB.Props
open Spec

/-! ## A concrete call -/

def exBlockMem : Mem := memWith [0, 255, 256, 65535, 65536, 16777215, 16777216, 4294967295, 1, 2]
  ((List.range 40).map fun i => BitVec.ofNat 8 (7 * i + 3))
def exBlockIn : U32s := ⟨.heap 0, 0, 10, 10⟩
def exBlockBuf : Bytes := ⟨.heap 1, 0, 40, 40⟩
def exBlockOut : U32s := ⟨.heap 2, 4, 9, 9⟩

theorem exPut : BlockPre exBlockIn exBlockBuf exBlockMem :=
  ⟨memWith_tables _ _, rfl, .inl (by decide)⟩
theorem exGet : BlockPre exBlockBuf exBlockOut exBlockMem :=
  ⟨memWith_tables _ _, rfl, .inl (by decide)⟩

/-! ## C37: sizes announced by a control value -/

/-- C37: `ControlByteToSize(c)` is the sum of the four announced lengths. -/
theorem C37_size (c : Byte) {m : Mem} (hT : TablesLoaded m) :
    run (controlByteToSize c) m = (.ok ((codeLens 4 c.toNat).sum : Int), m) ∧
      4 ≤ (codeLens 4 c.toNat).sum ∧ (codeLens 4 c.toNat).sum ≤ 16 := by
  refine ⟨controlByteToSize_run c hT, ?_⟩
  have := psum_bounds (csz_bounds c.toNat) (Nat.zero_le 4)
  rw [codeLens_sum]
  simp only [psum_zero] at this; omega

/-- C37: `ControlByteToSizeTwo(c)` is the sum of the eight announced lengths: the table indices are in
range and the `uint8` addition does not wrap. -/
theorem C37_sizeTwo (c : U16) {m : Mem} (hT : TablesLoaded m) :
    run (controlByteToSizeTwo c) m = (.ok ((codeLens 8 c.toNat).sum : Int), m) ∧
      8 ≤ (codeLens 8 c.toNat).sum ∧ (codeLens 8 c.toNat).sum ≤ 32 := by
  refine ⟨controlByteToSizeTwo_run c hT, ?_⟩
  have := psum_bounds (csz_bounds c.toNat) (Nat.zero_le 8)
  rw [codeLens_sum]
  simp only [psum_zero] at this; omega

example := C37_size 0xe4#8 initMem_tables
example := C37_sizeTwo 0xffff#16 initMem_tables

/-! ## C17: encoding eight numbers -/

/-- C17: every variant of `Put8uint32` returns the control of the eight numbers and leaves their data bytes
at the start of `out`; `ControlByteToSizeTwo` of the control is how many there are; only `out[0:32]` is
written. -/
theorem C17_put8 (f : Fn) {inn : U32s} {out : Bytes} {m : Mem} (h : BlockPre inn out m)
    (hi : 8 ≤ inn.len) (ho : 32 ≤ out.len) :
    ∃ m', run (f.put8 inn out) m = (.ok (ctrl16 (wordsN m inn 8)), m') ∧
      (bytesOf m' out).take (dataBytes (wordsN m inn 8)).length = dataBytes (wordsN m inn 8) ∧
      run (controlByteToSizeTwo (ctrl16 (wordsN m inn 8))) m' =
        (.ok ((dataBytes (wordsN m inn 8)).length : Int), m') ∧
      ∀ q, ¬ inPrefix out 32 q → m' q = m q := by
  have hl := wordsN_length m inn 8
  obtain ⟨⟨m', hr, hb⟩, -, hf⟩ := put8_res f h hi ho |>.imp1
  rw [hr] at hf
  refine ⟨m', hr, hb, ?_, fun q hq => hf q fun hs => hq ⟨hs.1, hs.2.1, by have := hs.2.2; omega⟩⟩
  rw [controlByteToSizeTwo_run _ (tables_after h.tables h.heap hf), ctrl16_toNat (by omega)]
  have := codeLens_partial (wordsN m inn 8) 0
  rw [hl] at this
  rw [this]; rfl

theorem C17_put8Delta (f : Fn) {inn : U32s} {out : Bytes} {m : Mem} (prev : U32) (h : BlockPre inn out m)
    (hi : 8 ≤ inn.len) (ho : 32 ≤ out.len) :
    ∃ m', run (f.put8Delta inn out prev) m = (.ok (ctrl16 (delta prev (wordsN m inn 8))), m') ∧
      (bytesOf m' out).take (dataBytes (delta prev (wordsN m inn 8))).length =
        dataBytes (delta prev (wordsN m inn 8)) ∧
      run (controlByteToSizeTwo (ctrl16 (delta prev (wordsN m inn 8)))) m' =
        (.ok ((dataBytes (delta prev (wordsN m inn 8))).length : Int), m') ∧
      ∀ q, ¬ inPrefix out 32 q → m' q = m q := by
  have hl : (delta prev (wordsN m inn 8)).length = 8 := by rw [delta_length, wordsN_length]
  obtain ⟨⟨m', hr, hb⟩, -, hf⟩ := put8Delta_res f prev h hi ho |>.imp1
  rw [hr] at hf
  refine ⟨m', hr, hb, ?_, fun q hq => hf q fun hs => hq ⟨hs.1, hs.2.1, by have := hs.2.2; omega⟩⟩
  rw [controlByteToSizeTwo_run _ (tables_after h.tables h.heap hf), ctrl16_toNat (by omega)]
  have := codeLens_partial (delta prev (wordsN m inn 8)) 0
  rw [hl] at this
  rw [this]; rfl

theorem bytes_agree {m₁ m₂ : Mem} {out : Bytes} {d : List Byte} (h1 : (bytesOf m₁ out).take d.length = d)
    (h2 : (bytesOf m₂ out).take d.length = d) (i : Nat) (hi : i < d.length) :
    m₁ ⟨out.blk, out.off + i⟩ = m₂ ⟨out.blk, out.off + i⟩ := by
  have hl : d.length ≤ out.len := by
    have := congrArg List.length h1
    rw [List.length_take, bytesOf_length] at this; omega
  rw [← bytesOf_getD m₁ out i (by omega), ← bytesOf_getD m₂ out i (by omega)]
  have := h1.trans h2.symm
  have := congrArg (fun l => l.getD i 0) this
  simpa [List.getD, List.getElem?_take, hi] using this

/-- C17, without reference to the format: the fast encoder and the scalar encoder return the same control,
`ControlByteToSizeTwo` of it is a number `L`, and the first `L` bytes of `out` are the same. -/
theorem C17_put8_agree {inn : U32s} {out : Bytes} {m : Mem} (h : BlockPre inn out m)
    (hi : 8 ≤ inn.len) (ho : 32 ≤ out.len) :
    ∃ c m₁ m₂, ∃ L : Nat, run (put8uint32Scalar inn out) m = (.ok c, m₁) ∧
      run (put8uint32Fast inn out) m = (.ok c, m₂) ∧
      run (controlByteToSizeTwo c) m₁ = (.ok (L : Int), m₁) ∧
      (∀ i < L, m₁ ⟨out.blk, out.off + i⟩ = m₂ ⟨out.blk, out.off + i⟩) ∧
      (∀ q, ¬ inPrefix out L q → m₁ q = m q) ∧ ∀ q, ¬ inPrefix out 32 q → m₂ q = m q := by
  obtain ⟨m₁, r1, b1, s1, -⟩ := C17_put8 .scalar h hi ho
  obtain ⟨m₂, r2, b2, -, f2⟩ := C17_put8 .fast h hi ho
  refine ⟨_, m₁, m₂, _, r1, r2, s1, bytes_agree b1 b2, ?_, f2⟩
  have := (put8Scalar_res h).frame
  simp only [Fn.put8] at r1
  rw [r1] at this
  exact fun q hq => this q fun hs => hq ⟨hs.1, hs.2.1, by have := hs.2.2; omega⟩

theorem C17_put8Delta_agree {inn : U32s} {out : Bytes} {m : Mem} (prev : U32) (h : BlockPre inn out m)
    (hi : 8 ≤ inn.len) (ho : 32 ≤ out.len) :
    ∃ c m₁ m₂, ∃ L : Nat, run (put8uint32DeltaScalar inn out prev) m = (.ok c, m₁) ∧
      run (put8uint32DeltaFast inn out prev) m = (.ok c, m₂) ∧
      run (controlByteToSizeTwo c) m₁ = (.ok (L : Int), m₁) ∧
      (∀ i < L, m₁ ⟨out.blk, out.off + i⟩ = m₂ ⟨out.blk, out.off + i⟩) ∧
      (∀ q, ¬ inPrefix out L q → m₁ q = m q) ∧ ∀ q, ¬ inPrefix out 32 q → m₂ q = m q := by
  obtain ⟨m₁, r1, b1, s1, -⟩ := C17_put8Delta .scalar prev h hi ho
  obtain ⟨m₂, r2, b2, -, f2⟩ := C17_put8Delta .fast prev h hi ho
  refine ⟨_, m₁, m₂, _, r1, r2, s1, bytes_agree b1 b2, ?_, f2⟩
  have := (put8DeltaScalar_res prev h).frame
  simp only [Fn.put8Delta] at r1
  rw [r1] at this
  exact fun q hq => this q fun hs => hq ⟨hs.1, hs.2.1, by have := hs.2.2; omega⟩

example := C17_put8_agree exPut (by decide) (by decide)
example := C17_put8Delta_agree 77 exPut (by decide) (by decide)
example : (run (put8uint32Fast exBlockIn exBlockBuf) exBlockMem).1 = .ok 0xfa50#16 := by decide +kernel

/-! ## C18: decoding eight numbers -/

/-- C18: with 32 bytes to read, every variant of `Get8uint32` leaves in `out[0:8]` the eight numbers that
`readNums` finds, for every control value, and writes nothing else. -/
theorem C18_get8 (f : Fn) {inn : Bytes} {out : U32s} {m : Mem} (ctrl : U16) (h : BlockPre inn out m)
    (hi : 32 ≤ inn.len) (ho : 8 ≤ out.len) :
    ∃ m', run (f.get8 inn out ctrl) m = (.ok (), m') ∧
      some (wordsN m' out 8) = readNums (codeLens 8 ctrl.toNat) (bytesOf m inn) ∧
      ∀ q, ¬ inPrefix out 8 q → m' q = m q := by
  have hs := csz_sum_le ctrl.toNat 8
  obtain ⟨⟨m', hr, hw⟩, -, hf⟩ := (get8_res f ctrl h (by omega) ho).imp1
  rw [hr] at hf
  refine ⟨m', hr, ?_, hf⟩
  rw [readNums_block, codeLens_sum, if_pos (by omega), hw]

theorem C18_get8Delta (f : Fn) {inn : Bytes} {out : U32s} {m : Mem} (ctrl : U16) (prev : U32)
    (h : BlockPre inn out m) (hi : 32 ≤ inn.len) (ho : 8 ≤ out.len) :
    ∃ m', run (f.get8Delta inn out ctrl prev) m = (.ok (), m') ∧
      some (wordsN m' out 8) = (readNums (codeLens 8 ctrl.toNat) (bytesOf m inn)).map (undelta prev) ∧
      ∀ q, ¬ inPrefix out 8 q → m' q = m q := by
  have hs := csz_sum_le ctrl.toNat 8
  obtain ⟨⟨m', hr, hw⟩, -, hf⟩ := (get8Delta_res f ctrl prev h (by omega) ho).imp1
  rw [hr] at hf
  refine ⟨m', hr, ?_, hf⟩
  rw [readNums_block, codeLens_sum, if_pos (by omega), hw, Option.map_some, undelta_range]

/-- C18, without reference to the format: the fast decoder and the scalar decoder end in the same memory. -/
theorem C18_get8_agree {inn : Bytes} {out : U32s} {m : Mem} (ctrl : U16) (h : BlockPre inn out m)
    (hi : 32 ≤ inn.len) (ho : 8 ≤ out.len) :
    run (get8uint32Fast inn out ctrl) m = run (get8uint32Scalar inn out ctrl) m := by
  obtain ⟨m₁, r1, w1, f1⟩ := C18_get8 .scalar ctrl h hi ho
  obtain ⟨m₂, r2, w2, f2⟩ := C18_get8 .fast ctrl h hi ho
  simp only [Fn.get8] at r1 r2
  rw [r1, r2, mem_eq_of_words (m₁ := m₁) (m₂ := m₂) f1 f2 (by
    have := w1.trans w2.symm
    exact Option.some.inj this)]

theorem C18_get8Delta_agree {inn : Bytes} {out : U32s} {m : Mem} (ctrl : U16) (prev : U32)
    (h : BlockPre inn out m) (hi : 32 ≤ inn.len) (ho : 8 ≤ out.len) :
    run (get8uint32DeltaFast inn out ctrl prev) m = run (get8uint32DeltaScalar inn out ctrl prev) m := by
  obtain ⟨m₁, r1, w1, f1⟩ := C18_get8Delta .scalar ctrl prev h hi ho
  obtain ⟨m₂, r2, w2, f2⟩ := C18_get8Delta .fast ctrl prev h hi ho
  simp only [Fn.get8Delta] at r1 r2
  rw [r1, r2, mem_eq_of_words (m₁ := m₁) (m₂ := m₂) f1 f2 (by
    have := w1.trans w2.symm
    exact Option.some.inj this)]

example := C18_get8_agree 0xe41b#16 exGet (by decide) (by decide)
example := C18_get8Delta_agree 0xe41b#16 99 exGet (by decide) (by decide)
example : wordsN (run (get8uint32Fast exBlockBuf exBlockOut 0xe41b#16) exBlockMem).2 exBlockOut 8 =
    [0x18110a03, 0x2d261f, 0x3b34, 0x42, 0x49, 0x5750, 0x6c655e, 0x88817a73] := by decide +kernel

/-! ## C19: encode a block, decode it -/

/-- C19: `Put8uint32` in any variant into `buf`, then `Get8uint32` in any variant from `buf`: the eight
numbers are back.  `out` may overlap `in`. -/
theorem C19_roundtrip8 (w r : Fn) {inn out : U32s} {buf : Bytes} {m : Mem} (h : BlockPre inn buf m)
    (hh : out.blk.isConst = false) (hd : Disjoint buf out) (hi : 8 ≤ inn.len) (hb : 32 ≤ buf.len)
    (ho : 8 ≤ out.len) :
    ∃ m', run (w.put8 inn buf >>= fun c => r.get8 buf out c) m = (.ok (), m') ∧
      wordsN m' out 8 = wordsN m inn 8 := by
  have hl := wordsN_length m inn 8
  obtain ⟨⟨m₁, r1, b1⟩, -, f1⟩ := (put8_res w h hi hb).imp1
  rw [r1] at f1
  obtain ⟨p, e⟩ := block_back hl b1
  have hg := get8_res r (ctrl16 (wordsN m inn 8)) (inn := buf) (out := out) (m := m₁)
    ⟨tables_after h.tables h.heap f1, hh, hd⟩ (by rw [ctrl16_toNat (by omega)]; exact p) ho
  obtain ⟨m₂, r2, w2⟩ := hg.good trivial
  rw [ctrl16_toNat (by omega), e] at w2
  refine ⟨m₂, ?_, w2⟩
  rw [Prog.bind_eq, run_bind, r1]
  exact r2

theorem C19_roundtrip8Delta (w r : Fn) {inn out : U32s} {buf : Bytes} {m : Mem} (prev : U32)
    (h : BlockPre inn buf m) (hh : out.blk.isConst = false) (hd : Disjoint buf out) (hi : 8 ≤ inn.len)
    (hb : 32 ≤ buf.len) (ho : 8 ≤ out.len) :
    ∃ m', run (w.put8Delta inn buf prev >>= fun c => r.get8Delta buf out c prev) m = (.ok (), m') ∧
      wordsN m' out 8 = wordsN m inn 8 := by
  have hl : (delta prev (wordsN m inn 8)).length = 8 := by rw [delta_length, wordsN_length]
  obtain ⟨⟨m₁, r1, b1⟩, -, f1⟩ := (put8Delta_res w prev h hi hb).imp1
  rw [r1] at f1
  obtain ⟨p, e⟩ := block_back hl b1
  have hg := get8Delta_res r (ctrl16 (delta prev (wordsN m inn 8))) prev (inn := buf) (out := out) (m := m₁)
    ⟨tables_after h.tables h.heap f1, hh, hd⟩ (by rw [ctrl16_toNat (by omega)]; exact p) ho
  obtain ⟨m₂, r2, w2⟩ := hg.good trivial
  rw [ctrl16_toNat (by omega), ← undelta_range, e, undelta_delta] at w2
  refine ⟨m₂, ?_, w2⟩
  rw [Prog.bind_eq, run_bind, r1]
  exact r2

/-- C19: the same for groups of four (`Put4uint32Scalar`, `Get4uint32Scalar`), with any buffer that holds
the data bytes. -/
theorem C19_roundtrip4 {inn out : U32s} {buf : Bytes} {m : Mem} (hT : TablesLoaded m)
    (hb : buf.blk.isConst = false) (hh : out.blk.isConst = false) (hd : Disjoint buf out) (hi : 4 ≤ inn.len)
    (hL : (dataBytes (wordsN m inn 4)).length ≤ buf.len) (ho : 4 ≤ out.len) :
    ∃ m', run (put4uint32Scalar inn buf >>= fun c => get4uint32Scalar buf out c) m = (.ok (), m') ∧
      wordsN m' out 4 = wordsN m inn 4 := by
  have hl := wordsN_length m inn 4
  have hp := put4_res (inn := inn) (out := buf) (m := m)
  obtain ⟨m₁, r1, b1⟩ := hp.good ⟨hi, hL⟩
  have f1 := hp.frame
  rw [r1] at f1
  obtain ⟨p, e⟩ := block_back hl b1
  have hg := get4_res (ctrlByte (wordsN m inn 4)) (inn := buf) (out := out) (m := m₁)
    ⟨tables_after hT hb f1, hh, hd⟩
  rw [ctrlByte_toNat (by omega), e] at hg
  obtain ⟨m₂, r2, w2⟩ := hg.good ⟨ho, p⟩
  refine ⟨m₂, ?_, w2⟩
  rw [Prog.bind_eq, run_bind, r1]
  exact r2

theorem C19_roundtrip4Delta {inn out : U32s} {buf : Bytes} {m : Mem} (prev : U32) (hT : TablesLoaded m)
    (hb : buf.blk.isConst = false) (hh : out.blk.isConst = false) (hd : Disjoint buf out) (hi : 4 ≤ inn.len)
    (hL : (dataBytes (delta prev (wordsN m inn 4))).length ≤ buf.len) (ho : 4 ≤ out.len) :
    ∃ m', run (put4uint32DeltaScalar inn buf prev >>= fun c => get4uint32DeltaScalar buf out c prev) m =
        (.ok (), m') ∧ wordsN m' out 4 = wordsN m inn 4 := by
  have hl : (delta prev (wordsN m inn 4)).length = 4 := by rw [delta_length, wordsN_length]
  have hp := put4Delta_res (inn := inn) (out := buf) (m := m) prev
  obtain ⟨m₁, r1, b1⟩ := hp.good ⟨hi, hL⟩
  have f1 := hp.frame
  rw [r1] at f1
  obtain ⟨p, e⟩ := block_back hl b1
  have hg := get4Delta_res (ctrlByte (delta prev (wordsN m inn 4))) prev (inn := buf) (out := out) (m := m₁)
    ⟨tables_after hT hb f1, hh, hd⟩
  rw [ctrlByte_toNat (by omega), ← undelta_range, e, undelta_delta] at hg
  obtain ⟨m₂, r2, w2⟩ := hg.good ⟨ho, p⟩
  refine ⟨m₂, ?_, w2⟩
  rw [Prog.bind_eq, run_bind, r1]
  exact r2

example := C19_roundtrip8 .fast .scalar (out := exBlockIn) exPut rfl (.inl (by decide)) (by decide) (by decide)
  (by decide)
example := C19_roundtrip8Delta (.auto ⟨true, true, true⟩) .fast (out := exBlockOut) 5 exPut rfl
  (.inl (by decide)) (by decide) (by decide) (by decide)
example := C19_roundtrip4 (inn := exBlockIn) (buf := ⟨.heap 1, 3, 6, 6⟩) (out := exBlockOut)
  (memWith_tables _ _) rfl rfl (.inl (by decide)) (by decide)
  (show (dataBytes (wordsN exBlockMem exBlockIn 4)).length ≤ 6 by decide +kernel) (by decide)
example := C19_roundtrip4Delta (inn := exBlockIn) (buf := ⟨.heap 1, 3, 5, 5⟩) (out := exBlockOut) 0
  (memWith_tables _ _) rfl rfl (.inl (by decide)) (by decide)
  (show (dataBytes (delta 0 (wordsN exBlockMem exBlockIn 4))).length ≤ 5 by decide +kernel) (by decide)

/-! ## C20: partial groups -/

/-- C20: `PutUint32Scalar(in, out, count)` encodes the first `n = min(count, 4)` numbers (none if
`count ≤ 0`): it returns their control byte, whose bits beyond them are 0, and stores exactly their data
bytes; `ControlByteToSize(ctrl) - (4 - n)` is the number of bytes. -/
theorem C20_put (count : Int) {n : Nat} (hn : n = min count.toNat 4) {inn : U32s} {out : Bytes} {m : Mem}
    (h : BlockPre inn out m) (hi : n ≤ inn.len) (ho : (dataBytes (wordsN m inn n)).length ≤ out.len) :
    ∃ m', run (putUint32Scalar inn out count) m = (.ok (ctrlByte (wordsN m inn n)), m') ∧
      (∀ k, n ≤ k → code (ctrlByte (wordsN m inn n)) k = 0) ∧
      (bytesOf m' out).take (dataBytes (wordsN m inn n)).length = dataBytes (wordsN m inn n) ∧
      (∀ q, ¬ inPrefix out (dataBytes (wordsN m inn n)).length q → m' q = m q) ∧
      ∃ s : Int, run (controlByteToSize (ctrlByte (wordsN m inn n))) m' = (.ok s, m') ∧
        s - (4 - (n : Int)) = ((dataBytes (wordsN m inn n)).length : Int) := by
  have hl := wordsN_length m inn n
  have hp := putUint32_res (m := m) hn h.disj
  obtain ⟨m', hr, hb⟩ := hp.good ⟨hi, ho⟩
  have hf := hp.frame
  rw [hr] at hf
  refine ⟨m', hr, ?_, hb, fun q hq => hf q fun hs => hq ⟨hs.1, hs.2.1, by have := hs.2.2; omega⟩, _,
    controlByteToSize_run _ (tables_after h.tables h.heap hf), ?_⟩
  · intro k hk
    have := ctrlByte_code (g := wordsN m inn n) (by omega) k
    rw [getD_of_le _ (by omega), byteLen_zero] at this; omega
  · have := codeLens_partial (wordsN m inn n) (4 - n)
    rw [hl, show n + (4 - n) = 4 by omega] at this
    rw [ctrlByte_toNat (by omega), this]; omega

theorem C20_putDelta (count : Int) {n : Nat} (hn : n = min count.toNat 4) {inn : U32s} {out : Bytes} {m : Mem}
    (prev : U32) (h : BlockPre inn out m) (hi : n ≤ inn.len)
    (ho : (dataBytes (delta prev (wordsN m inn n))).length ≤ out.len) :
    ∃ m', run (putUint32DeltaScalar inn out count prev) m =
        (.ok (ctrlByte (delta prev (wordsN m inn n))), m') ∧
      (∀ k, n ≤ k → code (ctrlByte (delta prev (wordsN m inn n))) k = 0) ∧
      (bytesOf m' out).take (dataBytes (delta prev (wordsN m inn n))).length =
        dataBytes (delta prev (wordsN m inn n)) ∧
      (∀ q, ¬ inPrefix out (dataBytes (delta prev (wordsN m inn n))).length q → m' q = m q) ∧
      ∃ s : Int, run (controlByteToSize (ctrlByte (delta prev (wordsN m inn n)))) m' = (.ok s, m') ∧
        s - (4 - (n : Int)) = ((dataBytes (delta prev (wordsN m inn n))).length : Int) := by
  have hl : (delta prev (wordsN m inn n)).length = n := by rw [delta_length, wordsN_length]
  have hp := putUint32Delta_res (m := m) prev hn h.disj
  obtain ⟨m', hr, hb⟩ := hp.good ⟨hi, ho⟩
  have hf := hp.frame
  rw [hr] at hf
  refine ⟨m', hr, ?_, hb, fun q hq => hf q fun hs => hq ⟨hs.1, hs.2.1, by have := hs.2.2; omega⟩, _,
    controlByteToSize_run _ (tables_after h.tables h.heap hf), ?_⟩
  · intro k hk
    have := ctrlByte_code (g := delta prev (wordsN m inn n)) (by omega) k
    rw [getD_of_le _ (by omega), byteLen_zero] at this; omega
  · have := codeLens_partial (delta prev (wordsN m inn n)) (4 - n)
    rw [hl, show n + (4 - n) = 4 by omega] at this
    rw [ctrlByte_toNat (by omega), this]; omega

/-- C20: `GetUint32Scalar` with the same count returns the number of data bytes, and the numbers. -/
theorem C20_roundtrip (count : Int) {n : Nat} (hn : n = min count.toNat 4) {inn out : U32s} {buf : Bytes}
    {m : Mem} (h : BlockPre inn buf m) (hd : Disjoint buf out) (hi : n ≤ inn.len)
    (hL : (dataBytes (wordsN m inn n)).length ≤ buf.len) (ho : n ≤ out.len) :
    ∃ m', run (putUint32Scalar inn buf count >>= fun c => getUint32Scalar buf out c count) m =
        (.ok ((dataBytes (wordsN m inn n)).length : Int), m') ∧ wordsN m' out n = wordsN m inn n := by
  have hl := wordsN_length m inn n
  obtain ⟨m₁, r1, b1⟩ := (putUint32_res (m := m) hn h.disj).good ⟨hi, hL⟩
  obtain ⟨p, e⟩ := block_back hl b1
  have hg := getUint32_res (ctrlByte (wordsN m inn n)) (inn := buf) (out := out) (m := m₁) hn hd
  have hs := codeLens_partial (wordsN m inn n) 0
  rw [hl, Nat.add_zero, codeLens_sum] at hs
  rw [ctrlByte_toNat (by omega), e, hs] at hg
  obtain ⟨m₂, r2, w2⟩ := hg.good ⟨ho, hL⟩
  refine ⟨m₂, ?_, w2⟩
  rw [Prog.bind_eq, run_bind, r1]
  exact r2

theorem C20_roundtripDelta (count : Int) {n : Nat} (hn : n = min count.toNat 4) {inn out : U32s} {buf : Bytes}
    {m : Mem} (prev : U32) (h : BlockPre inn buf m) (hd : Disjoint buf out) (hi : n ≤ inn.len)
    (hL : (dataBytes (delta prev (wordsN m inn n))).length ≤ buf.len) (ho : n ≤ out.len) :
    ∃ m', run (putUint32DeltaScalar inn buf count prev >>= fun c => getUint32DeltaScalar buf out c count prev) m =
        (.ok ((dataBytes (delta prev (wordsN m inn n))).length : Int), m') ∧
      wordsN m' out n = wordsN m inn n := by
  have hl : (delta prev (wordsN m inn n)).length = n := by rw [delta_length, wordsN_length]
  obtain ⟨m₁, r1, b1⟩ := (putUint32Delta_res (m := m) prev hn h.disj).good ⟨hi, hL⟩
  obtain ⟨p, e⟩ := block_back hl b1
  have hg := getUint32Delta_res (ctrlByte (delta prev (wordsN m inn n))) prev (inn := buf) (out := out) (m := m₁)
    hn hd
  have hs := codeLens_partial (delta prev (wordsN m inn n)) 0
  rw [hl, Nat.add_zero, codeLens_sum] at hs
  rw [ctrlByte_toNat (by omega), ← undelta_range, e, hs, undelta_delta] at hg
  obtain ⟨m₂, r2, w2⟩ := hg.good ⟨ho, hL⟩
  refine ⟨m₂, ?_, w2⟩
  rw [Prog.bind_eq, run_bind, r1]
  exact r2

/-- C20, decoding on its own: `GetUint32Scalar` leaves the numbers that `readNums` finds and returns how
many bytes it consumed; it panics exactly if `in` or `out` is too short. -/
theorem C20_get (count : Int) {n : Nat} (hn : n = min count.toNat 4) {inn : Bytes} {out : U32s} {m : Mem}
    (ctrl : Byte) (hd : Disjoint inn out) :
    (n ≤ out.len ∧ (codeLens n ctrl.toNat).sum ≤ inn.len → ∃ m',
      run (getUint32Scalar inn out ctrl count) m = (.ok ((codeLens n ctrl.toNat).sum : Int), m') ∧
      some (wordsN m' out n) = readNums (codeLens n ctrl.toNat) (bytesOf m inn)) ∧
    (¬ (n ≤ out.len ∧ (codeLens n ctrl.toNat).sum ≤ inn.len) → ∃ k m',
      run (getUint32Scalar inn out ctrl count) m = (.panic k, m') ∧ BoundsPanic k) ∧
    ∀ q, ¬ inPrefix out n q → (run (getUint32Scalar inn out ctrl count) m).2 q = m q := by
  have hg := getUint32_res (inn := inn) (out := out) (m := m) ctrl hn hd
  rw [readNums_block, codeLens_sum]
  refine ⟨fun ok => ?_, hg.bad, hg.frame⟩
  obtain ⟨m', r, w⟩ := hg.good ok
  exact ⟨m', r, by rw [if_pos ok.2, w]⟩

theorem C20_getDelta (count : Int) {n : Nat} (hn : n = min count.toNat 4) {inn : Bytes} {out : U32s} {m : Mem}
    (ctrl : Byte) (prev : U32) (hd : Disjoint inn out) :
    (n ≤ out.len ∧ (codeLens n ctrl.toNat).sum ≤ inn.len → ∃ m',
      run (getUint32DeltaScalar inn out ctrl count prev) m = (.ok ((codeLens n ctrl.toNat).sum : Int), m') ∧
      some (wordsN m' out n) = (readNums (codeLens n ctrl.toNat) (bytesOf m inn)).map (undelta prev)) ∧
    (¬ (n ≤ out.len ∧ (codeLens n ctrl.toNat).sum ≤ inn.len) → ∃ k m',
      run (getUint32DeltaScalar inn out ctrl count prev) m = (.panic k, m') ∧ BoundsPanic k) ∧
    ∀ q, ¬ inPrefix out n q → (run (getUint32DeltaScalar inn out ctrl count prev) m).2 q = m q := by
  have hg := getUint32Delta_res (inn := inn) (out := out) (m := m) ctrl prev hn hd
  rw [readNums_block, codeLens_sum]
  refine ⟨fun ok => ?_, hg.bad, hg.frame⟩
  obtain ⟨m', r, w⟩ := hg.good ok
  exact ⟨m', r, by rw [if_pos ok.2, w, Option.map_some, undelta_range]⟩

example := C20_put 3 rfl exPut (by decide)
  (show (dataBytes (wordsN exBlockMem exBlockIn 3)).length ≤ 40 by decide +kernel)
example := C20_put (-7) rfl exPut (by decide) (Nat.zero_le _)
example := C20_putDelta 2 rfl 9 exPut (by decide)
  (show (dataBytes (delta 9 (wordsN exBlockMem exBlockIn 2))).length ≤ 40 by decide +kernel)
example := C20_roundtrip 3 rfl (out := exBlockOut) exPut (.inl (by decide)) (by decide)
  (show (dataBytes (wordsN exBlockMem exBlockIn 3)).length ≤ 40 by decide +kernel) (by decide)
example := C20_roundtripDelta 100 rfl (out := exBlockOut) 9 exPut (.inl (by decide)) (by decide)
  (show (dataBytes (delta 9 (wordsN exBlockMem exBlockIn 4))).length ≤ 40 by decide +kernel) (by decide)
example := C20_get 2 rfl (m := exBlockMem) 0x1b#8 exGet.disj
example := C20_getDelta 2 rfl (m := exBlockMem) 0x1b#8 4 exGet.disj

/-! ## C21: panics of the block functions -/

/-- `p` panics, and the panic is one of Go's bounds checks. -/
def Panics {α : Type} (p : Prog α) (m : Mem) : Prop :=
  ∃ k m', run p m = (.panic k, m') ∧ BoundsPanic k

theorem EncRes_panics {γ : Type} {p : Prog γ} {ctl : γ} {ok bad : Prop} {xs : List U32} {out : Bytes} {L : Nat}
    {m : Mem} (h : EncRes p ctl ok xs out L m) (hb : bad ↔ ¬ ok) : Panics p m ↔ bad := by
  rw [hb]
  refine ⟨?_, h.bad⟩
  rintro ⟨k, m', hr, -⟩ hok
  obtain ⟨m₂, hr₂, -⟩ := h.good hok
  rw [hr] at hr₂; cases hr₂

theorem DecRes_panics {γ : Type} {p : Prog γ} {r : γ} {ok bad : Prop} {ys : List U32} {out : U32s} {n : Nat}
    {m : Mem} (h : DecRes p r ok ys out n m) (hb : bad ↔ ¬ ok) : Panics p m ↔ bad := by
  rw [hb]
  refine ⟨?_, h.bad⟩
  rintro ⟨k, m', hr, -⟩ hok
  obtain ⟨m₂, hr₂, -⟩ := h.good hok
  rw [hr] at hr₂; cases hr₂

/-- C21: `Put4uint32Scalar` panics iff `in` has fewer than four elements or `out` is shorter than the
encoding. -/
theorem C21_put4 (inn : U32s) (out : Bytes) (m : Mem) :
    Panics (put4uint32Scalar inn out) m ↔
      inn.len < 4 ∨ out.len < (dataBytes (wordsN m inn 4)).length :=
  EncRes_panics put4_res (by omega)

theorem C21_put4Delta (inn : U32s) (out : Bytes) (prev : U32) (m : Mem) :
    Panics (put4uint32DeltaScalar inn out prev) m ↔
      inn.len < 4 ∨ out.len < (dataBytes (delta prev (wordsN m inn 4))).length :=
  EncRes_panics (put4Delta_res prev) (by omega)

theorem C21_put8 {inn : U32s} {out : Bytes} {m : Mem} (h : BlockPre inn out m) :
    Panics (put8uint32Scalar inn out) m ↔
      inn.len < 8 ∨ out.len < (dataBytes (wordsN m inn 8)).length :=
  EncRes_panics (put8Scalar_res h) (by omega)

theorem C21_put8Delta {inn : U32s} {out : Bytes} {m : Mem} (prev : U32) (h : BlockPre inn out m) :
    Panics (put8uint32DeltaScalar inn out prev) m ↔
      inn.len < 8 ∨ out.len < (dataBytes (delta prev (wordsN m inn 8))).length :=
  EncRes_panics (put8DeltaScalar_res prev h) (by omega)

/-- C21: `PutUint32Scalar` panics iff one of the `n = min(count, 4)` numbers is missing or does not fit. -/
theorem C21_putUint32 (count : Int) {n : Nat} (hn : n = min count.toNat 4) {inn : U32s} {out : Bytes} {m : Mem}
    (h : Disjoint inn out) :
    Panics (putUint32Scalar inn out count) m ↔
      inn.len < n ∨ out.len < (dataBytes (wordsN m inn n)).length :=
  EncRes_panics (putUint32_res hn h) (by omega)

theorem C21_putUint32Delta (count : Int) {n : Nat} (hn : n = min count.toNat 4) {inn : U32s} {out : Bytes}
    {m : Mem} (prev : U32) (h : Disjoint inn out) :
    Panics (putUint32DeltaScalar inn out count prev) m ↔
      inn.len < n ∨ out.len < (dataBytes (delta prev (wordsN m inn n))).length :=
  EncRes_panics (putUint32Delta_res prev hn h) (by omega)

/-- C21: `Get4uint32Scalar` panics iff `out` has fewer than four elements or `in` fewer bytes than the
control byte announces. -/
theorem C21_get4 {inn : Bytes} {out : U32s} {m : Mem} (ctrl : Byte) (h : BlockPre inn out m) :
    Panics (get4uint32Scalar inn out ctrl) m ↔
      out.len < 4 ∨ inn.len < (codeLens 4 ctrl.toNat).sum :=
  DecRes_panics (get4_res ctrl h) (by rw [codeLens_sum]; omega)

theorem C21_get4Delta {inn : Bytes} {out : U32s} {m : Mem} (ctrl : Byte) (prev : U32) (h : BlockPre inn out m) :
    Panics (get4uint32DeltaScalar inn out ctrl prev) m ↔
      out.len < 4 ∨ inn.len < (codeLens 4 ctrl.toNat).sum :=
  DecRes_panics (get4Delta_res ctrl prev h) (by rw [codeLens_sum]; omega)

theorem C21_get8 {inn : Bytes} {out : U32s} {m : Mem} (ctrl : U16) (h : BlockPre inn out m) :
    Panics (get8uint32Scalar inn out ctrl) m ↔
      out.len < 8 ∨ inn.len < (codeLens 8 ctrl.toNat).sum :=
  DecRes_panics (get8Scalar_res ctrl h) (by rw [codeLens_sum]; omega)

theorem C21_get8Delta {inn : Bytes} {out : U32s} {m : Mem} (ctrl : U16) (prev : U32) (h : BlockPre inn out m) :
    Panics (get8uint32DeltaScalar inn out ctrl prev) m ↔
      out.len < 8 ∨ inn.len < (codeLens 8 ctrl.toNat).sum :=
  DecRes_panics (get8DeltaScalar_res ctrl prev h) (by rw [codeLens_sum]; omega)

/-- C21, the other half: when they do not panic, the scalar block functions compute the format. -/
theorem C21_put8_value {inn : U32s} {out : Bytes} {m : Mem} (h : BlockPre inn out m) (hi : 8 ≤ inn.len)
    (ho : (dataBytes (wordsN m inn 8)).length ≤ out.len) :
    ∃ m', run (put8uint32Scalar inn out) m = (.ok (ctrl16 (wordsN m inn 8)), m') ∧
      (bytesOf m' out).take (dataBytes (wordsN m inn 8)).length = dataBytes (wordsN m inn 8) :=
  (put8Scalar_res h).good ⟨hi, ho⟩

theorem C21_put8Delta_value {inn : U32s} {out : Bytes} {m : Mem} (prev : U32) (h : BlockPre inn out m)
    (hi : 8 ≤ inn.len) (ho : (dataBytes (delta prev (wordsN m inn 8))).length ≤ out.len) :
    ∃ m', run (put8uint32DeltaScalar inn out prev) m = (.ok (ctrl16 (delta prev (wordsN m inn 8))), m') ∧
      (bytesOf m' out).take (dataBytes (delta prev (wordsN m inn 8))).length =
        dataBytes (delta prev (wordsN m inn 8)) :=
  (put8DeltaScalar_res prev h).good ⟨hi, ho⟩

theorem C21_get8_value {inn : Bytes} {out : U32s} {m : Mem} (ctrl : U16) (h : BlockPre inn out m)
    (hi : (codeLens 8 ctrl.toNat).sum ≤ inn.len) (ho : 8 ≤ out.len) :
    ∃ m', run (get8uint32Scalar inn out ctrl) m = (.ok (), m') ∧
      some (wordsN m' out 8) = readNums (codeLens 8 ctrl.toNat) (bytesOf m inn) := by
  obtain ⟨m', r, w⟩ := (get8Scalar_res ctrl h).good ⟨ho, by rw [← codeLens_sum]; exact hi⟩
  exact ⟨m', r, by rw [readNums_block, if_pos hi, w]⟩

theorem C21_get8Delta_value {inn : Bytes} {out : U32s} {m : Mem} (ctrl : U16) (prev : U32)
    (h : BlockPre inn out m) (hi : (codeLens 8 ctrl.toNat).sum ≤ inn.len) (ho : 8 ≤ out.len) :
    ∃ m', run (get8uint32DeltaScalar inn out ctrl prev) m = (.ok (), m') ∧
      some (wordsN m' out 8) = (readNums (codeLens 8 ctrl.toNat) (bytesOf m inn)).map (undelta prev) := by
  obtain ⟨m', r, w⟩ := (get8DeltaScalar_res ctrl prev h).good ⟨ho, by rw [← codeLens_sum]; exact hi⟩
  exact ⟨m', r, by rw [readNums_block, if_pos hi, w, Option.map_some, undelta_range]⟩

-- `[0, 255, 256, 65535]` takes six bytes: five are too few, six are enough.
example : Panics (put4uint32Scalar exBlockIn ⟨.heap 1, 0, 5, 5⟩) exBlockMem :=
  (C21_put4 _ _ _).2 (.inr (show 5 < (dataBytes (wordsN exBlockMem exBlockIn 4)).length by decide +kernel))
example : ¬ Panics (put4uint32Scalar exBlockIn ⟨.heap 1, 0, 6, 6⟩) exBlockMem := fun h =>
  absurd ((C21_put4 _ _ _).1 h)
    (show ¬ (10 < 4 ∨ 6 < (dataBytes (wordsN exBlockMem exBlockIn 4)).length) by decide +kernel)
example := C21_put8 exPut
example := C21_put8Delta 3 exPut
example := C21_putUint32 3 rfl (m := exBlockMem) exPut.disj
example := C21_get4 0xff#8 exGet
example := C21_get8 0xffff#16 exGet

/-! ## C26: block dispatch -/

/-- C26: `Put8uint32` gives the same control and the same data bytes on every CPU. -/
theorem C26_put8 (c₁ c₂ : Cpu) {inn : U32s} {out : Bytes} {m : Mem} (h : BlockPre inn out m)
    (hi : 8 ≤ inn.len) (ho : 32 ≤ out.len) :
    ∃ c m₁ m₂, ∃ L : Nat, run (put8uint32 c₁ inn out) m = (.ok c, m₁) ∧
      run (put8uint32 c₂ inn out) m = (.ok c, m₂) ∧
      run (controlByteToSizeTwo c) m₁ = (.ok (L : Int), m₁) ∧
      ∀ i < L, m₁ ⟨out.blk, out.off + i⟩ = m₂ ⟨out.blk, out.off + i⟩ := by
  obtain ⟨m₁, r1, b1, s1, -⟩ := C17_put8 (.auto c₁) h hi ho
  obtain ⟨m₂, r2, b2, -, -⟩ := C17_put8 (.auto c₂) h hi ho
  exact ⟨_, m₁, m₂, _, r1, r2, s1, bytes_agree b1 b2⟩

theorem C26_put8Delta (c₁ c₂ : Cpu) {inn : U32s} {out : Bytes} {m : Mem} (prev : U32) (h : BlockPre inn out m)
    (hi : 8 ≤ inn.len) (ho : 32 ≤ out.len) :
    ∃ c m₁ m₂, ∃ L : Nat, run (put8uint32Delta c₁ inn out prev) m = (.ok c, m₁) ∧
      run (put8uint32Delta c₂ inn out prev) m = (.ok c, m₂) ∧
      run (controlByteToSizeTwo c) m₁ = (.ok (L : Int), m₁) ∧
      ∀ i < L, m₁ ⟨out.blk, out.off + i⟩ = m₂ ⟨out.blk, out.off + i⟩ := by
  obtain ⟨m₁, r1, b1, s1, -⟩ := C17_put8Delta (.auto c₁) prev h hi ho
  obtain ⟨m₂, r2, b2, -, -⟩ := C17_put8Delta (.auto c₂) prev h hi ho
  exact ⟨_, m₁, m₂, _, r1, r2, s1, bytes_agree b1 b2⟩

/-- C26: `Get8uint32` ends in the same memory on every CPU. -/
theorem C26_get8 (c₁ c₂ : Cpu) {inn : Bytes} {out : U32s} {m : Mem} (ctrl : U16) (h : BlockPre inn out m)
    (hi : 32 ≤ inn.len) (ho : 8 ≤ out.len) :
    run (get8uint32 c₁ inn out ctrl) m = run (get8uint32 c₂ inn out ctrl) m := by
  have e := C18_get8_agree ctrl h hi ho
  rcases get8uint32_cases c₁ inn out ctrl with e1 | e1 <;> rcases get8uint32_cases c₂ inn out ctrl with e2 | e2 <;>
    rw [e1, e2]
  · exact e
  · exact e.symm

theorem C26_get8Delta (c₁ c₂ : Cpu) {inn : Bytes} {out : U32s} {m : Mem} (ctrl : U16) (prev : U32)
    (h : BlockPre inn out m) (hi : 32 ≤ inn.len) (ho : 8 ≤ out.len) :
    run (get8uint32Delta c₁ inn out ctrl prev) m = run (get8uint32Delta c₂ inn out ctrl prev) m := by
  have e := C18_get8Delta_agree ctrl prev h hi ho
  rcases get8uint32Delta_cases c₁ inn out ctrl prev with e1 | e1 <;>
    rcases get8uint32Delta_cases c₂ inn out ctrl prev with e2 | e2 <;> rw [e1, e2]
  · exact e
  · exact e.symm

example := C26_put8 ⟨true, true, true⟩ ⟨false, false, false⟩ exPut (by decide) (by decide)
example := C26_get8 ⟨true, true, false⟩ ⟨true, false, false⟩ 0xe41b#16 exGet (by decide) (by decide)

end SVB.Props
