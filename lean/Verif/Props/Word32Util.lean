import Verif.Proofs.Word32Util
import Verif.Props.Util

/-! # C76, package `util` where `int` has 32 bits -/

set_option autoImplicit false

namespace SVB.Props
open Spec

/-- C76: the functions of package `util` behave step by step as where `int` has 64 bits, whatever the arguments and the contents
of the memory, also where they panic. -/
theorem C76_util_same {nums inn out : U32s} {data buf : Bytes} (prev : U32) (hn : nums.len < 2 ^ 30) (hi : inn.len < 2 ^ 30)
    (ho : out.len < 2 ^ 30) (hd : data.len < 2 ^ 31) (hb : buf.len < 2 ^ 31) :
    Word32.putVarint nums buf = putVarint nums buf ∧ Word32.putDeltaVarint nums buf prev = putDeltaVarint nums buf prev ∧
    Word32.getVarint data out = getVarint data out ∧ Word32.getDeltaVarint data out prev = getDeltaVarint data out prev ∧
    Word32.utilDelta inn out = utilDelta inn out :=
  ⟨Word32.putVarint_eq (by omega) hb, Word32.putDeltaVarint_eq prev (by omega) hb, Word32.getVarint_eq hd (by omega),
    Word32.getDeltaVarint_eq prev hd (by omega), Word32.utilDelta_eq (by omega)⟩

/-- C76: varints written on a 64-bit platform are read on a 32-bit one, and the other way round. -/
theorem C76_varint_across {nums out : U32s} {buf : Bytes} {m : Mem} (prev : U32) (hd : Disjoint nums buf)
    (hd' : Disjoint buf out) (hn : nums.len < 2 ^ 30) (ho : out.len < 2 ^ 30) (hb : buf.len < 2 ^ 31) (hr : nums.len ≤ out.len)
    (hroom : varintSize (wordsOf m nums) ≤ buf.len) (hroom' : varintSize (delta prev (wordsOf m nums)) ≤ buf.len) :
    (∃ n m₁ m₂, run (putVarint nums buf) m = (.ok (n : Nat), m₁) ∧ run (Word32.putVarint nums buf) m = (.ok (n : Nat), m₁) ∧
      run (Word32.getVarint ⟨buf.blk, buf.off, n, buf.cap⟩ out) m₁ = (.ok n, m₂) ∧ wordsN m₂ out nums.len = wordsOf m nums) ∧
    ∃ n m₁ m₂, run (putDeltaVarint nums buf prev) m = (.ok (n : Nat), m₁) ∧
      run (Word32.putDeltaVarint nums buf prev) m = (.ok (n : Nat), m₁) ∧
      run (Word32.getDeltaVarint ⟨buf.blk, buf.off, n, buf.cap⟩ out prev) m₁ = (.ok n, m₂) ∧
      wordsN m₂ out nums.len = wordsOf m nums := by
  have p1 := (C32_putVarint (m := m) hd (by omega)).1 hroom
  have p2 := (C32_putDeltaVarint (m := m) prev hd (by omega)).1 hroom'
  obtain ⟨n, m₁, m₂, a1, a2, a3⟩ := C32_roundtrip hd hd' (by omega) hroom hr
  obtain ⟨n', k₁, k₂, b1, b2, b3⟩ := C32_roundtrip_delta prev hd hd' (by omega) hroom' hr
  obtain ⟨_, p1, -⟩ := p1
  obtain ⟨_, p2, -⟩ := p2
  rw [a1] at p1
  rw [b1] at p2
  injection p1 with p1; injection p1 with p1
  injection p2 with p2; injection p2 with p2
  refine ⟨⟨n, m₁, m₂, a1, ?_, ?_, a3⟩, n', k₁, k₂, b1, ?_, ?_, b3⟩
  · rw [Word32.putVarint_eq (by omega) hb]; exact a1
  · rw [Word32.getVarint_eq (by show n < _; omega) (by omega)]; exact a2
  · rw [Word32.putDeltaVarint_eq prev (by omega) hb]; exact b1
  · rw [Word32.getDeltaVarint_eq prev (by show n' < _; omega) (by omega)]; exact b2

example := C76_util_same (nums := exVNums) (inn := exVNums) (out := ⟨.heap 3, 0, 3, 3⟩) (data := exVBuf) (buf := exVBuf) 2
  (by decide) (by decide) (by decide) (by decide) (by decide)
example := C76_varint_across (nums := exVNums) (buf := exVBuf) (out := ⟨.heap 3, 0, 3, 3⟩) (m := exVMem) 2
  (.inl (by decide)) (.inl (by decide)) (by decide) (by decide) (by decide) (by decide) (by decide +kernel) (by decide +kernel)
-- An overlong varint: the position becomes negative with 32 bits too.
example : (run (Word32.getVarint ⟨.heap 1, 0, 11, 11⟩ ⟨.heap 0, 0, 3, 3⟩)
    (memWith [7, 8, 9] (List.replicate 11 0x80))).1 = .panic .slice := by decide +kernel

end SVB.Props
