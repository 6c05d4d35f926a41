import Verif.Props.Util
import Verif.Proofs.Results

/-! # C46: the two formats of `/repo` compared -/

set_option autoImplicit false

namespace SVB.Props
open Spec

private theorem varint_len (x : U32) : byteLen x ≤ (varint x.toNat).length ∧ (varint x.toNat).length ≤ byteLen x + 1 := by
  have hx := x.isLt
  unfold byteLen
  generalize x.toNat = n at hx ⊢
  have key : (varint n).length = if n < 128 then 1 else if n < 16384 then 2 else if n < 2097152 then 3 else
      if n < 268435456 then 4 else 5 := by
    by_cases h1 : n < 128
    · rw [varint_small h1, if_pos h1]; rfl
    · rw [if_neg h1, varint_big (by omega), List.length_cons]
      by_cases h2 : n < 16384
      · rw [varint_small (by omega), if_pos h2]; rfl
      · rw [if_neg h2, varint_big (by omega), List.length_cons]
        by_cases h3 : n < 2097152
        · rw [varint_small (by omega), if_pos h3]; rfl
        · rw [if_neg h3, varint_big (by omega), List.length_cons]
          by_cases h4 : n < 268435456
          · rw [varint_small (by omega), if_pos h4]; rfl
          · rw [if_neg h4, varint_big (by omega), List.length_cons, varint_small (by omega)]; rfl
  rw [key]
  constructor <;> (repeat' split) <;> omega

/-- C46, in terms of the formats. -/
private theorem sizes (xs : List U32) : (encode xs).length ≤ varintSize xs + ctrlLen xs.length ∧
    varintSize xs + ctrlLen xs.length ≤ (encode xs).length + xs.length := by
  rw [encode_length_sum]
  have : (xs.map byteLen).sum ≤ varintSize xs ∧ varintSize xs ≤ (xs.map byteLen).sum + xs.length := by
    unfold varintSize
    induction xs with
    | nil => simp [varintsOf]
    | cons x xs ih =>
      have e : varintsOf (x :: xs) = varint x.toNat ++ varintsOf xs := rfl
      have := varint_len x
      rw [e, List.length_append, List.length_cons, List.map_cons, List.sum_cons]
      omega
  omega

/-- C46: what `WriteAll` returns is at most one byte per started group of four numbers longer than what `PutVarint`
writes for the same numbers, and the latter is at most one byte per number longer than the data part of the former.
(`f` any of the three writers.) -/
theorem C46_write (f : Fn) {fresh : Block} {inn : U32s} {buf r : Bytes} {m m₁ m₂ : Mem} {n : Int}
    (h : WriterPre fresh inn m) (hd : Disjoint inn buf) (hb : buf.len < 2 ^ 62)
    (h1 : run (f.write fresh inn) m = (.ok r, m₁)) (h2 : run (putVarint inn buf) m = (.ok n, m₂)) :
    (r.len : Int) ≤ n + ctrlLen inn.len ∧ n + ctrlLen inn.len ≤ r.len + inn.len := by
  obtain ⟨m', e1, -⟩ := (write_result f h).ex
  rw [e1] at h1
  cases h1
  have hs := sizes (wordsOf m inn)
  rw [wordsOf_length] at hs
  have hn : n = varintSize (wordsOf m inn) := by
    rcases Nat.lt_or_ge buf.len (varintSize (wordsOf m inn)) with h | h
    · obtain ⟨_, e, -⟩ := (C32_putVarint hd hb).2 h
      rw [e] at h2; cases h2
    · obtain ⟨_, e, -⟩ := (C32_putVarint hd hb).1 h
      rw [e] at h2; cases h2; rfl
  subst hn
  simp only
  omega

/-- C46 for the delta formats. -/
theorem C46_writeDelta (f : Fn) {fresh : Block} {inn : U32s} {buf r : Bytes} {m m₁ m₂ : Mem} {n : Int} (prev : U32)
    (h : WriterPre fresh inn m) (hd : Disjoint inn buf) (hb : buf.len < 2 ^ 62)
    (h1 : run (f.writeDelta fresh inn prev) m = (.ok r, m₁)) (h2 : run (putDeltaVarint inn buf prev) m = (.ok n, m₂)) :
    (r.len : Int) ≤ n + ctrlLen inn.len ∧ n + ctrlLen inn.len ≤ r.len + inn.len := by
  obtain ⟨m', e1, -⟩ := (writeDelta_result f prev h).ex
  rw [e1] at h1
  cases h1
  have hs := sizes (delta prev (wordsOf m inn))
  rw [delta_length, wordsOf_length] at hs
  have hn : n = varintSize (delta prev (wordsOf m inn)) := by
    rcases Nat.lt_or_ge buf.len (varintSize (delta prev (wordsOf m inn))) with h | h
    · obtain ⟨_, e, -⟩ := (C32_putDeltaVarint prev hd hb).2 h
      rw [e] at h2; cases h2
    · obtain ⟨_, e, -⟩ := (C32_putDeltaVarint prev hd hb).1 h
      rw [e] at h2; cases h2; rfl
  subst hn
  simp only
  omega

-- Both bounds are attained: one number below 128 (2 bytes against 1) and one above 2^28 (5 bytes against 5).
example : ((encode [7]).length, varintSize [7]) = (2, 1) := by decide +kernel
example : ((encode [0xFFFFFFFF]).length, varintSize [0xFFFFFFFF]) = (5, 5) := by decide +kernel
-- A case meeting the hypotheses of `C46_write`.
example : ∃ r m₁ n m₂, run (writeAllFast (.heap 6) exVNums) exVMem = (.ok r, m₁) ∧
    run (putVarint exVNums ⟨.heap 5, 0, 15, 15⟩) exVMem = (.ok n, m₂) ∧ r.len = 5 ∧ n = 4 := by
  have h := (write_result .fast (fresh := .heap 6) (inn := exVNums) (m := exVMem)
    ⟨memWith_tables _ _, ⟨by decide, rfl, by decide⟩, rfl, by decide⟩).ex
  obtain ⟨m₁, h1, -⟩ := h
  obtain ⟨m₂, h2, -⟩ := (C32_putVarint (nums := exVNums) (out := ⟨.heap 5, 0, 15, 15⟩) (m := exVMem)
    (.inl (by decide)) (by decide)).1 (by decide +kernel)
  exact ⟨_, m₁, _, m₂, h1, h2, by decide +kernel, by decide +kernel⟩

end SVB.Props
