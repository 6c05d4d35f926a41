import Verif.Proofs.Blocks
import Verif.Proofs.SnapAsm

/-! # What the block decoders touch -/

set_option autoImplicit false

namespace SVB
open Spec

theorem mk16_append (a b : Byte) : mk16 a b = b ++ a := by
  apply BitVec.eq_of_toNat_eq
  rw [mk16_toNat, BitVec.toNat_append, Nat.shiftLeft_eq, Nat.mul_comm b.toNat,
    ← Nat.two_pow_add_eq_or_of_lt (by have := a.isLt; omega)]
  omega

theorem getUint32_foot {inn : Bytes} {out : U32s} {m : Mem} {count : Int} {n : Nat} (hn : n = min count.toNat 4)
    (c : Byte) (hd : Disjoint inn out) : ∀ e ∈ trace (getUint32Scalar inn out c count) m,
      (Ctx.mk (inSlice inn) (inFirst out n) fun _ _ => True).allows e := by
  intro e he
  refine allows_mono ?_ ?_ ((run_of_wp' (getUint32_spec (csz c.toNat) (bd inn c.toNat m) 0 inn.off inn out c count m n hn
    (fun k _ => by rw [Nat.zero_add]; rfl) rfl (fun t _ _ _ => bd_dec _ _ _ t)
    fun q hq hq' => disj_read hd q hq ⟨hq'.1, hq'.2.1, ?_⟩)).2.2 e he)
  · rintro q ⟨h1, h2, h3⟩; exact ⟨h1, h2, by omega⟩
  · exact fun _ h => h
  · have := hq'.2.2; omega

theorem getUint32Delta_foot {inn : Bytes} {out : U32s} {m : Mem} {count : Int} {n : Nat} (hn : n = min count.toNat 4)
    (c : Byte) (prev : U32) (hd : Disjoint inn out) : ∀ e ∈ trace (getUint32DeltaScalar inn out c count prev) m,
      (Ctx.mk (inSlice inn) (inFirst out n) fun _ _ => True).allows e := by
  intro e he
  refine allows_mono ?_ ?_ ((run_of_wp' (getUint32Delta_spec (csz c.toNat) (bd inn c.toNat m)
    (ysum (bd inn c.toNat m) prev) 0 inn.off inn out c count prev m n hn
    (fun k _ => by rw [Nat.zero_add]; rfl) rfl (fun t _ _ _ => bd_dec _ _ _ t)
    (fun q hq hq' => disj_read hd q hq ⟨hq'.1, hq'.2.1, ?_⟩) (fun _ => ysum_zero' _ _)
    (fun k _ _ => ysum_succ' _ _ k))).2.2 e he)
  · rintro q ⟨h1, h2, h3⟩; exact ⟨h1, h2, by omega⟩
  · exact fun _ h => h
  · have := hq'.2.2; omega

/-- What a decoder of two groups may load: the bytes of `inn` and twelve bytes after the data. -/
def get8R (inn : Bytes) (c : U16) (q : Ptr) : Prop :=
  inSlice inn q ∨ inTables q ∨ q.blk = inn.blk ∧ inn.off ≤ q.off ∧ q.off < inn.off + psum (csz c.toNat) 8 + 12

private theorem get8_foot_fast {inn : Bytes} {c : U16} {q : Ptr}
    (h : Seg inn.blk (inn.off + psum (csz c.toNat) 0) (inn.off + psum (csz c.toNat) 0 + 16) q ∨
      Seg inn.blk (inn.off + psum (csz c.toNat) (0 + 4)) (inn.off + psum (csz c.toNat) (0 + 4) + 16) q ∨ inTables q) :
    get8R inn c q := by
  have b : ∀ k, 1 ≤ csz c.toNat k := fun k => (csz_bounds _ k).1
  have b0 := b 0; have b1 := b 1; have b2 := b 2; have b3 := b 3; have b4 := b 4; have b5 := b 5; have b6 := b 6; have b7 := b 7
  have e8 : psum (csz c.toNat) 8 = psum (csz c.toNat) 4 + csz c.toNat 4 + csz c.toNat 5 + csz c.toNat 6 + csz c.toNat 7 := rfl
  have e4 : psum (csz c.toNat) 4 = 0 + csz c.toNat 0 + csz c.toNat 1 + csz c.toNat 2 + csz c.toNat 3 := rfl
  rw [Nat.zero_add, psum_zero] at h
  rcases h with ⟨h1, h2, h3⟩ | ⟨h1, h2, h3⟩ | h
  · exact .inr (.inr ⟨h1, by omega, by omega⟩)
  · exact .inr (.inr ⟨h1, by omega, by omega⟩)
  · exact .inr (.inl h)

theorem get8_foot (f : Fn) {inn : Bytes} {out : U32s} {m : Mem} (c : U16) (h : BlockPre inn out m) :
    ∀ e ∈ trace (f.get8 inn out c) m, (Ctx.mk (get8R inn c) (inFirst out 8) fun _ _ => True).allows e := by
  have hs : ∀ e ∈ trace (get8uint32Scalar inn out c) m, (Ctx.mk (get8R inn c) (inFirst out 8) fun _ _ => True).allows e := by
    intro e he
    refine allows_mono ?_ ?_ ((run_of_wp' (get8_spec (csz c.toNat) (bd inn c.toNat m) 0 inn.off inn out c m h.tables h.heap
      (fun k _ => by rw [Nat.zero_add]; rfl) rfl (fun t _ _ _ => bd_dec _ _ _ t) (disj_read h.disj))).2.2 e he)
    · rintro q (⟨h1, h2, h3⟩ | h1)
      · exact .inl ⟨h1, h2, by omega⟩
      · exact .inr (.inl h1)
    · exact fun _ h => h
  have hf : ∀ e ∈ trace (get8uint32Fast inn out c) m, (Ctx.mk (get8R inn c) (inFirst out 8) fun _ _ => True).allows e := by
    intro e he
    refine allows_mono ?_ ?_ ((run_of_wp' (get8Fast_spec (csz c.toNat) (bd inn c.toNat m) 0 inn.off (inn.off + inn.len) inn out c
      m h.tables (fun k _ => by rw [Nat.zero_add]; rfl) rfl (fun t _ _ _ => bd_dec _ _ _ t))).2.2 e he)
    · exact fun q hq => get8_foot_fast hq
    · exact fun _ h => h
  cases f with
  | scalar => exact hs
  | fast => exact hf
  | auto u =>
    intro e he
    change e ∈ trace (get8uint32 u inn out c) m at he
    rcases get8uint32_cases u inn out c with h | h <;> rw [h] at he
    · exact hf e he
    · exact hs e he

theorem get8Delta_foot (f : Fn) {inn : Bytes} {out : U32s} {m : Mem} (c : U16) (prev : U32) (h : BlockPre inn out m) :
    ∀ e ∈ trace (f.get8Delta inn out c prev) m,
      (Ctx.mk (fun q => get8R inn c q ∨ inFirst out 8 q) (inFirst out 8) fun _ _ => True).allows e := by
  have hs : ∀ e ∈ trace (get8uint32DeltaScalar inn out c prev) m,
      (Ctx.mk (fun q => get8R inn c q ∨ inFirst out 8 q) (inFirst out 8) fun _ _ => True).allows e := by
    intro e he
    refine allows_mono ?_ ?_ ((run_of_wp' (get8Delta_spec (csz c.toNat) (bd inn c.toNat m) (ysum (bd inn c.toNat m) prev) 0
      inn.off inn out c prev m h.tables h.heap
      (fun k _ => by rw [Nat.zero_add]; rfl) rfl (fun t _ _ _ => bd_dec _ _ _ t) (disj_read h.disj)
      (ysum_zero' _ _) (fun k _ => ysum_succ' _ _ k))).2.2 e he)
    · rintro q (⟨h1, h2, h3⟩ | h1 | h1)
      · exact .inl (.inl ⟨h1, h2, by omega⟩)
      · exact .inl (.inr (.inl h1))
      · exact .inr h1
    · exact fun _ h => h
  have hf : ∀ e ∈ trace (get8uint32DeltaFast inn out c prev) m,
      (Ctx.mk (fun q => get8R inn c q ∨ inFirst out 8 q) (inFirst out 8) fun _ _ => True).allows e := by
    intro e he
    refine allows_mono ?_ ?_ ((run_of_wp' (get8DeltaFast_spec (csz c.toNat) (bd inn c.toNat m) (ysum (bd inn c.toNat m) prev) 0
      inn.off (inn.off + inn.len) inn out c prev m h.tables (fun k _ => by rw [Nat.zero_add]; rfl) rfl
      (fun t _ _ _ => bd_dec _ _ _ t) (fun _ => ysum_zero' _ _) (fun k _ => ysum_succ' _ _ k))).2.2 e he)
    · exact fun q hq => .inl (get8_foot_fast hq)
    · exact fun _ h => h
  cases f with
  | scalar => exact hs
  | fast => exact hf
  | auto u =>
    intro e he
    change e ∈ trace (get8uint32Delta u inn out c prev) m at he
    rcases get8uint32Delta_cases u inn out c prev with h | h <;> rw [h] at he
    · exact hf e he
    · exact hs e he

end SVB
