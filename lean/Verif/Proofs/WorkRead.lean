import Verif.Proofs.Work
import Verif.Proofs.SafeStream

/-! # Number of memory accesses of the readers, for every 64-bit count and arbitrary slices -/

set_option autoImplicit false

namespace SVB
open Spec

/-- `c` control bytes done; at least `K` accesses left for each of the remaining `N - c`, and `r` more. -/
def RInv (K N r : Nat) (k : Nat) (s : RSt) : Prop :=
  ∃ c : Nat, s.ctrlPos = c ∧ s.decoded = 4 * c ∧ c ≤ N ∧ K * N + r ≤ k + K * c

/-- The same without `decoded`. -/
def RInv' (K N : Nat) (k : Nat) (s : RSt) : Prop :=
  ∃ c : Nat, s.ctrlPos = c ∧ K * N ≤ k + K * c

theorem cost_readAllScalar {count : Int} (st : Bytes) (out : U32s) (h1 : -2 ^ 63 ≤ count)
    (h2 : count < 2 ^ 63) :
    Bd (fun _ _ => True) (38 * ((count.toNat + 3) / 4) + 33) (readAllScalar count st out) := by
  unfold readAllScalar
  simp only [Prog.pure_eq, Prog.bind_eq]
  rw [jump_val, show (16 - 1 : Int) = 15 by decide, andNot15 h1 h2, andNot3 h1 h2]
  refine Bd.bind (R := fun k s => RInv 38 ((count.toNat + 3) / 4) 33 k s)
    (Bd.loop (I := fun k s => RInv 38 ((count.toNat + 3) / 4) 33 k s ∧ s.decoded % 16 = 0) ?_
      (fun _ _ _ h => h.1) _ _ _ ⟨⟨0, rfl, rfl, by omega, by omega⟩, rfl⟩) fun k s hi => ?_
  · rintro k s hc ⟨⟨c, e1, e2, hN, hk⟩, h16⟩
    have hc := of_decide_eq_true hc
    obtain ⟨l, rfl⟩ : ∃ l, k = l + 152 := ⟨k - 152, by omega⟩
    unfold rsBody16
    simp only [Prog.pure_eq, Prog.bind_eq]
    repeat' bd_step3
    exact .ret ⟨⟨c + 4, by simp only [e1, jumpCtrl_val]; omega, by simp only [e2, jump_val]; omega, by omega,
      by omega⟩, by simp only [jump_val]; omega⟩
  refine Bd.bind (R := fun k s => RInv 38 ((count.toNat + 3) / 4) 33 k s)
    (Bd.loop (I := fun k s => RInv 38 ((count.toNat + 3) / 4) 33 k s) ?_ (fun _ _ _ h => h) _ _ _ hi) fun k s hi => ?_
  · rintro k s hc ⟨c, e1, e2, hN, hk⟩
    have hc := of_decide_eq_true hc
    obtain ⟨l, rfl⟩ : ∃ l, k = l + 38 := ⟨k - 38, by omega⟩
    unfold rsBody4
    simp only [Prog.pure_eq, Prog.bind_eq]
    repeat' bd_step3
    exact .ret ⟨c + 1, by simp only [e1]; omega, by simp only [e2]; omega, by omega, by omega⟩
  obtain ⟨c, e1, e2, hN, hk⟩ := hi
  split
  · obtain ⟨l, rfl⟩ : ∃ l, k = l + 33 := ⟨k - 33, by omega⟩
    repeat' bd_step3
  · exact bd_ret

theorem cost_readAllDeltaScalar {count : Int} (st : Bytes) (out : U32s) (prev : U32) (h1 : -2 ^ 63 ≤ count)
    (h2 : count < 2 ^ 63) :
    Bd (fun _ _ => True) (58 * ((count.toNat + 3) / 4) + 33) (readAllDeltaScalar count st out prev) := by
  unfold readAllDeltaScalar
  simp only [Prog.pure_eq, Prog.bind_eq]
  rw [jump_val, show (16 - 1 : Int) = 15 by decide, andNot15 h1 h2, andNot3 h1 h2]
  refine Bd.bind (R := fun k s => RInv 58 ((count.toNat + 3) / 4) 33 k s)
    (Bd.loop (I := fun k s => RInv 58 ((count.toNat + 3) / 4) 33 k s ∧ s.decoded % 16 = 0) ?_
      (fun _ _ _ h => h.1) _ _ _ ⟨⟨0, rfl, rfl, by omega, by omega⟩, rfl⟩) fun k s hi => ?_
  · rintro k s hc ⟨⟨c, e1, e2, hN, hk⟩, h16⟩
    have hc := of_decide_eq_true hc
    obtain ⟨l, rfl⟩ : ∃ l, k = l + 232 := ⟨k - 232, by omega⟩
    unfold rdsBody16
    simp only [Prog.pure_eq, Prog.bind_eq]
    repeat' bd_step3
    exact .ret ⟨⟨c + 4, by simp only [e1, jumpCtrl_val]; omega, by simp only [e2, jump_val]; omega, by omega,
      by omega⟩, by simp only [jump_val]; omega⟩
  refine Bd.bind (R := fun k s => RInv 58 ((count.toNat + 3) / 4) 33 k s)
    (Bd.loop (I := fun k s => RInv 58 ((count.toNat + 3) / 4) 33 k s) ?_ (fun _ _ _ h => h) _ _ _ hi) fun k s hi => ?_
  · rintro k s hc ⟨c, e1, e2, hN, hk⟩
    have hc := of_decide_eq_true hc
    obtain ⟨l, rfl⟩ : ∃ l, k = l + 58 := ⟨k - 58, by omega⟩
    unfold rdsBody4
    simp only [Prog.pure_eq, Prog.bind_eq]
    repeat' bd_step3
    exact .ret ⟨c + 1, by simp only [e1]; omega, by simp only [e2]; omega, by omega, by omega⟩
  obtain ⟨c, e1, e2, hN, hk⟩ := hi
  split
  · obtain ⟨l, rfl⟩ : ∃ l, k = l + 33 := ⟨k - 33, by omega⟩
    repeat' bd_step3
  · exact bd_ret

theorem low32_mod (c : Int) : lowest32Of c % 32 = 0 := by
  unfold lowest32Of
  have hb : ∀ x : Int, -2 ^ 63 ≤ int64 x ∧ int64 x < 2 ^ 63 := by
    intro x
    unfold int64
    have := BitVec.le_toInt (BitVec.ofInt 64 x)
    have := BitVec.toInt_lt (x := BitVec.ofInt 64 x)
    omega
  rw [andNot31 (hb _).1 (hb _).2]
  omega

/-- What the two loop bounds of the vectorised readers have to do with the count. -/
theorem hdr_cost {count : Int} (h1 : -2 ^ 63 ≤ count) (h2 : count < 2 ^ 63) :
    hdr count ≤ ((count.toNat + 3) / 4 : Nat) ∧
      (hdr count < 0 ∨ lowest32Of (hdr count) ≤ 4 * ((count.toNat + 3) / 4 : Nat) - 12) := by
  by_cases hc : count < 2 ^ 63 - 3
  · have hv := hdr_val h1 hc
    have hle : hdr count ≤ ((count.toNat + 3) / 4 : Nat) := by split at hv <;> omega
    refine ⟨hle, ?_⟩
    by_cases hn : hdr count < 0
    · exact .inl hn
    · obtain ⟨n, hn⟩ : ∃ n : Nat, hdr count = n := ⟨(hdr count).toNat, by omega⟩
      have := low32_le (n := n) (by omega)
      rw [hn]
      exact .inr (by omega)
  · have := hdr_ovf (by omega) h2
    exact ⟨by omega, .inl this⟩

theorem cost_readAllFast {count : Int} (st : Bytes) (out : U32s) (h1 : -2 ^ 63 ≤ count)
    (h2 : count < 2 ^ 63) :
    Bd (fun _ _ => True) (52 * ((count.toNat + 3) / 4)) (readAllFast count st out) := by
  obtain ⟨hle, hlow⟩ := hdr_cost h1 h2
  unfold readAllFast
  simp only [Prog.bind_eq]
  rw [show goDiv (int64 (count + 3)) 4 = hdr count from rfl]
  have hm : lowest32Of (hdr count) % 32 = 0 := low32_mod _
  generalize lowest32Of (hdr count) = low at hlow hm
  refine Bd.bind (R := RInv' 52 ((count.toNat + 3) / 4)) (Bd.loop (I := fun k s => RInv 52 ((count.toNat + 3) / 4) 0 k s ∧ s.decoded % 32 = 0 ∧
      (s.dataPos < 0 ∨ low ≤ 4 * ((count.toNat + 3) / 4 : Nat) - 12)) ?_
      (fun _ _ _ ⟨⟨c, e1, e2, _, hk⟩, _⟩ => ⟨c, e1, by omega⟩) _ _ _
      ⟨⟨0, rfl, rfl, by omega, by omega⟩, rfl, hlow⟩) fun k s hi => ?_
  · rintro k s hc ⟨⟨c, e1, e2, hN, hk⟩, h32, hd | hl⟩
    · unfold rfBody32 Slice.from
      rw [if_neg (by omega)]
      exact .panic
    have hc := of_decide_eq_true hc
    obtain ⟨l, rfl⟩ : ∃ l, k = l + 412 := ⟨k - 412, by omega⟩
    unfold rfBody32
    simp only [Prog.pure_eq, Prog.bind_eq]
    repeat' bd_step3
    exact .ret ⟨⟨c + 8, by simp only [e1]; omega, by simp only [e2]; omega, by omega, by omega⟩,
      by simp only; omega, .inr hl⟩
  refine Bd.bind (R := RInv' 52 ((count.toNat + 3) / 4)) (Bd.loop (I := RInv' 52 ((count.toNat + 3) / 4)) ?_
    (fun _ _ _ h => h) _ _ _ hi) fun k s hi => ?_
  · rintro k s hc ⟨c, e1, hk⟩
    have hc := of_decide_eq_true hc
    obtain ⟨l, rfl⟩ : ∃ l, k = l + 103 := ⟨k - 103, by omega⟩
    unfold rfBody8
    simp only [Prog.pure_eq, Prog.bind_eq]
    repeat' bd_step3
    exact .ret ⟨c + 2, by simp only [e1]; omega, by omega⟩
  refine Bd.bind (R := fun _ _ => True) (Bd.loop (I := RInv' 52 ((count.toNat + 3) / 4)) ?_
    (fun _ _ _ h => trivial) _ _ _ hi) fun k s hi => ?_
  · rintro k s hc ⟨c, e1, hk⟩
    have hc := of_decide_eq_true hc
    obtain ⟨l, rfl⟩ : ∃ l, k = l + 33 := ⟨k - 33, by omega⟩
    unfold rfBody1
    simp only [Prog.pure_eq, Prog.bind_eq]
    repeat' bd_step3
    exact .ret ⟨c + 1, by simp only [e1]; omega, by omega⟩
  exact bd_ret

theorem cost_readAllDeltaFast {count : Int} (st : Bytes) (out : U32s) (prev : U32) (h1 : -2 ^ 63 ≤ count)
    (h2 : count < 2 ^ 63) :
    Bd (fun _ _ => True) (54 * ((count.toNat + 3) / 4)) (readAllDeltaFast count st out prev) := by
  obtain ⟨hle, hlow⟩ := hdr_cost h1 h2
  unfold readAllDeltaFast
  simp only [Prog.bind_eq]
  rw [show goDiv (int64 (count + 3)) 4 = hdr count from rfl]
  have hm : lowest32Of (hdr count) % 32 = 0 := low32_mod _
  generalize lowest32Of (hdr count) = low at hlow hm
  refine Bd.bind (R := RInv' 54 ((count.toNat + 3) / 4)) (Bd.loop (I := fun k s => RInv 54 ((count.toNat + 3) / 4) 0 k s ∧ s.decoded % 32 = 0 ∧
      (s.dataPos < 0 ∨ low ≤ 4 * ((count.toNat + 3) / 4 : Nat) - 12)) ?_
      (fun _ _ _ ⟨⟨c, e1, e2, _, hk⟩, _⟩ => ⟨c, e1, by omega⟩) _ _ _
      ⟨⟨0, rfl, rfl, by omega, by omega⟩, rfl, hlow⟩) fun k s hi => ?_
  · rintro k s hc ⟨⟨c, e1, e2, hN, hk⟩, h32, hd | hl⟩
    · unfold rdfBody32 Slice.from
      rw [if_neg (by omega)]
      exact .panic
    have hc := of_decide_eq_true hc
    obtain ⟨l, rfl⟩ : ∃ l, k = l + 428 := ⟨k - 428, by omega⟩
    unfold rdfBody32
    simp only [Prog.pure_eq, Prog.bind_eq]
    repeat' bd_step3
    exact .ret ⟨⟨c + 8, by simp only [e1]; omega, by simp only [e2]; omega, by omega, by omega⟩,
      by simp only; omega, .inr hl⟩
  refine Bd.bind (R := RInv' 54 ((count.toNat + 3) / 4)) (Bd.loop (I := RInv' 54 ((count.toNat + 3) / 4)) ?_
    (fun _ _ _ h => h) _ _ _ hi) fun k s hi => ?_
  · rintro k s hc ⟨c, e1, hk⟩
    have hc := of_decide_eq_true hc
    obtain ⟨l, rfl⟩ : ∃ l, k = l + 107 := ⟨k - 107, by omega⟩
    unfold rdfBody8
    simp only [Prog.pure_eq, Prog.bind_eq]
    repeat' bd_step3
    exact .ret ⟨c + 2, by simp only [e1]; omega, by omega⟩
  refine Bd.bind (R := fun _ _ => True) (Bd.loop (I := RInv' 54 ((count.toNat + 3) / 4)) ?_
    (fun _ _ _ h => trivial) _ _ _ hi) fun k s hi => ?_
  · rintro k s hc ⟨c, e1, hk⟩
    have hc := of_decide_eq_true hc
    obtain ⟨l, rfl⟩ : ∃ l, k = l + 37 := ⟨k - 37, by omega⟩
    unfold rdfBody1
    simp only [Prog.pure_eq, Prog.bind_eq]
    repeat' bd_step3
    exact .ret ⟨c + 1, by simp only [e1]; omega, by omega⟩
  exact bd_ret

/-! ## Varints -/

theorem cost_putUvarint (buf : Bytes) (x : U64) : Bd (fun _ _ => True) 10 (putUvarint buf x) := by
  unfold putUvarint
  simp only [Prog.pure_eq, Prog.bind_eq]
  -- the fuel bounds the number of iterations
  have hl : ∀ fuel k s, Bd (fun l _ => k ≤ l) (k + fuel)
      (loop fuel (fun s : U64 × Int => decide (0x80 ≤ s.1.toNat))
        (fun s => (setB buf s.2 (s.1.setWidth 8 ||| 0x80)).bind fun _ => Prog.ret (s.1 >>> 7, s.2 + 1)) s) := by
    intro fuel
    induction fuel with
    | zero => intro k s; unfold SVB.loop; split <;> first | exact .panic | exact .ret (Nat.le_refl _)
    | succ n ih =>
      intro k s
      unfold SVB.loop
      split
      · simp only [Prog.bind_eq, Prog.bind_assoc, ← Nat.add_assoc]
        exact bd_setB (ih k _)
      · exact .ret (by omega)
  refine Bd.bind (hl 9 1 (x, 0)) fun l s hs => ?_
  obtain ⟨k, rfl⟩ : ∃ k, l = k + 1 := ⟨l - 1, by omega⟩
  exact bd_setB bd_ret

theorem cost_uvarintLoop (buf : Bytes) (r : Nat) : ∀ (i : Nat) (x : U64) (s j : Nat), i + j = 10 →
    Bd (fun _ _ => True) (j + 1) (uvarintLoop buf r i x s) := by
  induction r with
  | zero => intros; exact bd_ret
  | succ r ih =>
    intro i x s j hj
    unfold uvarintLoop
    simp only [Prog.pure_eq, Prog.bind_eq]
    refine bd_getB fun b => ?_
    split
    · exact bd_ret
    · split
      · split <;> exact bd_ret
      · obtain ⟨j, rfl⟩ : ∃ l, j = l + 1 := ⟨j - 1, by omega⟩
        exact ih _ _ _ j (by omega)

theorem cost_uvarint (buf : Bytes) : Bd (fun _ _ => True) 11 (uvarint buf) :=
  cost_uvarintLoop buf _ 0 0 0 10 rfl

/-- A loop whose iterations cost at most `c` each. -/
theorem cost_loop {σ : Type} {cond : σ → Bool} {body : σ → Prog σ} {c : Nat}
    (h : ∀ s, Bd (fun _ _ => True) c (body s)) : ∀ fuel s, Bd (fun _ _ => True) (c * fuel) (loop fuel cond body s) := by
  intro fuel
  induction fuel with
  | zero => intro s; unfold SVB.loop; split <;> first | exact .panic | exact bd_ret
  | succ n ih =>
    intro s
    unfold SVB.loop
    split
    · rw [Nat.mul_succ]; exact bd_call c (h s) fun s' => ih s'
    · exact bd_ret

macro "bd_step4" : tactic => `(tactic| first
  | with_reducible refine bd_call 10 (cost_putUvarint _ _) fun _ => ?_
  | with_reducible refine bd_call 11 (cost_uvarint _) fun _ => ?_
  | bd_step)

theorem cost_putVarint (nums : U32s) (out : Bytes) : Bd (fun _ _ => True) (14 * nums.len) (putVarint nums out) := by
  unfold putVarint
  refine (cost_loop (c := 14) (fun s => ?_) _ _).bind fun _ _ _ => bd_ret
  simp only [Prog.pure_eq, Prog.bind_eq]
  repeat' bd_step4

theorem cost_putDeltaVarint (nums : U32s) (out : Bytes) (prev : U32) :
    Bd (fun _ _ => True) (18 * nums.len) (putDeltaVarint nums out prev) := by
  unfold putDeltaVarint
  refine (cost_loop (c := 18) (fun s => ?_) _ _).bind fun _ _ _ => bd_ret
  simp only [Prog.pure_eq, Prog.bind_eq]
  repeat' bd_step4

theorem cost_getVarint (data : Bytes) (out : U32s) :
    Bd (fun _ _ => True) (15 * (out.len + 1)) (getVarint data out) := by
  unfold getVarint
  refine (cost_loop (c := 15) (fun s => ?_) _ _).bind fun _ _ _ => bd_ret
  simp only [Prog.pure_eq, Prog.bind_eq]
  repeat' bd_step4

theorem cost_getDeltaVarint (data : Bytes) (out : U32s) (prev : U32) :
    Bd (fun _ _ => True) (15 * (out.len + 1)) (getDeltaVarint data out prev) := by
  unfold getDeltaVarint
  refine (cost_loop (c := 15) (fun s => ?_) _ _).bind fun _ _ _ => bd_ret
  simp only [Prog.pure_eq, Prog.bind_eq]
  repeat' bd_step4

theorem cost_utilDelta (inn out : U32s) : Bd (fun _ _ => True) (12 * inn.len) (utilDelta inn out) := by
  unfold utilDelta
  refine (cost_loop (c := 12) (fun s => ?_) _ _).bind fun _ _ _ => bd_ret
  simp only [Prog.pure_eq, Prog.bind_eq]
  repeat' first | split | bd_step4

end SVB
