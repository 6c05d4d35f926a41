import Verif.Model.Word32
import Verif.Proofs.GoTac
import Verif.Proofs.GoWriter
import Verif.Proofs.SafeStream
import Verif.Proofs.Results

/-! # Where `int` has 32 bits, the scalar stream functions do what they do with 64 bits -/

set_option autoImplicit false
set_option linter.unusedSimpArgs false

namespace SVB.Word32
open Prog

theorem int32_eq {x : Int} (h1 : -2 ^ 31 ≤ x) (h2 : x < 2 ^ 31) : int32 x = x := by
  unfold int32
  rw [BitVec.toInt_ofInt]
  exact Int.bmod_eq_of_le (by simpa using h1) (by simp only [Nat.reducePow]; omega)

theorem int32_wrap {x : Int} (h1 : 2 ^ 31 ≤ x) (h2 : x < 3 * 2 ^ 31) : int32 x = x - 2 ^ 32 := by
  unfold int32
  rw [BitVec.toInt_ofInt, ← Int.sub_bmod_right]
  exact Int.bmod_eq_of_le (by simp only [Nat.reducePow]; omega) (by simp only [Nat.reducePow]; omega)

theorem ofInt32_toNat {x : Int} (h1 : -2 ^ 31 ≤ x) (h2 : x < 2 ^ 31) :
    ((BitVec.ofInt 32 x).toNat : Int) = if 0 ≤ x then x else x + 2 ^ 32 := by
  rw [BitVec.toNat_ofInt]
  simp only [Nat.reducePow] at *
  split <;> omega

theorem andNot32_bits (a : BitVec 32) (k : Nat) :
    a &&& ~~~ BitVec.ofNat 32 (2 ^ k - 1) = (a >>> k) <<< k := by
  apply BitVec.eq_of_getLsbD_eq
  intro i hi
  have : (BitVec.ofNat 32 (2 ^ k - 1)).getLsbD i = decide (i < k) := by
    rw [BitVec.getLsbD_ofNat, Nat.testBit_two_pow_sub_one]
    simp [hi]
  simp only [BitVec.getLsbD_and, BitVec.getLsbD_not, this, BitVec.getLsbD_shiftLeft,
    BitVec.getLsbD_ushiftRight, hi]
  by_cases h : i < k
  · simp [h]
  · simp [h, show k + (i - k) = i by omega]

theorem andNot32_toNat (x : Int) (k : Nat) :
    (BitVec.ofInt 32 x &&& ~~~ BitVec.ofNat 32 (2 ^ k - 1)).toNat =
      (BitVec.ofInt 32 x).toNat / 2 ^ k * 2 ^ k := by
  rw [andNot32_bits _ k, BitVec.toNat_shiftLeft, BitVec.toNat_ushiftRight, Nat.shiftRight_eq_div_pow,
    Nat.shiftLeft_eq, Nat.mod_eq_of_lt]
  have := (BitVec.ofInt 32 x).isLt
  exact Nat.lt_of_le_of_lt (Nat.div_mul_le_self _ _) this

theorem andNot32_3 {x : Int} (h1 : -2 ^ 31 ≤ x) (h2 : x < 2 ^ 31) : andNot32 x 3 = x - x % 4 := by
  have h := andNot32_toNat x 2
  have ho := ofInt32_toNat h1 h2
  unfold andNot32
  rw [show BitVec.ofInt 32 3 = BitVec.ofNat 32 (2 ^ 2 - 1) from rfl, BitVec.toInt_eq_toNat_cond, h]
  simp only [Nat.reducePow] at *
  split at ho <;> split <;> omega

theorem andNot32_15 {x : Int} (h1 : -2 ^ 31 ≤ x) (h2 : x < 2 ^ 31) : andNot32 x (jump - 1) = x - x % 16 := by
  have h := andNot32_toNat x 4
  have ho := ofInt32_toNat h1 h2
  unfold andNot32
  rw [show BitVec.ofInt 32 (jump - 1) = BitVec.ofNat 32 (2 ^ 4 - 1) from rfl, BitVec.toInt_eq_toNat_cond, h]
  simp only [Nat.reducePow] at *
  split at ho <;> split <;> omega

/-- A slice shorter than 2³¹ cannot be cut at an index that does not fit 32 bits, wrapped or not. -/
theorem from_int32 {e : Nat} {s : Slice e} (hs : s.len < 2 ^ 31) {d : Int} (h1 : -2 ^ 31 ≤ d) (h2 : d < 2 ^ 32) :
    s.from (int32 d) = s.from d := by
  by_cases h : d < 2 ^ 31
  · rw [int32_eq h1 h]
  · rw [int32_wrap (by omega) (by omega)]
    unfold Slice.from
    rw [if_neg (by omega), if_neg (by omega)]

theorem range_int32 {e : Nat} {s : Slice e} (hs : s.cap < 2 ^ 31) {d : Int} (h1 : -2 ^ 31 ≤ d) (h2 : d < 2 ^ 32) :
    s.range 0 (int32 d) = s.range 0 d := by
  by_cases h : d < 2 ^ 31
  · rw [int32_eq h1 h]
  · rw [int32_wrap (by omega) (by omega)]
    unfold Slice.range
    rw [if_neg (by omega), if_neg (by omega)]

theorem loop_step {σ β : Type} (enc : σ → σ) (Inv : σ → Prop) (cond : σ → Bool) (body body' : σ → Prog σ)
    (hc : ∀ s, cond (enc s) = cond s)
    (hb : ∀ s, Inv s → cond s = true → ∀ K K' : σ → Prog β, (∀ s', Inv s' → K (enc s') = K' s') →
      (body' (enc s)).bind K = (body s).bind K') :
    ∀ (fuel : Nat) (s : σ), Inv s → ∀ K K' : σ → Prog β, (∀ s', Inv s' → cond s' = false → K (enc s') = K' s') →
      (loop fuel cond body' (enc s)).bind K = (loop fuel cond body s).bind K' := by
  intro fuel
  induction fuel with
  | zero =>
    intro s hs K K' h
    unfold loop
    rw [hc]
    split
    · rfl
    · next hf => exact h s hs (by simpa using hf)
  | succ n ih =>
    intro s hs K K' h
    unfold loop
    rw [hc]
    split
    · next ht =>
      simp only [bind_eq, bind_assoc]
      exact hb s hs ht _ _ fun s' hs' => ih s' hs' K K' h
    · next hf => exact h s hs (by simpa using hf)

/-- Remove the wrap-around where the bounds in the context exclude it. -/
macro "w_int" : tactic => `(tactic| try conv => lhs; simp (disch := omega) only [int32_eq])

/-- Match the steps of the two programs. -/
macro "w_peel" : tactic => `(tactic| repeat (go_peel; w_int))

/-! ## The readers -/

/-- The state of a reader as 32-bit variables. -/
def encR (s : RSt) : RSt := { s with dataPos := int32 s.dataPos }

/-- What holds before every iteration of the loops of the readers. -/
def invR (count : Int) (s : RSt) : Prop :=
  0 ≤ s.decoded ∧ (s.decoded = 0 ∨ s.decoded ≤ count) ∧ 4 * s.ctrlPos = s.decoded ∧ -2 ^ 31 ≤ s.dataPos ∧ s.dataPos < 2 ^ 32

theorem readAllScalar_eq {count : Int} {stream : Bytes} (out : U32s) (hc1 : -2 ^ 31 ≤ count) (hc2 : count < 2 ^ 31 - 3)
    (hs : stream.len < 2 ^ 31) : readAllScalar count stream out = SVB.readAllScalar count stream out := by
  unfold readAllScalar SVB.readAllScalar
  simp only [bind_eq, pure_eq]
  rw [andNot32_15 hc1 (by omega), andNot32_3 hc1 (by omega), int32_eq (x := count + 3) (by omega) (by omega),
    int64_eq (x := count + 3) (by omega) (by omega), jump_val, show (16 - 1 : Int) = 15 from rfl,
    andNot15 (by omega) (by omega), andNot3 (by omega) (by omega),
    int32_eq (x := count - (count - count % 4)) (by omega) (by omega),
    int64_eq (x := count - (count - count % 4)) (by omega) (by omega)]
  obtain ⟨cl, hcl, hcl1, hcl2⟩ : ∃ cl : Int, goDiv (count + 3) 4 = cl ∧ -2 ^ 30 ≤ cl ∧ cl < 2 ^ 30 := by
    refine ⟨_, rfl, ?_⟩
    rw [goDiv4]
    split <;> omega
  rw [hcl]
  have he : ({ decoded := 0, dataPos := cl, ctrlPos := 0, prev := 0 } : RSt) =
      encR { decoded := 0, dataPos := cl, ctrlPos := 0, prev := 0 } := by
    unfold encR; rw [int32_eq (x := cl) (by omega) (by omega)]
  conv => lhs; rw [he]
  refine loop_step encR (fun s => invR count s ∧ s.decoded % 16 = 0) _ _ _ (fun _ => rfl) ?_ _ _ ?_ _ _ ?_
  · intro s hi hc K K' h
    have hc := of_decide_eq_true hc
    unfold invR at hi
    unfold rsBody16 SVB.rsBody16 encR
    simp only [bind_eq, pure_eq, jump_val, jumpCtrl_val]
    rw [from_int32 hs (by omega) (by omega)]
    w_peel
    refine Eq.trans ?_ (h _ ?_)
    · unfold encR
      rw [ret_bind]
    · unfold invR
      simp only []
      omega
  · exact ⟨⟨Int.le_refl _, .inl rfl, rfl, by dsimp only; omega, by dsimp only; omega⟩, rfl⟩
  · intro s hi hc
    have hc := of_decide_eq_false hc
    refine loop_step encR (fun s => invR count s) _ _ _ (fun _ => rfl) ?_ _ _ hi.1 _ _ ?_
    · intro s hi hc K K' h
      have hc := of_decide_eq_true hc
      unfold invR at hi
      unfold rsBody4 SVB.rsBody4 encR
      simp only [bind_eq, pure_eq]
      rw [from_int32 hs (by omega) (by omega)]
      w_peel
      refine Eq.trans ?_ (h _ ?_)
      · unfold encR
        rw [ret_bind]
      · unfold invR
        simp only []
        omega
    · intro s hi hc
      unfold invR at hi
      unfold encR
      simp only [from_int32 hs hi.2.2.2.1 hi.2.2.2.2]

theorem readAllDeltaScalar_eq {count : Int} {stream : Bytes} (out : U32s) (prev : U32) (hc1 : -2 ^ 31 ≤ count) (hc2 : count < 2 ^ 31 - 3)
    (hs : stream.len < 2 ^ 31) : readAllDeltaScalar count stream out prev = SVB.readAllDeltaScalar count stream out prev := by
  unfold readAllDeltaScalar SVB.readAllDeltaScalar
  simp only [bind_eq, pure_eq]
  rw [andNot32_15 hc1 (by omega), andNot32_3 hc1 (by omega), int32_eq (x := count + 3) (by omega) (by omega),
    int64_eq (x := count + 3) (by omega) (by omega), jump_val, show (16 - 1 : Int) = 15 from rfl,
    andNot15 (by omega) (by omega), andNot3 (by omega) (by omega),
    int32_eq (x := count - (count - count % 4)) (by omega) (by omega),
    int64_eq (x := count - (count - count % 4)) (by omega) (by omega)]
  obtain ⟨cl, hcl, hcl1, hcl2⟩ : ∃ cl : Int, goDiv (count + 3) 4 = cl ∧ -2 ^ 30 ≤ cl ∧ cl < 2 ^ 30 := by
    refine ⟨_, rfl, ?_⟩
    rw [goDiv4]
    split <;> omega
  rw [hcl]
  have he : ({ decoded := 0, dataPos := cl, ctrlPos := 0, prev := prev } : RSt) =
      encR { decoded := 0, dataPos := cl, ctrlPos := 0, prev := prev } := by
    unfold encR; rw [int32_eq (x := cl) (by omega) (by omega)]
  conv => lhs; rw [he]
  refine loop_step encR (fun s => invR count s ∧ s.decoded % 16 = 0) _ _ _ (fun _ => rfl) ?_ _ _ ?_ _ _ ?_
  · intro s hi hc K K' h
    have hc := of_decide_eq_true hc
    unfold invR at hi
    unfold rdsBody16 SVB.rdsBody16 encR
    simp only [bind_eq, pure_eq, jump_val, jumpCtrl_val]
    rw [from_int32 hs (by omega) (by omega)]
    w_peel
    refine Eq.trans ?_ (h _ ?_)
    · unfold encR
      rw [ret_bind]
    · unfold invR
      simp only []
      omega
  · exact ⟨⟨Int.le_refl _, .inl rfl, rfl, by dsimp only; omega, by dsimp only; omega⟩, rfl⟩
  · intro s hi hc
    have hc := of_decide_eq_false hc
    refine loop_step encR (fun s => invR count s) _ _ _ (fun _ => rfl) ?_ _ _ hi.1 _ _ ?_
    · intro s hi hc K K' h
      have hc := of_decide_eq_true hc
      unfold invR at hi
      unfold rdsBody4 SVB.rdsBody4 encR
      simp only [bind_eq, pure_eq]
      rw [from_int32 hs (by omega) (by omega)]
      w_peel
      refine Eq.trans ?_ (h _ ?_)
      · unfold encR
        rw [ret_bind]
      · unfold invR
        simp only []
        omega
    · intro s hi hc
      unfold invR at hi
      unfold encR
      simp only [from_int32 hs hi.2.2.2.1 hi.2.2.2.2]

/-- The three largest 32-bit counts: the length of the control section wraps, the first slice expression panics. -/
theorem readAllScalar_ovf {count : Int} (stream : Bytes) (out : U32s) (hc1 : 2 ^ 31 - 3 ≤ count) (hc2 : count < 2 ^ 31) :
    readAllScalar count stream out = .panic .slice := by
  unfold readAllScalar
  simp only [bind_eq, pure_eq]
  rw [andNot32_15 (by omega) (by omega), int32_wrap (x := count + 3) (by omega) (by omega)]
  unfold loop
  rw [if_pos (by simp only [decide_eq_true_eq]; omega)]
  unfold rsBody16
  simp only [bind_eq, pure_eq]
  rw [show ∀ d : Int, d < 0 → stream.from d = .panic .slice from fun d h => by unfold Slice.from; rw [if_neg (by omega)]]
  · rfl
  · rw [goDiv4]
    split <;> omega

theorem readAllDeltaScalar_ovf {count : Int} (stream : Bytes) (out : U32s) (prev : U32) (hc1 : 2 ^ 31 - 3 ≤ count) (hc2 : count < 2 ^ 31) :
    readAllDeltaScalar count stream out prev = .panic .slice := by
  unfold readAllDeltaScalar
  simp only [bind_eq, pure_eq]
  rw [andNot32_15 (by omega) (by omega), int32_wrap (x := count + 3) (by omega) (by omega)]
  unfold loop
  rw [if_pos (by simp only [decide_eq_true_eq]; omega)]
  unfold rdsBody16
  simp only [bind_eq, pure_eq]
  rw [show ∀ d : Int, d < 0 → stream.from d = .panic .slice from fun d h => by unfold Slice.from; rw [if_neg (by omega)]]
  · rfl
  · rw [goDiv4]
    split <;> omega

/-! ## The writers -/

/-- The state of a writer as 32-bit variables. -/
def encW (s : WSt) : WSt := { s with dataPos := int32 s.dataPos }

/-- What holds before every iteration of the loops of the writers. -/
def invW (count : Int) (s : WSt) : Prop :=
  0 ≤ s.encoded ∧ s.encoded ≤ count ∧ 4 * s.ctrlPos = s.encoded ∧ -2 ^ 31 ≤ s.dataPos ∧ s.dataPos < 2 ^ 32 - 255

theorem hdr32 {n : Nat} (h : n < 2 ^ 30) : ∃ cl : Int, goDiv (int32 ((n : Int) + 3)) 4 = cl ∧
    goDiv (int64 ((n : Int) + 3)) 4 = cl ∧ 4 * cl ≤ n + 3 ∧ n ≤ 4 * cl := by
  rw [int32_eq (by omega) (by omega), int64_eq (by omega) (by omega)]
  refine ⟨_, rfl, rfl, ?_⟩
  rw [goDiv4]
  split <;> omega

theorem writeAllScalar_eq (fresh : Block) (inn : U32s)
    (hsz : (inn.len + 3) / 4 + 4 * inn.len < 2 ^ 31) :
    writeAllScalar fresh inn = SVB.writeAllScalar fresh inn := by
  unfold writeAllScalar SVB.writeAllScalar
  simp only [bind_eq, pure_eq]
  obtain ⟨cl, hcl, hcl', hcl1, hcl2⟩ := hdr32 (n := inn.len) (by omega)
  rw [hcl, hcl', andNot32_15 (by omega) (by omega), andNot32_3 (by omega) (by omega), jump_val, show (16 - 1 : Int) = 15 from rfl,
    andNot15 (by omega) (by omega), andNot3 (by omega) (by omega)]
  unfold maxBytesPerNum
  rw [int32_eq (x := 4 * (inn.len : Int)) (by omega) (by omega), int64_eq (x := 4 * (inn.len : Int)) (by omega) (by omega),
    int32_eq (x := cl + 4 * (inn.len : Int)) (by omega) (by omega), int64_eq (x := cl + 4 * (inn.len : Int)) (by omega) (by omega)]
  refine bind_congr' (Go.leaves_makeBytes _ _) fun stream hst => ?_
  have hs : stream.len < 2 ^ 31 := by omega
  have hs' : stream.cap < 2 ^ 31 := by omega
  have he : ({ encoded := 0, dataPos := cl, ctrlPos := 0, prev := 0 } : WSt) =
      encW { encoded := 0, dataPos := cl, ctrlPos := 0, prev := 0 } := by
    unfold encW; rw [int32_eq (x := cl) (by omega) (by omega)]
  conv => lhs; rw [he]
  refine loop_step encW (fun s => invW inn.len s ∧ s.encoded % 16 = 0) _ _ _ (fun _ => rfl) ?_ _ _ ?_ _ _ ?_
  · intro s hi hc K K' h
    have hc := of_decide_eq_true hc
    unfold invW at hi
    unfold wsBody16 SVB.wsBody16 encW
    simp only [bind_eq, pure_eq, jump_val, jumpCtrl_val]
    rw [from_int32 hs (by omega) (by omega)]
    w_int
    w_peel
    refine Eq.trans ?_ (h _ ?_)
    · unfold encW
      rw [ret_bind]
    · unfold invW
      simp only []
      omega
  · exact ⟨⟨Int.le_refl _, by dsimp only; omega, rfl, by dsimp only; omega, by dsimp only; omega⟩, rfl⟩
  · intro s hi hc
    have hc := of_decide_eq_false hc
    refine loop_step encW (fun s => invW inn.len s) _ _ _ (fun _ => rfl) ?_ _ _ hi.1 _ _ ?_
    · intro s hi hc K K' h
      have hc := of_decide_eq_true hc
      unfold invW at hi
      unfold wsBody4 SVB.wsBody4 encW
      simp only [bind_eq, pure_eq]
      rw [from_int32 hs (by omega) (by omega)]
      w_peel
      refine Eq.trans ?_ (h _ ?_)
      · unfold encW
        rw [ret_bind]
      · unfold invW
        simp only []
        omega
    · intro s hi hc
      unfold invW at hi
      unfold encW
      simp only [from_int32 hs hi.2.2.2.1 (by omega : s.dataPos < 2 ^ 32), range_int32 hs' hi.2.2.2.1 (by omega : s.dataPos < 2 ^ 32)]
      split
      · w_int
        w_peel
        rw [range_int32 hs' (by omega) (by omega)]
      · rfl

theorem writeAllDeltaScalar_eq (fresh : Block) (inn : U32s) (prev : U32)
    (hsz : (inn.len + 3) / 4 + 4 * inn.len < 2 ^ 31) :
    writeAllDeltaScalar fresh inn prev = SVB.writeAllDeltaScalar fresh inn prev := by
  unfold writeAllDeltaScalar SVB.writeAllDeltaScalar
  simp only [bind_eq, pure_eq]
  obtain ⟨cl, hcl, hcl', hcl1, hcl2⟩ := hdr32 (n := inn.len) (by omega)
  rw [hcl, hcl', andNot32_15 (by omega) (by omega), andNot32_3 (by omega) (by omega), jump_val, show (16 - 1 : Int) = 15 from rfl,
    andNot15 (by omega) (by omega), andNot3 (by omega) (by omega)]
  unfold maxBytesPerNum
  rw [int32_eq (x := 4 * (inn.len : Int)) (by omega) (by omega), int64_eq (x := 4 * (inn.len : Int)) (by omega) (by omega),
    int32_eq (x := cl + 4 * (inn.len : Int)) (by omega) (by omega), int64_eq (x := cl + 4 * (inn.len : Int)) (by omega) (by omega)]
  refine bind_congr' (Go.leaves_makeBytes _ _) fun stream hst => ?_
  have hs : stream.len < 2 ^ 31 := by omega
  have hs' : stream.cap < 2 ^ 31 := by omega
  have he : ({ encoded := 0, dataPos := cl, ctrlPos := 0, prev := prev } : WSt) =
      encW { encoded := 0, dataPos := cl, ctrlPos := 0, prev := prev } := by
    unfold encW; rw [int32_eq (x := cl) (by omega) (by omega)]
  conv => lhs; rw [he]
  refine loop_step encW (fun s => invW inn.len s ∧ s.encoded % 16 = 0) _ _ _ (fun _ => rfl) ?_ _ _ ?_ _ _ ?_
  · intro s hi hc K K' h
    have hc := of_decide_eq_true hc
    unfold invW at hi
    unfold wdsBody16 SVB.wdsBody16 encW
    simp only [bind_eq, pure_eq, jump_val, jumpCtrl_val]
    rw [from_int32 hs (by omega) (by omega)]
    w_int
    w_peel
    refine Eq.trans ?_ (h _ ?_)
    · unfold encW
      rw [ret_bind]
    · unfold invW
      simp only []
      omega
  · exact ⟨⟨Int.le_refl _, by dsimp only; omega, rfl, by dsimp only; omega, by dsimp only; omega⟩, rfl⟩
  · intro s hi hc
    have hc := of_decide_eq_false hc
    refine loop_step encW (fun s => invW inn.len s) _ _ _ (fun _ => rfl) ?_ _ _ hi.1 _ _ ?_
    · intro s hi hc K K' h
      have hc := of_decide_eq_true hc
      unfold invW at hi
      unfold wdsBody4 SVB.wdsBody4 encW
      simp only [bind_eq, pure_eq]
      rw [from_int32 hs (by omega) (by omega)]
      w_peel
      refine Eq.trans ?_ (h _ ?_)
      · unfold encW
        rw [ret_bind]
      · unfold invW
        simp only []
        omega
    · intro s hi hc
      unfold invW at hi
      unfold encW
      simp only [from_int32 hs hi.2.2.2.1 (by omega : s.dataPos < 2 ^ 32), range_int32 hs' hi.2.2.2.1 (by omega : s.dataPos < 2 ^ 32)]
      split
      · w_int
        w_peel
        rw [range_int32 hs' (by omega) (by omega)]
      · rfl

theorem run_zeroFill (n : Nat) : ∀ (p : Ptr) (m : Mem), ∃ m', run (zeroFill p n) m = (.ok (), m') := by
  induction n with
  | zero => exact fun p m => ⟨m, rfl⟩
  | succ n ih => exact fun p m => ih _ _

/-- Longer inputs: the size of the buffer wraps to a negative number or to one below the size of the control section. -/
theorem writeAllScalar_ovf (fresh : Block) (inn : U32s) (hi : inn.len ≤ inn.cap) (hn : inn.len < 2 ^ 30)
    (hsz : 2 ^ 31 ≤ (inn.len + 3) / 4 + 4 * inn.len) (m : Mem) :
    ∃ m', run (writeAllScalar fresh inn) m = (.panic .slice, m') := by
  unfold writeAllScalar
  simp only [bind_eq, pure_eq]
  obtain ⟨cl, hcl, hcl', hcl1, hcl2⟩ := hdr32 hn
  rw [hcl, andNot32_15 (by omega) (by omega), andNot32_3 (by omega) (by omega)]
  unfold maxBytesPerNum
  obtain ⟨sz, hsz', h1⟩ : ∃ sz : Int, int32 (cl + int32 (4 * (inn.len : Int))) = sz ∧ sz < cl := by
    refine ⟨_, rfl, ?_⟩
    by_cases h : 4 * (inn.len : Int) < 2 ^ 31
    · rw [int32_eq (x := 4 * (inn.len : Int)) (by omega) h, int32_wrap (by omega) (by omega)]
      omega
    · rw [int32_wrap (x := 4 * (inn.len : Int)) (by omega) (by omega), int32_eq (by omega) (by omega)]
      omega
  rw [hsz', run_bind]
  by_cases h0 : 0 ≤ sz
  · obtain ⟨m₁, e⟩ : ∃ m₁, run (makeBytes fresh sz) m = (.ok ⟨fresh, 0, sz.toNat, sz.toNat⟩, m₁) := by
      unfold makeBytes
      rw [if_pos h0]
      obtain ⟨m₁, e⟩ := run_zeroFill sz.toNat ⟨fresh, 0⟩ m
      exact ⟨m₁, by rw [bind_eq, run_bind, e]; rfl⟩
    rw [e]
    refine ⟨m₁, ?_⟩
    simp only []
    obtain ⟨k, hk⟩ : ∃ k, inn.len = k + 1 := ⟨inn.len - 1, by omega⟩
    rw [show ∀ c (b : WSt → Prog WSt) s, loop inn.len c b s = loop (k + 1) c b s from fun c b s => by rw [hk]]
    unfold loop
    rw [if_pos (by simp only [decide_eq_true_eq]; omega)]
    unfold wsBody16 Slice.range Slice.from
    simp only [bind_eq, pure_eq, jump_val, jumpCtrl_val, Int.zero_add]
    rw [int32_eq (x := 16) (by omega) (by omega), if_pos (by omega), ret_bind, if_neg (by omega)]
    rfl
  · unfold makeBytes
    rw [if_neg h0]
    exact ⟨m, rfl⟩

theorem writeAllDeltaScalar_ovf (fresh : Block) (inn : U32s) (prev : U32) (hi : inn.len ≤ inn.cap) (hn : inn.len < 2 ^ 30)
    (hsz : 2 ^ 31 ≤ (inn.len + 3) / 4 + 4 * inn.len) (m : Mem) :
    ∃ m', run (writeAllDeltaScalar fresh inn prev) m = (.panic .slice, m') := by
  unfold writeAllDeltaScalar
  simp only [bind_eq, pure_eq]
  obtain ⟨cl, hcl, hcl', hcl1, hcl2⟩ := hdr32 hn
  rw [hcl, andNot32_15 (by omega) (by omega), andNot32_3 (by omega) (by omega)]
  unfold maxBytesPerNum
  obtain ⟨sz, hsz', h1⟩ : ∃ sz : Int, int32 (cl + int32 (4 * (inn.len : Int))) = sz ∧ sz < cl := by
    refine ⟨_, rfl, ?_⟩
    by_cases h : 4 * (inn.len : Int) < 2 ^ 31
    · rw [int32_eq (x := 4 * (inn.len : Int)) (by omega) h, int32_wrap (by omega) (by omega)]
      omega
    · rw [int32_wrap (x := 4 * (inn.len : Int)) (by omega) (by omega), int32_eq (by omega) (by omega)]
      omega
  rw [hsz', run_bind]
  by_cases h0 : 0 ≤ sz
  · obtain ⟨m₁, e⟩ : ∃ m₁, run (makeBytes fresh sz) m = (.ok ⟨fresh, 0, sz.toNat, sz.toNat⟩, m₁) := by
      unfold makeBytes
      rw [if_pos h0]
      obtain ⟨m₁, e⟩ := run_zeroFill sz.toNat ⟨fresh, 0⟩ m
      exact ⟨m₁, by rw [bind_eq, run_bind, e]; rfl⟩
    rw [e]
    refine ⟨m₁, ?_⟩
    simp only []
    obtain ⟨k, hk⟩ : ∃ k, inn.len = k + 1 := ⟨inn.len - 1, by omega⟩
    rw [show ∀ c (b : WSt → Prog WSt) s, loop inn.len c b s = loop (k + 1) c b s from fun c b s => by rw [hk]]
    unfold loop
    rw [if_pos (by simp only [decide_eq_true_eq]; omega)]
    unfold wdsBody16 Slice.range Slice.from
    simp only [bind_eq, pure_eq, jump_val, jumpCtrl_val, Int.zero_add]
    rw [int32_eq (x := 16) (by omega) (by omega), if_pos (by omega), ret_bind, if_neg (by omega)]
    rfl
  · unfold makeBytes
    rw [if_neg h0]
    exact ⟨m, rfl⟩

end SVB.Word32
