import Verif.Model.Util
import Verif.Proofs.Race

/-! # Package `util` touches the elements of its arguments and nothing else

Footprint triples as in `Safe.lean`, but without the tables among what may be loaded, and without assumptions about the memory. -/

set_option autoImplicit false

namespace SVB
open Prog

/-- Addresses that may be loaded and stored. -/
structure Elems where
  R : Ptr → Prop
  W : Ptr → Prop

/-- Whatever bytes the loads deliver, `p` stays inside the area, stops only with a bounds panic and returns values satisfying
`Q`. -/
def Only {α : Type} (F : Elems) : Prog α → (α → Prop) → Prop
  | .ret a, Q => Q a
  | .panic k, _ => boundsPanic k
  | .load p k, Q => F.R p ∧ ∀ b, Only F (k b) Q
  | .store p _ k, Q => F.W p ∧ Only F k Q

variable {F : Elems}

theorem only_ret {α : Type} {a : α} {Q : α → Prop} (h : Q a) : Only F (.ret a) Q := h

theorem only_bind {α β : Type} {p : Prog α} {f : α → Prog β} {S : α → Prop} {Q : β → Prop}
    (h : Only F p S) (hf : ∀ a, S a → Only F (f a) Q) : Only F (p.bind f) Q := by
  induction p with
  | ret a => exact hf a h
  | panic k => exact h
  | load p k ih => exact ⟨h.1, fun b => ih b (h.2 b)⟩
  | store p v k ih => exact ⟨h.1, ih h.2⟩

theorem only_mono {α : Type} {p : Prog α} {S Q : α → Prop} (h : Only F p S) (hQ : ∀ a, S a → Q a) : Only F p Q := by
  induction p with
  | ret a => exact hQ a h
  | panic k => exact h
  | load p k ih => exact ⟨h.1, fun b => ih b (h.2 b)⟩
  | store p v k ih => exact ⟨h.1, ih h.2⟩

theorem only_loop {σ : Type} {cond : σ → Bool} {body : σ → Prog σ} (I : σ → Prop) (μ : σ → Nat)
    (hbody : ∀ s, I s → cond s = true → Only F (body s) (fun s' => I s' ∧ μ s' < μ s))
    (hpos : ∀ s, I s → cond s = true → 0 < μ s) {fuel : Nat} {s : σ} (hI : I s) (hf : μ s ≤ fuel) :
    Only F (loop fuel cond body s) (fun s' => I s' ∧ cond s' = false) := by
  induction fuel generalizing s with
  | zero =>
    unfold loop
    split
    · rename_i hc; have := hpos s hI hc; omega
    · rename_i hc; exact ⟨hI, by simpa using hc⟩
  | succ n ih =>
    unfold loop
    split
    · rename_i hc
      exact only_bind (hbody s hI hc) fun s' h => ih h.1 (by omega)
    · rename_i hc; exact ⟨hI, by simpa using hc⟩

theorem only_load8 {p : Ptr} (h : F.R p) : Only F (load8 p) (fun _ => True) := ⟨h, fun _ => trivial⟩

theorem only_store8 {p : Ptr} {v : Byte} (h : F.W p) : Only F (store8 p v) (fun _ => True) := ⟨h, trivial⟩

theorem only_from {e : Nat} {s : Slice e} {i : Int} :
    Only F (s.from i) (fun t => ∃ a : Nat, i = a ∧ a ≤ s.len ∧
      t = ⟨s.blk, s.off + e * a, s.len - a, s.cap - a⟩) := by
  unfold Slice.from
  split
  · exact ⟨i.toNat, by omega, by omega, rfl⟩
  · exact .inr rfl

/-- A run on its own. -/
theorem only_wp {α : Type} {p : Prog α} {Q : α → Prop} (h : Only F p Q) (m : Mem) :
    wp ⟨F.R, F.W, fun k _ => boundsPanic k⟩ p m (fun a _ => Q a) := by
  induction p generalizing m with
  | ret a => exact h
  | panic k => exact h
  | load p k ih => exact ⟨h.1, ih _ (h.2 _) m⟩
  | store p v k ih => exact ⟨h.1, ih h.2 _⟩

/-- A run during which others change the memory. -/
theorem Raced.only {α : Type} {Q : α → Prop} {p p' : Prog α} {m m' : Mem} {t : List Event}
    (h : Raced p m t p' m') (hp : Only F p Q) :
    (∀ q, Event.rd q ∈ t → F.R q) ∧ (∀ q, Event.wr q ∈ t → F.W q) ∧ Only F p' Q := by
  induction h with
  | now => exact ⟨by simp, by simp, hp⟩
  | others h _ ih => exact ih hp
  | @load q k p' m m' t _ ih =>
    obtain ⟨a, b, c⟩ := ih (hp.2 _)
    refine ⟨fun x hx => ?_, fun x hx => ?_, c⟩
    · rcases List.mem_cons.1 hx with h | h
      · cases h; exact hp.1
      · exact a _ h
    · rcases List.mem_cons.1 hx with h | h
      · cases h
      · exact b _ h
  | @store q v k p' m m' t _ ih =>
    obtain ⟨a, b, c⟩ := ih hp.2
    refine ⟨fun x hx => ?_, fun x hx => ?_, c⟩
    · rcases List.mem_cons.1 hx with h | h
      · cases h
      · exact a _ h
    · rcases List.mem_cons.1 hx with h | h
      · cases h; exact hp.1
      · exact b _ h

/-- A slice whose elements may be loaded. -/
structure RdE {e : Nat} (F : Elems) (s : Slice e) : Prop where
  lc : s.len ≤ s.cap
  r : ∀ q : Ptr, q.blk = s.blk → s.off ≤ q.off → q.off < s.off + e * s.len → F.R q

theorem RdE.sub {e : Nat} {s : Slice e} (h : RdE F s) (a l : Nat) (ha : a + l ≤ s.len) :
    RdE F (⟨s.blk, s.off + e * a, l, s.cap - a⟩ : Slice e) where
  lc := by have := h.lc; simp only; omega
  r q h1 h2 h3 := by
    simp only at h1 h2 h3
    refine h.r q h1 (by omega) ?_
    have : e * s.len = e * (a + l) + e * (s.len - (a + l)) := by rw [← Nat.mul_add]; congr 1; omega
    rw [Nat.mul_add] at this
    omega

/-- A slice whose elements may be stored to. -/
structure WrE {e : Nat} (F : Elems) (s : Slice e) : Prop where
  lc : s.len ≤ s.cap
  w : ∀ q : Ptr, q.blk = s.blk → s.off ≤ q.off → q.off < s.off + e * s.len → F.W q

theorem WrE.sub {e : Nat} {s : Slice e} (h : WrE F s) (a l : Nat) (ha : a + l ≤ s.len) :
    WrE F (⟨s.blk, s.off + e * a, l, s.cap - a⟩ : Slice e) where
  lc := by have := h.lc; simp only; omega
  w q h1 h2 h3 := by
    simp only at h1 h2 h3
    refine h.w q h1 (by omega) ?_
    have : e * (a + l) ≤ e * s.len := Nat.mul_le_mul_left e ha
    rw [Nat.mul_add] at this
    omega

theorem only_fromRL {e : Nat} {s : Slice e} {i : Int} (h : RdE F s) : Only F (s.from i) (fun t => RdE F t) :=
  only_mono only_from fun _ ⟨a, h1, h2, h3⟩ => by
    subst h3; exact h.sub a _ (by omega)

theorem only_fromWL {e : Nat} {s : Slice e} {i : Int} (h : WrE F s) : Only F (s.from i) (fun t => WrE F t) :=
  only_mono only_from fun _ ⟨a, h1, h2, h3⟩ => by
    subst h3; exact h.sub a _ (by omega)

theorem only_getBL {s : Bytes} {i : Int} (h : RdE F s) : Only F (getB s i) (fun _ => True) := by
  unfold getB
  split
  · exact only_mono (only_load8 (h.r _ rfl (by simp) (by simp only; omega))) fun _ _ => trivial
  · exact .inl rfl

theorem only_setBL {s : Bytes} {i : Int} {v : Byte} (h : WrE F s) : Only F (setB s i v) (fun _ => True) := by
  unfold setB
  split
  · exact only_store8 (h.w _ rfl (by simp) (by simp only; omega))
  · exact .inl rfl

theorem only_getWL {s : U32s} {i : Int} (h : RdE F s) : Only F (getW s i) (fun _ => 0 ≤ i ∧ i < s.len) := by
  unfold getW
  split
  · have hr : ∀ k < 4, F.R ⟨s.blk, s.off + 4 * i.toNat + k⟩ := fun k hk =>
      h.r _ rfl (by simp only; omega) (by simp only; omega)
    exact ⟨hr 0 (by omega), fun _ => ⟨hr 1 (by omega), fun _ => ⟨hr 2 (by omega), fun _ =>
      ⟨hr 3 (by omega), fun _ => by assumption⟩⟩⟩⟩
  · exact .inl rfl

theorem only_setWL {s : U32s} {i : Int} {v : U32} (h : WrE F s) : Only F (setW s i v) (fun _ => 0 ≤ i ∧ i < s.len) := by
  unfold setW
  split
  · have hw : ∀ k < 4, F.W ⟨s.blk, s.off + 4 * i.toNat + k⟩ := fun k hk =>
      h.w _ rfl (by simp only; omega) (by simp only; omega)
    exact ⟨hw 0 (by omega), hw 1 (by omega), hw 2 (by omega), hw 3 (by omega), by assumption⟩
  · exact .inl rfl

theorem only_putUvarint {buf : Bytes} {x : U64} (h : WrE F buf) : Only F (putUvarint buf x) (fun _ => True) := by
  unfold putUvarint
  simp only [Prog.bind_eq, Prog.pure_eq]
  refine only_bind (only_loop (fun s : U64 × Int => 0 ≤ s.2 ∧ s.2 ≤ 9 ∧ s.1.toNat * 128 ^ s.2.toNat < 2 ^ 64)
    (fun s => (9 - s.2).toNat) ?_ ?_ ?_ ?_) fun _ _ => only_bind (only_setBL h) fun _ _ => only_ret trivial
  · intro s ⟨h1, h2, h3⟩ hc
    have hc := of_decide_eq_true hc
    have h4 : s.2.toNat ≤ 8 := by
      rcases Nat.lt_or_ge s.2.toNat 9 with h | h
      · omega
      · have := Nat.pow_le_pow_right (n := 128) (by decide) h
        have := Nat.mul_le_mul hc this
        omega
    refine only_bind (only_setBL h) fun _ _ => only_ret ⟨⟨?_, ?_, ?_⟩, ?_⟩
    · show 0 ≤ s.2 + 1
      omega
    · show s.2 + 1 ≤ 9
      omega
    · show (s.1 >>> 7).toNat * 128 ^ (s.2 + 1).toNat < 2 ^ 64
      rw [BitVec.toNat_ushiftRight, Nat.shiftRight_eq_div_pow, show (s.2 + 1).toNat = s.2.toNat + 1 by omega,
        show 128 ^ (s.2.toNat + 1) = 128 ^ s.2.toNat * 128 from rfl, Nat.mul_comm (128 ^ _), ← Nat.mul_assoc]
      exact Nat.lt_of_le_of_lt (Nat.mul_le_mul_right _ (Nat.div_mul_le_self _ _)) h3
    · show (9 - (s.2 + 1)).toNat < (9 - s.2).toNat
      omega
  · intro s ⟨h1, h2, h3⟩ hc
    have hc := of_decide_eq_true hc
    rcases Nat.lt_or_ge s.2.toNat 9 with h | h
    · show 0 < (9 - s.2).toNat
      omega
    · have := Nat.pow_le_pow_right (n := 128) (by decide) h
      have := Nat.mul_le_mul hc this
      omega
  · have := x.isLt
    refine ⟨by dsimp only; omega, by dsimp only; omega, ?_⟩
    show x.toNat * 1 < 2 ^ 64
    omega
  · show (9 - (0 : Int)).toNat ≤ 9
    decide

theorem only_uvarintLoop {buf : Bytes} (h : RdE F buf) : ∀ (r i : Nat) (x : U64) (s : Nat),
    Only F (uvarintLoop buf r i x s) (fun _ => True) := by
  intro r
  induction r with
  | zero => exact fun _ _ _ => only_ret trivial
  | succ r ih =>
    intro i x s
    unfold uvarintLoop
    simp only [Prog.bind_eq, Prog.pure_eq]
    refine only_bind (only_getBL h) fun b _ => ?_
    split
    · exact only_ret trivial
    · split
      · split <;> exact only_ret trivial
      · exact ih _ _ _

theorem only_uvarint {buf : Bytes} (h : RdE F buf) : Only F (uvarint buf) (fun _ => True) := only_uvarintLoop h _ _ _ _

theorem only_putVarint {nums : U32s} {out : Bytes} (hi : RdE F nums) (ho : WrE F out) :
    Only F (putVarint nums out) (fun _ => True) := by
  unfold putVarint
  simp only [Prog.bind_eq, Prog.pure_eq]
  refine only_bind (only_loop (fun s : Int × Int => 0 ≤ s.1) (fun s => (nums.len - s.1).toNat) ?_ ?_ ?_ ?_)
    fun _ _ => only_ret trivial
  · intro s hI hc
    have hc := of_decide_eq_true hc
    refine only_bind (only_fromWL ho) fun _ h => ?_
    refine only_bind (only_getWL hi) fun _ _ => ?_
    refine only_bind (only_putUvarint h) fun _ _ => only_ret ?_
    dsimp only
    omega
  · intro s hI hc
    have hc := of_decide_eq_true hc
    omega
  · exact Int.le_refl 0
  · dsimp only; omega

theorem only_putDeltaVarint {nums : U32s} {out : Bytes} {prev : U32} (hi : RdE F nums) (ho : WrE F out) :
    Only F (putDeltaVarint nums out prev) (fun _ => True) := by
  unfold putDeltaVarint
  simp only [Prog.bind_eq, Prog.pure_eq]
  refine only_bind (only_loop (fun s : Int × Int × U32 => 0 ≤ s.1) (fun s => (nums.len - s.1).toNat) ?_ ?_ ?_ ?_)
    fun _ _ => only_ret trivial
  · intro s hI hc
    have hc := of_decide_eq_true hc
    refine only_bind (only_fromWL ho) fun _ h => ?_
    refine only_bind (only_getWL hi) fun _ _ => ?_
    refine only_bind (only_putUvarint h) fun _ _ => ?_
    refine only_bind (only_getWL hi) fun _ _ => only_ret ?_
    dsimp only
    omega
  · intro s hI hc
    have hc := of_decide_eq_true hc
    omega
  · exact Int.le_refl 0
  · dsimp only; omega

theorem only_getVarint {data : Bytes} {out : U32s} (hi : RdE F data) (ho : WrE F out) :
    Only F (getVarint data out) (fun _ => True) := by
  unfold getVarint
  simp only [Prog.bind_eq, Prog.pure_eq]
  refine only_bind (only_loop (fun s : Int × Int => 0 ≤ s.2 ∧ s.2 ≤ out.len) (fun s => (out.len + 1 - s.2).toNat) ?_ ?_ ?_ ?_)
    fun _ _ => only_ret trivial
  · intro s hI hc
    refine only_bind (only_fromRL hi) fun _ h => ?_
    refine only_bind (only_uvarint h) fun _ _ => ?_
    refine only_bind (only_setWL ho) fun _ _ => only_ret ?_
    dsimp only
    omega
  · intro s hI hc
    omega
  · dsimp only; omega
  · dsimp only; omega

theorem only_getDeltaVarint {data : Bytes} {out : U32s} {prev : U32} (hi : RdE F data) (ho : WrE F out) :
    Only F (getDeltaVarint data out prev) (fun _ => True) := by
  unfold getDeltaVarint
  simp only [Prog.bind_eq, Prog.pure_eq]
  refine only_bind (only_loop (fun s : Int × Int × U32 => 0 ≤ s.2.1 ∧ s.2.1 ≤ out.len) (fun s => (out.len + 1 - s.2.1).toNat) ?_ ?_ ?_ ?_)
    fun _ _ => only_ret trivial
  · intro s hI hc
    refine only_bind (only_fromRL hi) fun _ h => ?_
    refine only_bind (only_uvarint h) fun _ _ => ?_
    refine only_bind (only_setWL ho) fun _ _ => only_ret ?_
    dsimp only
    omega
  · intro s hI hc
    omega
  · dsimp only; omega
  · dsimp only; omega

theorem only_utilDelta {inn out : U32s} (hi : RdE F inn) (ho : WrE F out) : Only F (utilDelta inn out) (fun _ => True) := by
  unfold utilDelta
  simp only [Prog.bind_eq, Prog.pure_eq]
  refine only_bind (only_loop (fun i : Int => 0 ≤ i) (fun i => (inn.len - i).toNat) ?_ ?_ ?_ ?_)
    fun _ _ => only_ret trivial
  · intro s hI hc
    have hc := of_decide_eq_true hc
    split
    · refine only_bind (only_getWL hi) fun _ _ => ?_
      refine only_bind (only_getWL hi) fun _ _ => ?_
      refine only_bind (only_setWL ho) fun _ _ => only_ret ?_
      omega
    · refine only_bind (only_getWL hi) fun _ _ => ?_
      refine only_bind (only_setWL ho) fun _ _ => only_ret ?_
      omega
  · intro s hI hc
    have hc := of_decide_eq_true hc
    omega
  · exact Int.le_refl 0
  · omega

end SVB
