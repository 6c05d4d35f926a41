import Verif.Proofs.FlatBits
import Verif.Proofs.Wp
import Verif.Proofs.AsmRegs

/-! # What the model's assembly does, the flat machine does -/

set_option autoImplicit false

namespace SVB.Flat
open Asm

/-! ## Memory -/

theorem add_assoc64 (a : Addr) (i j : Nat) : a + BitVec.ofNat 64 i + BitVec.ofNat 64 j = a + BitVec.ofNat 64 (i + j) := by
  rw [BitVec.add_assoc, BitVec.ofNat_add]

theorem addr_add (L : Layout) (p : Ptr) (n : Nat) : L.addr (p.add n) = L.addr p + BitVec.ofNat 64 n := by
  rw [Layout.addr, Layout.addr, add_assoc64]; rfl

theorem readLE_congr {m m' : FMem} : ∀ {n : Nat} {a : Addr},
    (∀ k < n, m (a + BitVec.ofNat 64 k) = m' (a + BitVec.ofNat 64 k)) → readLE m a n = readLE m' a n
  | 0, _, _ => rfl
  | n + 1, a, h => by
    have h0 := h 0 (by omega)
    rw [BitVec.add_zero] at h0
    rw [readLE, readLE, h0, readLE_congr fun k hk => ?_]
    have := h (1 + k) (by omega)
    rw [← add_assoc64] at this
    exact this

theorem readLE_bit (m : FMem) : ∀ (n : Nat) (a : Addr) (j : Nat), j < 8 * n →
    (readLE m a n).getLsbD j = (m (a + BitVec.ofNat 64 (j / 8))).getLsbD (j % 8)
  | 0, _, _, h => by omega
  | n + 1, a, j, h => by
    rw [readLE, BitVec.getLsbD_append]
    by_cases h8 : j < 8
    · rw [if_pos h8, show j / 8 = 0 by omega, show j % 8 = j by omega, BitVec.add_zero]
    · rw [if_neg h8, readLE_bit m n (a + 1) (j - 8) (by omega), show (j - 8) % 8 = j % 8 by omega,
        show j / 8 = 1 + (j - 8) / 8 by omega, ← add_assoc64]
      rfl

theorem readLE_lanes {m : FMem} {a : Addr} {v : Vec} (h : ∀ k < 16, v k = m (a + BitVec.ofNat 64 k)) :
    Lanes v (readLE m a 16) := lanes_of_bits fun i hi k hk => by
  rw [readLE_bit m 16 a _ (by omega), h i hi, show (8 * i + k) / 8 = i by omega, show (8 * i + k) % 8 = k by omega]

theorem readLE_two (m : FMem) (a : Addr) : readLE m a 2 = m (a + 1) ++ m a := by
  apply BitVec.eq_of_getLsbD_eq
  intro j hj
  rw [readLE_bit m 2 a j (by omega), BitVec.getLsbD_append]
  by_cases h8 : j < 8
  · rw [if_pos h8, show j / 8 = 0 by omega, show j % 8 = j by omega, BitVec.add_zero]
  · rw [if_neg h8, show j / 8 = 1 by omega, show j % 8 = j - 8 by omega]
    rfl

theorem sub_ofNat (a : Addr) {k : Nat} (hk : k < 2 ^ 64) : (a + BitVec.ofNat 64 k - a).toNat = k := by
  rw [BitVec.add_comm, BitVec.add_sub_cancel, BitVec.toNat_ofNat, Nat.mod_eq_of_lt hk]

theorem writeLE_at {w : Nat} (m : FMem) (a : Addr) {n k : Nat} (v : BitVec w) (hk : k < n) (hn : n < 2 ^ 64) :
    writeLE m a n v (a + BitVec.ofNat 64 k) = v.extractLsb' (8 * k) 8 := by
  have := sub_ofNat a (k := k) (by omega)
  rw [writeLE, this, if_pos hk]

theorem writeLE_other {w : Nat} (m : FMem) (a q : Addr) {n : Nat} (v : BitVec w)
    (h : ∀ k < n, q ≠ a + BitVec.ofNat 64 k) : writeLE m a n v q = m q := by
  rw [writeLE]
  refine if_neg fun hk => h _ hk ?_
  rw [BitVec.ofNat_toNat, BitVec.setWidth_eq, BitVec.add_comm, BitVec.sub_add_cancel]

/-! ## The state -/

/-- A register of the model and a register. -/
def Layout.val (L : Layout) : Val → U64 → Prop
  | .undef, _ => True
  | .int v, u => u = v
  | .ptr p, u => u = L.addr p

structure Agree (L : Layout) (fr : Frame) (ro rs : Nat) (s : St) (m : Mem) (t : Mach) : Prop where
  gp : ∀ r, L.val (s.gp r) (t.gp r)
  x : ∀ r, Lanes (s.x r) (t.x r)
  called : Called L fr m t
  res : rs = 2 → ∀ v, s.res.lookup ro = some v → readLE t.mem (t.arg ro) 2 = v

variable {L : Layout} {fr : Frame} {ro rs : Nat} {s : St} {m : Mem} {t : Mach}

theorem x_setX (r q : XR) (v : BitVec 128) : (t.setX r v).x q = if q = r then v else t.x q := by
  unfold Mach.x Mach.setX
  by_cases h : q = r
  · simp only [if_pos h]
    apply BitVec.eq_of_getLsbD_eq
    intro i hi
    rw [BitVec.getLsbD_setWidth, BitVec.getLsbD_setWidth, decide_eq_true hi, decide_eq_true (by omega), Bool.true_and, Bool.true_and]
  · simp only [if_neg h]

theorem Agree.setGP (h : Agree L fr ro rs s m t) (r : GP) {v : Val} {u : U64} (hv : L.val v u) :
    Agree L fr ro rs (s.setGP r v) m (t.setGP r u) where
  gp q := by
    unfold St.setGP Mach.setGP
    by_cases e : q = r
    · simp only [if_pos e]; exact hv
    · simp only [if_neg e]; exact h.gp q
  x := h.x
  called := ⟨h.called.mem, h.called.frame, h.called.sb⟩
  res := h.res

theorem Agree.setX (h : Agree L fr ro rs s m t) (r : XR) {v : Vec} {u : BitVec 128} (hv : Lanes v u) :
    Agree L fr ro rs (s.setX r v) m (t.setX r u) where
  gp := h.gp
  x q := by
    rw [x_setX]
    unfold St.setX
    by_cases e : q = r
    · simp only [if_pos e]; exact hv
    · simp only [if_neg e]; exact h.x q
  called := ⟨h.called.mem, h.called.frame, h.called.sb⟩
  res := h.res

/-! ## Loads and stores of the model -/

def Layout.ctx (L : Layout) : Ctx := ⟨L.R, L.W, fun _ _ => False⟩

theorem wp_loadN_inv {c : Ctx} : ∀ {n : Nat} {p : Ptr} {m : Mem} {Q : List Byte → Mem → Prop}, wp c (loadN p n) m Q →
    (∀ k < n, c.R (p.add k)) ∧ ∃ l : List Byte, (∀ k < n, l.getD k 0 = m (p.add k)) ∧ Q l m
  | 0, _, _, _, h => ⟨fun _ hk => by omega, [], fun _ hk => by omega, h⟩
  | n + 1, p, m, Q, h => by
    obtain ⟨h1, h2⟩ := h
    change wp c ((loadN (p.add 1) n).bind fun bs => .ret (m p :: bs)) m Q at h2
    obtain ⟨hr, l, hl, hq⟩ := wp_loadN_inv (wp_bind.1 h2)
    have e : ∀ k, (p.add 1).add k = p.add (k + 1) := fun k => by simp only [Ptr.add]; congr 1; omega
    refine ⟨fun k hk => ?_, m p :: l, fun k hk => ?_, hq⟩
    · cases k with
      | zero => exact h1
      | succ k => rw [← e]; exact hr k (by omega)
    · cases k with
      | zero => rfl
      | succ k => rw [← e, ← hl k (by omega)]; rfl

theorem wp_load16_inv {c : Ctx} {p : Ptr} {m : Mem} {Q : Vec → Mem → Prop} (h : wp c (load16 p) m Q) :
    (∀ k < 16, c.R (p.add k)) ∧ ∃ v : Vec, (∀ k < 16, v k = m (p.add k)) ∧ Q v m := by
  obtain ⟨h1, l, h2, h3⟩ := wp_loadN_inv (wp_bind.1 (show wp c ((loadN p 16).bind fun bs => .ret fun i => bs.getD i 0) m Q from h))
  exact ⟨h1, _, h2, h3⟩

theorem wp_storeN_inv {c : Ctx} {p : Ptr} {v : Vec} : ∀ {n i : Nat} {m : Mem} {Q : Unit → Mem → Prop},
    wp c (storeN p v i n) m Q → (∀ k, i ≤ k → k < i + n → c.W (p.add k)) ∧ ∃ m' : Mem,
      (∀ k, i ≤ k → k < i + n → m' (p.add k) = v k) ∧ (∀ q, (∀ k, i ≤ k → k < i + n → q ≠ p.add k) → m' q = m q) ∧ Q () m'
  | 0, i, m, _, h => ⟨fun _ _ _ => by omega, m, fun _ _ _ => by omega, fun _ _ => rfl, h⟩
  | n + 1, i, m, Q, h => by
    obtain ⟨h1, h2⟩ := h
    change wp c (storeN p v (i + 1) n) _ Q at h2
    obtain ⟨hw, m', ha, ho, hq⟩ := wp_storeN_inv h2
    refine ⟨fun k hk hk' => ?_, m', fun k hk hk' => ?_, fun q hq => ?_, hq⟩
    · by_cases e : k = i
      · rw [e]; exact h1
      · exact hw k (by omega) (by omega)
    · by_cases e : k = i
      · rw [e, ho _ fun j hj hj' he => ?_]
        · simp [Mem.set]
        · simp only [Ptr.add, Ptr.mk.injEq, true_and] at he; omega
      · exact ha k (by omega) (by omega)
    · rw [ho q fun k hk hk' => hq k (by omega) (by omega)]
      exact if_neg (hq i (by omega) (by omega))

/-- Storing a vector. -/
theorem Agree.store (h : Agree L fr ro rs s m t) (hp : Placed L fr ro rs t.fp) {p : Ptr} {m' : Mem} {v : Vec} {u : BitVec 128}
    (hv : Lanes v u) (hw : ∀ k < 16, L.W (p.add k)) (ha : ∀ k < 16, m' (p.add k) = v k)
    (ho : ∀ q, (∀ k < 16, q ≠ p.add k) → m' q = m q) :
    Agree L fr ro rs s m' { t with mem := writeLE t.mem (L.addr p) 16 u } := by
  have keep : ∀ k < ro + rs, writeLE t.mem (L.addr p) 16 u (t.fp + BitVec.ofNat 64 k) = t.mem (t.fp + BitVec.ofNat 64 k) :=
    fun k hk => writeLE_other _ _ _ _ fun j hj he =>
      hp.stack _ (.inr (hw j hj)) k hk (by rw [addr_add]; exact he.symm)
  have read : ∀ off n, off + n ≤ ro + rs →
      readLE (writeLE t.mem (L.addr p) 16 u) (t.arg off) n = readLE t.mem (t.arg off) n := fun off n hn =>
    readLE_congr fun k hk => by rw [Mach.arg, add_assoc64]; exact keep _ (by omega)
  refine ⟨h.gp, h.x, ⟨fun q hq => ?_, fun off sl hs => ?_, h.called.sb⟩, fun h2 r hr => ?_⟩
  · show writeLE t.mem (L.addr p) 16 u (L.addr q) = m' q
    by_cases e : ∃ k, k < 16 ∧ q = p.add k
    · obtain ⟨k, hk, rfl⟩ := e
      rw [addr_add, writeLE_at _ _ _ hk (by omega), ha k hk, hv k hk]
    · have e' : ∀ k < 16, q ≠ p.add k := fun k hk he => e ⟨k, hk, he⟩
      rw [ho q e', ← h.called.mem q hq]
      refine writeLE_other _ _ _ _ fun k hk he => e' k hk (hp.inj _ _ hq (.inr (hw k hk)) ?_)
      rw [he, addr_add]
  · have := h.called.frame off sl hs
    have hsz := hp.slots off sl hs
    cases sl <;> simp only [slotSize] at hsz <;> simp only [Layout.holds] at this ⊢ <;>
      exact (read off _ (by omega)).trans this
  · exact (read ro 2 (by omega)).trans (h.res h2 r hr)

/-- Storing the result. -/
theorem Agree.ret (h2 : rs = 2) (h : Agree L fr ro rs s m t) (hp : Placed L fr ro rs t.fp) (u : U64) :
    Agree L fr ro rs { s with res := (ro, u.setWidth 16) :: s.res } m { t with mem := writeLE t.mem (t.arg ro) 2 u } := by
  refine ⟨h.gp, h.x, ⟨fun q hq => ?_, fun off sl hs => ?_, h.called.sb⟩, fun _ r hr => ?_⟩
  · show writeLE t.mem (t.arg ro) 2 u (L.addr q) = m q
    rw [← h.called.mem q hq]
    exact writeLE_other _ _ _ _ fun k hk he => hp.stack q hq (ro + k) (by omega) (by rw [he, Mach.arg, add_assoc64])
  · have := h.called.frame off sl hs
    have hsz := hp.slots off sl hs
    have hsm := hp.small
    have read : readLE (writeLE t.mem (t.arg ro) 2 u) (t.arg off) (slotSize sl) = readLE t.mem (t.arg off) (slotSize sl) :=
      readLE_congr fun k hk => writeLE_other _ _ _ _ fun j hj he => by
        rw [Mach.arg, Mach.arg, add_assoc64, add_assoc64] at he
        have := congrArg (fun z => (z - t.fp).toNat) he
        rw [sub_ofNat _ (by omega), sub_ofNat _ (by omega)] at this
        omega
    cases sl <;> simp only [Layout.holds] at this ⊢ <;> exact read.trans this
  · have : u.setWidth 16 = r := by
      simp only [List.lookup, beq_self_eq_true, Option.some.injEq] at hr; exact hr
    rw [← this]
    show readLE (writeLE t.mem (t.arg ro) 2 u) (t.arg ro) 2 = _
    apply BitVec.eq_of_getLsbD_eq
    intro j hj
    rw [readLE_bit _ 2 _ j (by omega), writeLE_at _ _ _ (by omega) (by omega), BitVec.getLsbD_extractLsb', BitVec.getLsbD_setWidth,
      decide_eq_true (by omega), decide_eq_true (by omega), Bool.true_and, Bool.true_and, show 8 * (j / 8) + j % 8 = j by omega]

/-! ## Instructions -/

/-- Immediates fit, and results (of `rs` bytes) go to `ro`. -/
def plain (ro rs : Nat) : Instr → Bool
  | .MOVW_ret _ off => off == ro && rs == 2
  | .SHLQ n _ => decide (n < 64)
  | .SHRQ n _ => decide (n < 64)
  | .VPALIGNR n _ _ _ => decide (n < 256)
  | .VPSLLDQ n _ _ => decide (n < 256)
  | .VPSHUFD n _ _ => decide (n < 256)
  | .VPBROADCASTW sym _ => sym.isConst
  | _ => true

/-- Memory outside what may be written and the result is the same. -/
def Kept (L : Layout) (ro rs : Nat) (t t' : Mach) : Prop :=
  t'.fp = t.fp ∧ ∀ q, (∀ p, L.W p → L.addr p ≠ q) → (∀ k < rs, t.arg ro + BitVec.ofNat 64 k ≠ q) → t'.mem q = t.mem q

theorem Kept.rfl' {t' : Mach} (hf : t'.fp = t.fp) (hm : t'.mem = t.mem) : Kept L ro rs t t' := ⟨hf, fun q _ _ => by rw [hm]⟩

theorem sim_step (h : Agree L fr ro rs s m t) (hp : Placed L fr ro rs t.fp) {i : Instr} (hi : plain ro rs i = true)
    {Q : St → Mem → Prop} (hs : wp L.ctx (step fr s i) m Q) :
    ∃ s' m', Q s' m' ∧ Agree L fr ro rs s' m' (fstep t i) ∧ Kept L ro rs t (fstep t i) := by
  cases i with
  | MOVQ_arg off d =>
    simp only [step] at hs
    cases e : fr.get off with
    | none => rw [e] at hs; exact hs.elim
    | some sl =>
      rw [e] at hs
      have := h.called.frame off sl e
      cases sl with
      | ptr p => exact ⟨_, _, hs, h.setGP d this, .rfl' rfl rfl⟩
      | q v => exact ⟨_, _, hs, h.setGP d this, .rfl' rfl rfl⟩
      | d v => exact hs.elim
      | w v => exact hs.elim
  | MOVQ a d => exact ⟨_, _, hs, h.setGP d (h.gp a), .rfl' rfl rfl⟩
  | MOVWQZX_arg off d =>
    simp only [step] at hs
    cases e : fr.get off with
    | none => rw [e] at hs; exact hs.elim
    | some sl =>
      rw [e] at hs
      have := h.called.frame off sl e
      cases sl with
      | w v => exact ⟨_, _, hs, h.setGP d (congrArg (BitVec.setWidth 64) this), .rfl' rfl rfl⟩
      | q v => exact hs.elim
      | d v => exact hs.elim
      | ptr v => exact hs.elim
  | MOVWQZX a d =>
    simp only [step] at hs
    have := h.gp a
    cases e : s.gp a with
    | int v => rw [e] at hs this; exact ⟨_, _, hs, h.setGP d (by rw [show t.gp a = v from this]; rfl), .rfl' rfl rfl⟩
    | undef => rw [e] at hs; exact hs.elim
    | ptr p => rw [e] at hs; exact hs.elim
  | MOVBQZX a d =>
    simp only [step] at hs
    have := h.gp a
    cases e : s.gp a with
    | int v => rw [e] at hs this; exact ⟨_, _, hs, h.setGP d (by rw [show t.gp a = v from this]; rfl), .rfl' rfl rfl⟩
    | undef => rw [e] at hs; exact hs.elim
    | ptr p => rw [e] at hs; exact hs.elim
  | MOVBQZX_mem b d =>
    simp only [step] at hs
    have := h.gp b
    cases e : s.gp b with
    | ptr p =>
      rw [e] at hs this
      have ha : t.gp b = L.addr p := this
      exact ⟨_, _, hs.2, h.setGP d (by rw [ha, h.called.mem p (.inl hs.1)]; rfl), .rfl' rfl rfl⟩
    | undef => rw [e] at hs; exact hs.elim
    | int p => rw [e] at hs; exact hs.elim
  | MOVW_ret a off =>
    simp only [step] at hs
    obtain ⟨hr, h2⟩ : off = ro ∧ rs = 2 := by simpa [plain] using hi
    subst hr
    have := h.gp a
    cases e : s.gp a with
    | int v =>
      rw [e] at hs this
      have ha : t.gp a = v := this
      refine ⟨_, _, hs, ha ▸ h.ret h2 hp (t.gp a), rfl, fun q _ hq => ?_⟩
      exact writeLE_other _ _ _ _ fun k hk he => hq k (by omega) he.symm
    | undef => rw [e] at hs; exact hs.elim
    | ptr p => rw [e] at hs; exact hs.elim
  | SHLQ n d =>
    simp only [step] at hs
    have hn : n % 64 = n := Nat.mod_eq_of_lt (by simpa [plain] using hi)
    have := h.gp d
    cases e : s.gp d with
    | int v => rw [e] at hs this; exact ⟨_, _, hs, h.setGP d (by rw [show t.gp d = v from this, hn]; rfl), .rfl' rfl rfl⟩
    | undef => rw [e] at hs; exact hs.elim
    | ptr p => rw [e] at hs; exact hs.elim
  | SHRQ n d =>
    simp only [step] at hs
    have hn : n % 64 = n := Nat.mod_eq_of_lt (by simpa [plain] using hi)
    have := h.gp d
    cases e : s.gp d with
    | int v => rw [e] at hs this; exact ⟨_, _, hs, h.setGP d (by rw [show t.gp d = v from this, hn]; rfl), .rfl' rfl rfl⟩
    | undef => rw [e] at hs; exact hs.elim
    | ptr p => rw [e] at hs; exact hs.elim
  | ADDQ a d =>
    simp only [step] at hs
    have h1 := h.gp a
    have h2 := h.gp d
    cases e : s.gp a with
    | undef => rw [e] at hs; exact hs.elim
    | int v =>
      cases e' : s.gp d with
      | undef => rw [e, e'] at hs; exact hs.elim
      | int w =>
        rw [e, e'] at hs; rw [e] at h1; rw [e'] at h2
        exact ⟨_, _, hs, h.setGP d (by rw [show t.gp a = v from h1, show t.gp d = w from h2]; rfl), .rfl' rfl rfl⟩
      | ptr p =>
        rw [e, e'] at hs; rw [e] at h1; rw [e'] at h2
        refine ⟨_, _, hs, h.setGP d ?_, .rfl' rfl rfl⟩
        rw [show t.gp a = v from h1, show t.gp d = L.addr p from h2]
        show _ = L.addr _
        rw [addr_add, BitVec.ofNat_toNat, BitVec.setWidth_eq]
    | ptr p =>
      cases e' : s.gp d with
      | undef => rw [e, e'] at hs; exact hs.elim
      | int w =>
        rw [e, e'] at hs; rw [e] at h1; rw [e'] at h2
        refine ⟨_, _, hs, h.setGP d ?_, .rfl' rfl rfl⟩
        rw [show t.gp a = L.addr p from h1, show t.gp d = w from h2]
        show _ = L.addr _
        rw [addr_add, BitVec.ofNat_toNat, BitVec.setWidth_eq, BitVec.add_comm]
      | ptr p => rw [e, e'] at hs; exact hs.elim
  | VLDDQU disp b d =>
    simp only [step] at hs
    have := h.gp b
    cases e : s.gp b with
    | ptr p =>
      rw [e] at hs this
      have ha : t.gp b = L.addr p := this
      obtain ⟨h1, v, h2, h3⟩ := wp_load16_inv (wp_bind.1 hs)
      refine ⟨_, _, h3, h.setX d (readLE_lanes fun k hk => ?_), .rfl' rfl rfl⟩
      rw [h2 k hk, ← h.called.mem _ (.inl (h1 k hk)), addr_add, addr_add, ha]
    | undef => rw [e] at hs; exact hs.elim
    | int p => rw [e] at hs; exact hs.elim
  | VMOVDQU a disp b =>
    simp only [step] at hs
    have := h.gp b
    cases e : s.gp b with
    | ptr p =>
      rw [e] at hs this
      have ha : t.gp b = L.addr p := this
      obtain ⟨h1, m', h2, h3, h4⟩ := wp_storeN_inv (wp_bind.1 (show wp L.ctx ((storeN (p.add disp) (s.x a) 0 16).bind fun _ => .ret s) m Q from hs))
      have hw : ∀ k < 16, L.W ((p.add disp).add k) := fun k hk => h1 k (by omega) (by omega)
      have hadr : t.gp b + BitVec.ofNat 64 disp = L.addr (p.add disp) := by rw [addr_add, ha]
      refine ⟨_, _, h4, ?_, rfl, fun q hq _ => ?_⟩
      · show Agree L fr ro rs s m' { t with mem := writeLE t.mem (t.gp b + BitVec.ofNat 64 disp) 16 (t.x a) }
        rw [hadr]
        exact h.store hp (h.x a) hw (fun k hk => h2 k (by omega) (by omega)) fun q hq => h3 q fun k _ hk => hq k (by omega)
      · show writeLE t.mem (t.gp b + BitVec.ofNat 64 disp) 16 (t.x a) q = _
        rw [hadr]
        exact writeLE_other _ _ _ _ fun k hk he => hq _ (hw k hk) (by rw [addr_add, he])
    | undef => rw [e] at hs; exact hs.elim
    | int p => rw [e] at hs; exact hs.elim
  | VPBROADCASTW sym d =>
    obtain ⟨h1, h2, h3⟩ := hs
    refine ⟨_, _, h3, ?_, .rfl' rfl rfl⟩
    have e0 := h.called.mem _ (.inl h1)
    have e1 := h.called.mem _ (.inl h2)
    have a0 : L.addr ⟨sym, 0⟩ = t.sb sym := by
      rw [Layout.addr, h.called.sb sym hi]
      exact BitVec.add_zero _
    have a1 : L.addr ⟨sym, 1⟩ = t.sb sym + 1 := by rw [Layout.addr, h.called.sb sym hi]; rfl
    refine h.setX d ?_
    rw [readLE_two, ← a1, ← a0, e0, e1]
    exact vpbroadcastw_lanes _
  | VBROADCASTSS_arg off d =>
    simp only [step] at hs
    cases e : fr.get off with
    | none => rw [e] at hs; exact hs.elim
    | some sl =>
      rw [e] at hs
      have := h.called.frame off sl e
      cases sl with
      | d v => exact ⟨_, _, hs, h.setX d (by rw [show readLE t.mem (t.arg off) 4 = v from this]; exact vbroadcastss_lanes v), .rfl' rfl rfl⟩
      | q v => exact hs.elim
      | w v => exact hs.elim
      | ptr v => exact hs.elim
  | VPMINUB b a d => exact ⟨_, _, hs, h.setX d (vpminub_lanes (h.x a) (h.x b)), .rfl' rfl rfl⟩
  | VPACKUSWB b a d => exact ⟨_, _, hs, h.setX d (vpackuswb_lanes (h.x a) (h.x b)), .rfl' rfl rfl⟩
  | VPMINSW b a d => exact ⟨_, _, hs, h.setX d (vpminsw_lanes (h.x a) (h.x b)), .rfl' rfl rfl⟩
  | VPADDUSW b a d => exact ⟨_, _, hs, h.setX d (vpaddusw_lanes (h.x a) (h.x b)), .rfl' rfl rfl⟩
  | VPMOVMSKB a d => exact ⟨_, _, hs, h.setGP d (vpmovmskb_lanes (h.x a)).symm, .rfl' rfl rfl⟩
  | VPSHUFB b a d =>
    simp only [step] at hs
    have := h.gp b
    cases e : s.gp b with
    | ptr p =>
      rw [e] at hs this
      have ha : t.gp b = L.addr p := this
      obtain ⟨h1, v, h2, h3⟩ := wp_load16_inv (wp_bind.1 hs)
      refine ⟨_, _, h3, h.setX d (vpshufb_lanes (h.x a) (readLE_lanes fun k hk => ?_)), .rfl' rfl rfl⟩
      rw [h2 k hk, ← h.called.mem _ (.inl (h1 k hk)), addr_add, ha]
    | undef => rw [e] at hs; exact hs.elim
    | int p => rw [e] at hs; exact hs.elim
  | VPALIGNR n b a d => exact ⟨_, _, hs, h.setX d (vpalignr_lanes (h.x a) (h.x b) (by simpa [plain] using hi)), .rfl' rfl rfl⟩
  | VPSUBD b a d => exact ⟨_, _, hs, h.setX d (vpsubd_lanes (h.x a) (h.x b)), .rfl' rfl rfl⟩
  | VPADDD b a d => exact ⟨_, _, hs, h.setX d (vpaddd_lanes (h.x a) (h.x b)), .rfl' rfl rfl⟩
  | VPSLLDQ n a d => exact ⟨_, _, hs, h.setX d (vpslldq_lanes (h.x a) (by simpa [plain] using hi)), .rfl' rfl rfl⟩
  | VPSHUFD n a d => exact ⟨_, _, hs, h.setX d (vpshufd_lanes (h.x a) n), .rfl' rfl rfl⟩

theorem sim_exec : ∀ (is : List Instr) {s : St} {m : Mem} {t : Mach} {Q : St → Mem → Prop}, Agree L fr ro rs s m t →
    Placed L fr ro rs t.fp → is.all (plain ro rs) = true → wp L.ctx (exec fr is s) m Q →
    ∃ s' m', Q s' m' ∧ Agree L fr ro rs s' m' (fexec t is) ∧ Kept L ro rs t (fexec t is)
  | [], _, _, _, _, h, _, _, hs => ⟨_, _, hs, h, .rfl' rfl rfl⟩
  | i :: is, s, m, t, Q, h, hp, hi, hs => by
    simp only [List.all_cons, Bool.and_eq_true] at hi
    obtain ⟨s₁, m₁, q₁, a₁, k₁⟩ := sim_step h hp hi.1 (wp_bind.1 hs)
    obtain ⟨s₂, m₂, q₂, a₂, k₂⟩ := sim_exec is a₁ (by rw [k₁.1]; exact hp) hi.2 q₁
    refine ⟨s₂, m₂, q₂, a₂, k₂.1.trans k₁.1, fun q hq hr => ?_⟩
    rw [fexec, k₂.2 q hq (by unfold Mach.arg; rw [k₁.1]; exact hr), k₁.2 q hq hr]

/-! ## Functions -/

/-- The vector registers of the model that go with a machine's. -/
def entry (t : Mach) : St where
  gp _ := .undef
  x r i := (t.x r).extractLsb' (8 * i) 8
  res := []

theorem agree_entry (hc : Called L fr m t) : Agree L fr ro rs (entry t) m t :=
  ⟨fun _ => trivial, fun _ _ _ => rfl, hc, fun _ v hv => by simp [entry] at hv⟩

/-- A function with a result. -/
theorem refine_result {is : List Instr} (hd : defined [ro] [] [] [] is = true) (hi : is.all (plain ro 2) = true)
    (hp : Placed L fr ro 2 t.fp) (hc : Called L fr m t) {Q : U16 → Mem → Prop}
    (h : wp L.ctx (do
      let s ← exec fr is St.init
      match s.res.lookup ro with
      | some r => return r
      | none => .panic .fault) m Q) :
    ∃ c m', Q c m' ∧ readLE (fexec t is).mem (t.arg ro) 2 = c ∧
      (∀ p, L.dom p → (fexec t is).mem (L.addr p) = m' p) ∧ Kept L ro 2 t (fexec t is) := by
  have e := exec_result fr is ro hd St.init (entry t)
    fun r => match r with | some r => pure r | none => .panic .fault
  have h' := e ▸ h
  obtain ⟨s', m', hq, ha, hk⟩ := sim_exec is (agree_entry hc) hp hi (wp_bind.1 h')
  cases hl : s'.res.lookup ro with
  | none => rw [hl] at hq; exact hq.elim
  | some r =>
    rw [hl] at hq
    refine ⟨r, m', hq, ?_, ha.called.mem, hk⟩
    have := ha.res rfl r hl
    unfold Mach.arg at this ⊢
    rwa [hk.1] at this

/-- A function without a result. -/
theorem refine_unit {is : List Instr} (hd : defined [] [] [] [] is = true) (hi : is.all (plain ro 0) = true)
    (hp : Placed L fr ro 0 t.fp) (hc : Called L fr m t) {Q : Unit → Mem → Prop}
    (h : wp L.ctx (do
      let _ ← exec fr is St.init
      return ()) m Q) :
    ∃ m', Q () m' ∧ (∀ p, L.dom p → (fexec t is).mem (L.addr p) = m' p) ∧ Kept L ro 0 t (fexec t is) := by
  have e := exec_unit fr is hd St.init (entry t) (β := Unit) (pure ())
  have h' := e ▸ h
  obtain ⟨s', m', hq, ha, hk⟩ := sim_exec is (agree_entry hc) hp hi (wp_bind.1 h')
  exact ⟨m', hq, ha.called.mem, hk⟩

end SVB.Flat
