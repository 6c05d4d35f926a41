import Verif.Proofs.FlatAcc

/-! # How far straight-line code reaches

A check of the text of a routine that bounds the addresses it can touch, whatever the state it starts in.  For every general purpose
register it keeps the argument its value is an offset from, and a bound of the offset. -/

set_option autoImplicit false

namespace SVB.Flat
open Asm

/-! ## Bounds of registers -/

/-- A number below `2 ^ 64` added to a pointer argument (its offset) or to zero: which, and the bound. -/
abbrev Bnd := Option Nat × Nat

/-- What an offset is relative to. -/
def Mach.org (t : Mach) : Option Nat → Addr
  | some o => t.ptrArg o
  | none => 0#64

def Bnd.holds (t : Mach) (b : Bnd) (v : U64) : Prop := ∃ k < b.2, v = t.org b.1 + BitVec.ofNat 64 k

/-- Any number. -/
def Bnd.top : Bnd := (none, 2 ^ 64)

theorem holds_nat (t : Mach) {v : U64} {n : Nat} (h : v.toNat < n) : Bnd.holds t (none, n) v :=
  ⟨v.toNat, h, by rw [BitVec.ofNat_toNat, BitVec.setWidth_eq]; exact (BitVec.zero_add _).symm⟩

theorem holds_top (t : Mach) (v : U64) : Bnd.top.holds t v := holds_nat t v.isLt

theorem holds_none {t : Mach} {v : U64} {n : Nat} (h : Bnd.holds t (none, n) v) : v.toNat < n := by
  obtain ⟨k, hk, rfl⟩ := h
  show (0#64 + BitVec.ofNat 64 k).toNat < n
  rw [BitVec.zero_add, BitVec.toNat_ofNat]
  exact Nat.lt_of_le_of_lt (Nat.mod_le _ _) hk

def Bnd.shl (n : Nat) : Bnd → Bnd
  | (none, b) => (none, (b - 1) * 2 ^ (n % 64) + 1)
  | _ => .top
def Bnd.shr (n : Nat) : Bnd → Bnd
  | (none, b) => (none, (b - 1) / 2 ^ (n % 64) + 1)
  | _ => .top
def Bnd.add : Bnd → Bnd → Bnd
  | (x, b), (none, c) => (x, b + c - 1)
  | (none, b), (x, c) => (x, b + c - 1)
  | _, _ => .top

theorem holds_shl {t : Mach} {b : Bnd} {v : U64} (n : Nat) (h : b.holds t v) : (b.shl n).holds t (v <<< (n % 64)) := by
  obtain ⟨x, c⟩ := b
  cases x with
  | some => exact holds_top _ _
  | none =>
    have := holds_none h
    refine holds_nat t ?_
    rw [BitVec.toNat_shiftLeft, Nat.shiftLeft_eq]
    refine Nat.lt_succ_of_le (Nat.le_trans (Nat.mod_le _ _) (Nat.mul_le_mul_right _ (by omega)))

theorem holds_shr {t : Mach} {b : Bnd} {v : U64} (n : Nat) (h : b.holds t v) : (b.shr n).holds t (v >>> (n % 64)) := by
  obtain ⟨x, c⟩ := b
  cases x with
  | some => exact holds_top _ _
  | none =>
    have := holds_none h
    refine holds_nat t ?_
    rw [BitVec.toNat_ushiftRight, Nat.shiftRight_eq_div_pow]
    exact Nat.lt_succ_of_le (Nat.div_le_div_right (by omega))

theorem holds_add {t : Mach} {b c : Bnd} {v w : U64} (h : b.holds t v) (h' : c.holds t w) : (b.add c).holds t (v + w) := by
  obtain ⟨x, b⟩ := b
  obtain ⟨y, c⟩ := c
  obtain ⟨k, hk, rfl⟩ := h
  obtain ⟨l, hl, rfl⟩ := h'
  simp only at hk hl
  cases y with
  | none =>
    refine ⟨k + l, show k + l < (Bnd.add (x, b) (none, c)).2 from ?_, ?_⟩
    · cases x <;> (show k + l < b + c - 1; omega)
    · rw [← add_assoc64, show t.org (none, c).1 = 0#64 from rfl, BitVec.zero_add]; cases x <;> rfl
  | some y =>
    cases x with
    | none =>
      refine ⟨l + k, show l + k < b + c - 1 by omega, ?_⟩
      rw [← add_assoc64, show t.org (none, b).1 = 0#64 from rfl, BitVec.zero_add]
      exact BitVec.add_comm _ _
    | some x => exact holds_top _ _

/-! ## Areas -/

/-- What an area's offset is relative to: `FP`, the pointer argument at an offset, or a symbol. -/
inductive Org
  | fp
  | ptr (off : Nat)
  | sym (b : Block)
  deriving DecidableEq

def Org.addr (t : Mach) : Org → Addr
  | .fp => t.fp
  | .ptr o => t.ptrArg o
  | .sym b => t.sb b

/-- `size` bytes from `org + off` on, to be written or to be read. -/
structure Area where
  wr : Bool
  org : Org
  off : Nat
  size : Nat
  deriving DecidableEq

def Area.has (t : Mach) (a : Area) (x : Acc) : Prop :=
  ∃ k < a.size, x = (if a.wr then Acc.wr else Acc.rd) (a.org.addr t + BitVec.ofNat 64 (a.off + k))

theorem has_rd {t : Mach} {a : Addr} {n : Nat} {o : Org} {off : Nat} (ha : a = o.addr t + BitVec.ofNat 64 off) :
    ∀ x ∈ rdN a n, (Area.mk false o off n).has t x := fun x hx => by
  obtain ⟨k, hk, rfl⟩ := mem_rdN.1 hx
  exact ⟨k, hk, by rw [ha, add_assoc64]; rfl⟩

theorem has_wr {t : Mach} {a : Addr} {n : Nat} {o : Org} {off : Nat} (ha : a = o.addr t + BitVec.ofNat 64 off) :
    ∀ x ∈ wrN a n, (Area.mk true o off n).has t x := fun x hx => by
  obtain ⟨k, hk, rfl⟩ := mem_wrN.1 hx
  exact ⟨k, hk, by rw [ha, add_assoc64]; rfl⟩

/-! ## The check -/

/-- The area `n` bytes at a register lie in. -/
def areaAt (wr : Bool) (disp n : Nat) : Option Bnd → Option Area
  | some (some o, b) => some ⟨wr, .ptr o, disp, b - 1 + n⟩
  | _ => none

theorem has_at {t : Mach} {v : U64} {b : Option Bnd} {wr : Bool} {disp n : Nat} {a : Area} (h : areaAt wr disp n b = some a)
    (hb : ∀ c, b = some c → c.holds t v) :
    ∀ x ∈ (if wr then wrN else rdN) (v + BitVec.ofNat 64 disp) n, a.has t x := fun x hx => by
  match b, h with
  | some (some o, b), h =>
    cases h
    obtain ⟨k, hk, rfl⟩ := hb _ rfl
    have hk : k < b := hk
    have : ∃ j < n, x = (if wr then Acc.wr else Acc.rd) (t.ptrArg o + BitVec.ofNat 64 k + BitVec.ofNat 64 disp + BitVec.ofNat 64 j) := by
      cases wr
      · obtain ⟨j, hj, rfl⟩ := mem_rdN.1 hx; exact ⟨j, hj, rfl⟩
      · obtain ⟨j, hj, rfl⟩ := mem_wrN.1 hx; exact ⟨j, hj, rfl⟩
    obtain ⟨j, hj, rfl⟩ := this
    refine ⟨k + j, by simp only; omega, ?_⟩
    rw [add_assoc64, add_assoc64]
    simp only [Org.addr]
    rw [show k + (disp + j) = disp + (k + j) by omega]

/-- Bounds of the registers written so far, and whether something has been stored through a pointer. -/
structure Abs where
  env : List (GP × Bnd)
  stored : Bool

def Abs.get (e : Abs) (r : GP) : Option Bnd := e.env.lookup r
def Abs.set (e : Abs) (r : GP) (b : Bnd) : Abs := { e with env := (r, b) :: e.env }

/-- One instruction; `ro` is the offset of the result, which lies behind the arguments. -/
def absStep (ro : Nat) (e : Abs) : Instr → Option (Abs × Option Area)
  | .MOVQ_arg off d => if e.stored = false ∧ off + 8 ≤ ro then some (e.set d (some off, 1), some ⟨false, .fp, off, 8⟩) else none
  | .MOVQ a d => (e.get a).map fun b => (e.set d b, none)
  | .MOVWQZX_arg off d => some (e.set d (none, 65536), some ⟨false, .fp, off, 2⟩)
  | .MOVWQZX _ d => some (e.set d (none, 65536), none)
  | .MOVBQZX _ d => some (e.set d (none, 256), none)
  | .MOVBQZX_mem b d => (areaAt false 0 1 (e.get b)).map fun a => (e.set d (none, 256), some a)
  | .MOVW_ret _ off => if off = ro ∧ ro + 2 < 2 ^ 64 then some (e, some ⟨true, .fp, off, 2⟩) else none
  | .SHLQ n d => (e.get d).map fun b => (e.set d (b.shl n), none)
  | .SHRQ n d => (e.get d).map fun b => (e.set d (b.shr n), none)
  | .ADDQ a d => (e.get a).bind fun b => (e.get d).map fun c => (e.set d (c.add b), none)
  | .VLDDQU disp b _ => (areaAt false disp 16 (e.get b)).map fun a => (e, some a)
  | .VMOVDQU _ disp b => (areaAt true disp 16 (e.get b)).map fun a => ({ e with stored := true }, some a)
  | .VPBROADCASTW sym _ => some (e, some ⟨false, .sym sym, 0, 2⟩)
  | .VBROADCASTSS_arg off _ => some (e, some ⟨false, .fp, off, 4⟩)
  | .VPSHUFB b _ _ => (areaAt false 0 16 (e.get b)).map fun a => (e, some a)
  | .VPMOVMSKB _ d => some (e.set d .top, none)
  | .VPMINUB .. | .VPACKUSWB .. | .VPMINSW .. | .VPADDUSW .. | .VPALIGNR .. | .VPSUBD .. | .VPADDD .. | .VPSLLDQ .. | .VPSHUFD .. =>
    some (e, none)

/-- The areas a routine touches. -/
def areas (ro : Nat) : Abs → List Instr → Option (List Area)
  | _, [] => some []
  | e, i :: is => (absStep ro e i).bind fun (e', a) => (areas ro e' is).map fun as => a.toList ++ as

/-- The bounds hold of a machine that started as `t₀`. -/
structure Bounded (ro : Nat) (t₀ : Mach) (e : Abs) (t : Mach) : Prop where
  fp : t.fp = t₀.fp
  sb : t.sb = t₀.sb
  gp : ∀ r b, e.get r = some b → b.holds t₀ (t.gp r)
  args : e.stored = false → ∀ k < ro, t.mem (t₀.arg k) = t₀.mem (t₀.arg k)

variable {ro : Nat} {t₀ t : Mach} {e : Abs}

theorem Bounded.set (h : Bounded ro t₀ e t) {r : GP} {b : Bnd} {v : U64} (hv : b.holds t₀ v) :
    Bounded ro t₀ (e.set r b) (t.setGP r v) where
  fp := h.fp
  sb := h.sb
  args := h.args
  gp q c hc := by
    rw [Abs.get, Abs.set, List.lookup_cons] at hc
    by_cases hq : q = r
    · subst hq
      rw [beq_self_eq_true] at hc
      cases hc
      simpa [Mach.setGP] using hv
    · rw [beq_eq_false_iff_ne.2 hq] at hc
      simpa [Mach.setGP, hq] using h.gp q c hc

theorem Bounded.x (h : Bounded ro t₀ e t) (r : XR) (v : BitVec 128) : Bounded ro t₀ e (t.setX r v) := ⟨h.fp, h.sb, h.gp, h.args⟩

theorem Bounded.arg (h : Bounded ro t₀ e t) (k : Nat) : t.arg k = t₀.arg k := by rw [Mach.arg, Mach.arg, h.fp]

theorem Bounded.ptr (h : Bounded ro t₀ e t) {off : Nat} (hs : e.stored = false) (ho : off + 8 ≤ ro) :
    readLE t.mem (t.arg off) 8 = t₀.ptrArg off := by
  rw [h.arg, Mach.ptrArg]
  refine readLE_congr fun k hk => ?_
  rw [Mach.arg, add_assoc64]
  exact h.args hs _ (by omega)

theorem reach_step (h : Bounded ro t₀ e t) {i : Instr} {e' : Abs} {a : Option Area} (hs : absStep ro e i = some (e', a)) :
    (∀ x ∈ faccs t i, ∃ b ∈ a, b.has t₀ x) ∧ Bounded ro t₀ e' (fstep t i) := by
  have no : ∀ x ∈ ([] : List Acc), ∃ b ∈ a, b.has t₀ x := fun x hx => by simp at hx
  have small : ∀ {n : Nat} (v : BitVec n), n < 64 → Bnd.holds t₀ (none, 2 ^ n) (v.setWidth 64) := fun v hn => holds_nat _ (by
    rw [BitVec.toNat_setWidth]; exact Nat.lt_of_le_of_lt (Nat.mod_le _ _) v.isLt)
  have h8 : ∀ v : BitVec 8, Bnd.holds t₀ (none, 256) (v.setWidth 64) := fun v => small v (by decide)
  have h16 : ∀ v : BitVec 16, Bnd.holds t₀ (none, 65536) (v.setWidth 64) := fun v => small v (by decide)
  cases i with
  | MOVQ_arg off d =>
    simp only [absStep] at hs
    split at hs
    · rename_i hc
      cases hs
      refine ⟨fun x hx => ⟨_, rfl, has_rd (h.arg off) x hx⟩, h.set ⟨0, Nat.one_pos, ?_⟩⟩
      rw [h.ptr hc.1 hc.2, BitVec.add_zero]; rfl
    · cases hs
  | MOVQ a d =>
    simp only [absStep, Option.map_eq_some_iff] at hs
    obtain ⟨b, hb, hs⟩ := hs; cases hs
    exact ⟨no, h.set (h.gp _ _ hb)⟩
  | MOVWQZX_arg off d => cases hs; exact ⟨fun x hx => ⟨_, rfl, has_rd (h.arg off) x hx⟩, h.set (h16 _)⟩
  | MOVWQZX a d => cases hs; exact ⟨no, h.set (h16 _)⟩
  | MOVBQZX a d => cases hs; exact ⟨no, h.set (h8 _)⟩
  | MOVBQZX_mem b d =>
    simp only [absStep, Option.map_eq_some_iff] at hs
    obtain ⟨a, ha, hs⟩ := hs; cases hs
    refine ⟨fun x hx => ⟨_, rfl, has_at (v := t.gp b) ha (h.gp _) x ?_⟩, h.set (h8 _)⟩
    rw [BitVec.add_zero]; exact hx
  | MOVW_ret a off =>
    simp only [absStep] at hs
    split at hs
    · rename_i hc
      cases hs
      refine ⟨fun x hx => ⟨_, rfl, has_wr (h.arg off) x hx⟩, h.fp, h.sb, h.gp, fun hn k hk => ?_⟩
      refine (writeLE_other _ _ _ _ fun j hj he => ?_).trans (h.args hn k hk)
      rw [h.arg, Mach.arg, Mach.arg, add_assoc64] at he
      have := congrArg (fun z => (z - t₀.fp).toNat) he
      rw [sub_ofNat _ (by omega), sub_ofNat _ (by omega)] at this
      omega
    · cases hs
  | SHLQ n d =>
    simp only [absStep, Option.map_eq_some_iff] at hs
    obtain ⟨b, hb, hs⟩ := hs; cases hs
    exact ⟨no, h.set (holds_shl n (h.gp _ _ hb))⟩
  | SHRQ n d =>
    simp only [absStep, Option.map_eq_some_iff] at hs
    obtain ⟨b, hb, hs⟩ := hs; cases hs
    exact ⟨no, h.set (holds_shr n (h.gp _ _ hb))⟩
  | ADDQ a d =>
    simp only [absStep, Option.bind_eq_some_iff, Option.map_eq_some_iff] at hs
    obtain ⟨b, hb, c, hc, hs⟩ := hs; cases hs
    exact ⟨no, h.set (holds_add (h.gp _ _ hc) (h.gp _ _ hb))⟩
  | VLDDQU disp b d =>
    simp only [absStep, Option.map_eq_some_iff] at hs
    obtain ⟨a, ha, hs⟩ := hs; cases hs
    exact ⟨fun x hx => ⟨_, rfl, has_at (v := t.gp b) ha (h.gp _) x hx⟩, h.x _ _⟩
  | VMOVDQU r disp b =>
    simp only [absStep, Option.map_eq_some_iff] at hs
    obtain ⟨a, ha, hs⟩ := hs; cases hs
    exact ⟨fun x hx => ⟨_, rfl, has_at (v := t.gp b) ha (h.gp _) x hx⟩, h.fp, h.sb, h.gp, fun hn => by cases hn⟩
  | VPBROADCASTW sym d =>
    cases hs
    exact ⟨fun x hx => ⟨_, rfl, has_rd (o := .sym sym) (by rw [h.sb, BitVec.add_zero]; rfl) x hx⟩, h.x _ _⟩
  | VBROADCASTSS_arg off d => cases hs; exact ⟨fun x hx => ⟨_, rfl, has_rd (h.arg off) x hx⟩, h.x _ _⟩
  | VPSHUFB b r d =>
    simp only [absStep, Option.map_eq_some_iff] at hs
    obtain ⟨a, ha, hs⟩ := hs; cases hs
    refine ⟨fun x hx => ⟨_, rfl, has_at (v := t.gp b) ha (h.gp _) x ?_⟩, h.x _ _⟩
    rw [BitVec.add_zero]; exact hx
  | VPMOVMSKB r d => cases hs; exact ⟨no, h.set (holds_top _ _)⟩
  | VPMINUB | VPACKUSWB | VPMINSW | VPADDUSW | VPALIGNR | VPSUBD | VPADDD | VPSLLDQ | VPSHUFD => cases hs; exact ⟨no, h.x _ _⟩

theorem reach : ∀ {is : List Instr} {e : Abs} {t : Mach} {as : List Area}, Bounded ro t₀ e t → areas ro e is = some as →
    ∀ x ∈ ftrace t is, ∃ a ∈ as, a.has t₀ x
  | [], _, _, _, _, _, x, hx => by simp [ftrace] at hx
  | i :: is, e, t, as, h, hs, x, hx => by
    simp only [areas, Option.bind_eq_some_iff, Option.map_eq_some_iff] at hs
    obtain ⟨⟨e', a⟩, h1, bs, h2, rfl⟩ := hs
    obtain ⟨ha, hb⟩ := reach_step h h1
    rcases List.mem_append.1 hx with hx | hx
    · obtain ⟨b, hb, hx⟩ := ha x hx
      exact ⟨b, List.mem_append_left _ (Option.mem_toList.2 hb), hx⟩
    · obtain ⟨b, hb, hx⟩ := reach hb h2 x hx
      exact ⟨b, List.mem_append_right _ hb, hx⟩

theorem reach_entry {is : List Instr} {as : List Area} (t : Mach) (h : areas ro ⟨[], false⟩ is = some as) :
    ∀ x ∈ ftrace t is, ∃ a ∈ as, a.has t x :=
  reach ⟨rfl, rfl, fun _ _ h => by simp [Abs.get] at h, fun _ _ _ => rfl⟩ h

/-! ## What is not accessed for writing does not change -/

theorem fstep_mem (t : Mach) (i : Instr) (q : Addr) (h : Acc.wr q ∉ faccs t i) : (fstep t i).mem q = t.mem q := by
  cases i <;> first
    | rfl
    | exact writeLE_other _ _ _ _ fun k hk he => h (mem_wrN.2 ⟨k, hk, by rw [he]⟩)

theorem fexec_mem : ∀ (is : List Instr) (t : Mach) (q : Addr), Acc.wr q ∉ ftrace t is → (fexec t is).mem q = t.mem q
  | [], _, _, _ => rfl
  | i :: is, t, q, h => by
    rw [fexec, fexec_mem is _ q fun hx => h (List.mem_append_right _ hx), fstep_mem t i q fun hx => h (List.mem_append_left _ hx)]

/-! ## Registers -/

/-- Machines that agree on memory, frame, symbols and on the registers listed. -/
structure Like (gs : List GP) (xs : List XR) (t t' : Mach) : Prop where
  mem : t.mem = t'.mem
  fp : t.fp = t'.fp
  sb : t.sb = t'.sb
  gp : ∀ r ∈ gs, t.gp r = t'.gp r
  x : ∀ r ∈ xs, t.x r = t'.x r

variable {gs : List GP} {xs : List XR} {t' : Mach}

theorem Like.setGP (h : Like gs xs t t') {d : GP} {v v' : U64} (hv : v = v') : Like ([d] ++ gs) ([] ++ xs) (t.setGP d v) (t'.setGP d v') where
  mem := h.mem
  fp := h.fp
  sb := h.sb
  x r hr := h.x r hr
  gp r hr := by
    simp only [Mach.setGP]
    split
    · exact hv
    · rename_i hne
      rcases List.mem_cons.1 hr with e | hr
      · exact absurd e hne
      · exact h.gp r hr

theorem Like.setX (h : Like gs xs t t') {d : XR} {v v' : BitVec 128} (hv : v = v') : Like ([] ++ gs) ([d] ++ xs) (t.setX d v) (t'.setX d v') where
  mem := h.mem
  fp := h.fp
  sb := h.sb
  gp r hr := h.gp r hr
  x r hr := by
    rw [x_setX, x_setX]
    split
    · exact hv
    · rename_i hne
      rcases List.mem_cons.1 hr with e | hr
      · exact absurd e hne
      · exact h.x r hr

theorem Like.store (h : Like gs xs t t') {m m' : FMem} (hm : m = m') :
    Like ([] ++ gs) ([] ++ xs) { t with mem := m } { t' with mem := m' } :=
  ⟨hm, h.fp, h.sb, h.gp, h.x⟩

theorem like_step (h : Like gs xs t t') {i : Instr} (hg : ∀ r ∈ i.readsG, r ∈ gs) (hx : ∀ r ∈ i.readsX, r ∈ xs) :
    faccs t i = faccs t' i ∧ Like (i.writesG ++ gs) (i.writesX ++ xs) (fstep t i) (fstep t' i) := by
  have ga : ∀ k, t.arg k = t'.arg k := fun k => by rw [Mach.arg, Mach.arg, h.fp]
  cases i <;> simp only [Instr.readsG, Instr.readsX, List.forall_mem_cons, List.not_mem_nil, false_implies, implies_true, and_true] at hg hx <;>
    simp only [faccs, fstep, Instr.writesG, Instr.writesX, ga] <;>
    first
      | exact ⟨by first | trivial | rw [h.gp _ hg] | rw [h.sb], h.setGP (by first | (rw [h.gp _ hg, h.mem]; done) | (rw [h.mem]; done) | (rw [h.gp _ hg]; done) | (rw [h.gp _ hg.1, h.gp _ hg.2]; done) | (rw [h.x _ hx]; done))⟩
      | exact ⟨by first | trivial | rw [h.gp _ hg] | rw [h.sb], h.setX (by first | (rw [h.x _ hx.1, h.x _ hx.2]; done) | (rw [h.x _ hx]; done) | (rw [h.x _ hx, h.gp _ hg, h.mem]; done) | (rw [h.mem, h.gp _ hg]; done) | (rw [h.mem, h.sb]; done) | (rw [h.mem]; done))⟩
      | exact ⟨by first | trivial | rw [h.gp _ hg], h.store (by first | (rw [h.mem, h.gp _ hg]; done) | (rw [h.mem, h.gp _ hg, h.x _ hx]; done))⟩

theorem like_exec {outs : List Nat} : ∀ {is : List Instr} {gs : List GP} {xs : List XR} {rs : List Nat} {t t' : Mach}, Like gs xs t t' →
    defined outs gs xs rs is = true → ftrace t is = ftrace t' is ∧ (fexec t is).mem = (fexec t' is).mem
  | [], _, _, _, _, _, h, _ => ⟨rfl, h.mem⟩
  | i :: is, gs, xs, rs, t, t', h, hd => by
    simp only [defined, Bool.and_eq_true, List.all_eq_true, List.contains_iff_mem] at hd
    obtain ⟨⟨h1, h2⟩, h3⟩ := hd
    obtain ⟨ha, hl⟩ := like_step h h1 h2
    obtain ⟨hb, hm⟩ := like_exec hl h3
    exact ⟨by rw [ftrace, ftrace, ha, hb], hm⟩

/-- Upper half of a YMM register. -/
def Mach.upper (t : Mach) (r : XR) : BitVec 128 := (t.y r).extractLsb' 128 128

theorem upper_set (v : BitVec 128) : (v.setWidth 256).extractLsb' 128 128 = 0 := by
  apply BitVec.eq_of_getLsbD_eq
  intro i hi
  rw [BitVec.getLsbD_extractLsb', BitVec.getLsbD_setWidth, BitVec.getLsbD_of_ge v _ (by omega)]
  simp

theorem upper_step (t : Mach) (i : Instr) (r : XR) :
    (r ∈ i.writesX ∧ (fstep t i).upper r = 0) ∨ (r ∉ i.writesX ∧ (fstep t i).y r = t.y r) := by
  have set : ∀ (d : XR) (v : BitVec 128), (r ∈ [d] ∧ (t.setX d v).upper r = 0) ∨ (r ∉ [d] ∧ (t.setX d v).y r = t.y r) := fun d v => by
    by_cases e : r = d
    · exact .inl ⟨List.mem_singleton.2 e, by simp only [Mach.upper, Mach.setX, if_pos e, upper_set]⟩
    · exact .inr ⟨fun h => e (List.mem_singleton.1 h), by simp only [Mach.setX, if_neg e]⟩
  cases i <;> first
    | exact set _ _
    | exact .inr ⟨by simp [Instr.writesX], rfl⟩

theorem upper_exec : ∀ (is : List Instr) (t : Mach) (r : XR),
    ((∃ i ∈ is, r ∈ i.writesX) ∧ (fexec t is).upper r = 0) ∨ ((∀ i ∈ is, r ∉ i.writesX) ∧ (fexec t is).y r = t.y r)
  | [], _, _ => .inr ⟨fun _ h => by simp at h, rfl⟩
  | i :: is, t, r => by
    rcases upper_exec is (fstep t i) r with ⟨⟨j, hj, hr⟩, h⟩ | ⟨hn, h⟩
    · exact .inl ⟨⟨j, List.mem_cons_of_mem _ hj, hr⟩, h⟩
    · rcases upper_step t i r with ⟨hw, hu⟩ | ⟨hw, hu⟩
      · refine .inl ⟨⟨i, List.mem_cons_self, hw⟩, ?_⟩
        rw [fexec, Mach.upper, h]; exact hu
      · exact .inr ⟨List.forall_mem_cons.2 ⟨hw, hn⟩, h.trans hu⟩

theorem gp_exec : ∀ (is : List Instr) (t : Mach) (r : GP), (∀ i ∈ is, r ∉ i.writesG) → (fexec t is).gp r = t.gp r
  | [], _, _, _ => rfl
  | i :: is, t, r, h => by
    obtain ⟨h1, h2⟩ := List.forall_mem_cons.1 h
    rw [fexec, gp_exec is _ r h2]
    have set : ∀ (d : GP) (v : U64), r ∉ [d] → (t.setGP d v).gp r = t.gp r := fun d v hn => by
      simp only [Mach.setGP, if_neg fun e => hn (List.mem_singleton.2 e)]
    cases i <;> first
      | exact set _ _ h1
      | rfl

end SVB.Flat
