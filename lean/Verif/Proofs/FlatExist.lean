import Verif.Proofs.FlatRun
import Verif.Model.Dispatch

/-! # The library on flat memory: every function can be executed -/

set_option autoImplicit false

namespace SVB.Flat
open Asm

/-! ## A state to call a function in -/

/-- The number a slot holds. -/
def slotNum (L : Layout) : Slot → U64
  | .ptr p => L.addr p
  | .q v => v
  | .d v => v.setWidth 64
  | .w v => v.setWidth 64

/-- Memory with the arguments on the stack. -/
def fill (L : Layout) (fp : Addr) : Frame → FMem → FMem
  | [], mem => mem
  | (off, sl) :: fr, mem => writeLE (fill L fp fr mem) (fp + BitVec.ofNat 64 off) (slotSize sl) (slotNum L sl)

theorem readLE_writeLE {w : Nat} (m : FMem) (a : Addr) {n : Nat} (v : BitVec w) (hn : n < 2 ^ 64) :
    readLE (writeLE m a n v) a n = v.setWidth (8 * n) := by
  refine BitVec.eq_of_getLsbD_eq fun j hj => ?_
  rw [readLE_bit _ _ _ _ hj, writeLE_at _ _ _ (by omega) hn, BitVec.getLsbD_extractLsb', BitVec.getLsbD_setWidth]
  have e : 8 * (j / 8) + j % 8 = j := by omega
  rw [e]
  simp [hj]
  omega

theorem holds_num {L : Layout} {mem : FMem} {a : Addr} {sl : Slot}
    (h : readLE mem a (slotSize sl) = (slotNum L sl).setWidth (8 * slotSize sl)) : L.holds mem a sl := by
  cases sl with
  | ptr p => exact h.trans (BitVec.setWidth_eq _)
  | q v => exact h.trans (BitVec.setWidth_eq _)
  | d v => exact h.trans (BitVec.setWidth_setWidth_of_le _ (by simp [slotSize]) |>.trans (BitVec.setWidth_eq _))
  | w v => exact h.trans (BitVec.setWidth_setWidth_of_le _ (by simp [slotSize]) |>.trans (BitVec.setWidth_eq _))

theorem num_holds {L : Layout} {mem : FMem} {a : Addr} {sl : Slot} (h : L.holds mem a sl) :
    readLE mem a (slotSize sl) = (slotNum L sl).setWidth (8 * slotSize sl) := by
  cases sl with
  | ptr p => exact Eq.trans h (BitVec.setWidth_eq _).symm
  | q v => exact Eq.trans h (BitVec.setWidth_eq _).symm
  | d v => exact Eq.trans h (BitVec.setWidth_setWidth_of_le _ (by simp) |>.trans (BitVec.setWidth_eq _)).symm
  | w v => exact Eq.trans h (BitVec.setWidth_setWidth_of_le _ (by simp) |>.trans (BitVec.setWidth_eq _)).symm

theorem size_lt (sl : Slot) : slotSize sl < 2 ^ 64 := by cases sl <;> simp [slotSize]

theorem add_inj64 {a : Addr} {i j : Nat} (hi : i < 2 ^ 64) (hj : j < 2 ^ 64) (h : a + BitVec.ofNat 64 i = a + BitVec.ofNat 64 j) :
    i = j := by
  have := congrArg (fun x => (x - a).toNat) h
  rwa [sub_ofNat a hi, sub_ofNat a hj] at this

theorem fill_off {L : Layout} {fp : Addr} {mem : FMem} {n : Nat} (hn : n < 2 ^ 64) {q : Addr}
    (hq : ∀ k < n, q ≠ fp + BitVec.ofNat 64 k) : ∀ {fr : Frame}, (∀ e ∈ fr, e.1 + slotSize e.2 ≤ n) → fill L fp fr mem q = mem q
  | [], _ => rfl
  | (off, sl) :: fr, h => by
    rw [fill, writeLE_other _ _ _ _ fun k hk => ?_]
    · exact fill_off hn hq fun e he => h e (.tail _ he)
    · rw [add_assoc64]
      exact hq _ (by have := h _ (.head _); simp only at this; omega)

/-- The slots of a frame do not overlap. -/
def Sep (fr : Frame) : Prop := fr.Pairwise fun a b => a.1 + slotSize a.2 ≤ b.1 ∨ b.1 + slotSize b.2 ≤ a.1

theorem fill_holds {L : Layout} {fp : Addr} {mem : FMem} {n : Nat} (hn : n < 2 ^ 64) : ∀ {fr : Frame},
    (∀ e ∈ fr, e.1 + slotSize e.2 ≤ n) → Sep fr → ∀ off sl, fr.get off = some sl →
      L.holds (fill L fp fr mem) (fp + BitVec.ofNat 64 off) sl
  | [], _, _, _, _, h => by cases h
  | (o, s) :: fr, h, hs, off, sl, hg => by
    rw [Frame.get, List.lookup_cons] at hg
    split at hg
    · rename_i e
      have e : off = o := by simpa using e
      cases hg
      rw [e]
      exact holds_num (readLE_writeLE _ _ _ (size_lt _))
    · have ih := num_holds (fill_holds (mem := mem) (L := L) (fp := fp) hn (fun e he => h e (.tail _ he)) hs.of_cons off sl hg)
      have hm := lookup_mem hg
      have h1 := List.rel_of_pairwise_cons hs hm
      have h2 := h _ (.head _)
      have h3 := h _ (.tail _ hm)
      simp only at h1 h2 h3
      refine holds_num (Eq.trans ?_ ih)
      refine readLE_congr fun k hk => ?_
      rw [fill, writeLE_other]
      intro j hj
      rw [add_assoc64, add_assoc64]
      intro e
      have := add_inj64 (by omega) (by omega) e
      omega

theorem entry_exists {L : Layout} {stk : Addr → Prop} (hr : Room stk) {fr : Frame} {n : Nat} (hn : n ≤ 74)
    (h : ∀ e ∈ fr, e.1 + slotSize e.2 ≤ n) (hs : Sep fr) (mem : FMem) : ∃ t, Entry L stk fr n mem t := by
  obtain ⟨fp, hr⟩ := hr
  refine ⟨⟨fun _ => 0, fun _ => 0, fill L fp fr mem, fp, L.base⟩, fun q hq => ?_, fun k hk => hr k (by omega), ?_, fun _ _ => rfl⟩
  · exact fill_off (n := 74) (q := q) (by decide) (fun k hk e => hq (e ▸ hr k hk)) fun e he => Nat.le_trans (h e he) hn
  · exact fill_holds (n := 74) (by decide) (fun e he => Nat.le_trans (h e he) hn) hs

/-! ## Executions one after the other -/

variable {L : Layout} {stk : Addr → Prop} {α β : Type}

theorem _root_.SVB.Prog.bind_ret (p : Prog α) : p.bind .ret = p := by
  induction p with
  | ret a => rfl
  | panic k => rfl
  | load p k ih => exact congrArg _ (funext ih)
  | store p v k ih => exact congrArg _ ih

theorem frun_bind_ok {p : Prog α} {mem mem' : FMem} {r : Outcome α} (h : FRun L stk p mem r mem') :
    ∀ {a : α}, r = .ok a → ∀ {f : α → Prog β} {o : Outcome β} {mem'' : FMem}, FRun L stk (f a) mem' o mem'' →
      FRun L stk (p.bind f) mem o mem'' := by
  induction h with
  | ret a mem => intro a e f o m h; cases e; exact h
  | panic k mem => intro a e; cases e
  | load hp h ih => exact fun e _ _ _ hf => .load hp (ih e hf)
  | store h ih => exact fun e _ _ _ hf => .store (ih e hf)
  | put8 he h ih => intro a e f o m hf; rw [Prog.bind_assoc]; exact .put8 he (ih e hf)
  | put8Delta he h ih => intro a e f o m hf; rw [Prog.bind_assoc]; exact .put8Delta he (ih e hf)
  | get8 he h ih => intro a e f o m hf; rw [Prog.bind_assoc]; exact .get8 he (ih e hf)
  | get8Delta he h ih => intro a e f o m hf; rw [Prog.bind_assoc]; exact .get8Delta he (ih e hf)

theorem frun_bind_panic {p : Prog α} {mem mem' : FMem} {r : Outcome α} (h : FRun L stk p mem r mem') :
    ∀ {k : Panic}, r = .panic k → ∀ {f : α → Prog β}, FRun L stk (p.bind f) mem (.panic k) mem' := by
  induction h with
  | ret a mem => intro k e; cases e
  | panic k mem => intro k e f; cases e; exact .panic _ _
  | load hp h ih => exact fun e _ => .load hp (ih e)
  | store h ih => exact fun e _ => .store (ih e)
  | put8 he h ih => intro k e f; rw [Prog.bind_assoc]; exact .put8 he (ih e)
  | put8Delta he h ih => intro k e f; rw [Prog.bind_assoc]; exact .put8Delta he (ih e)
  | get8 he h ih => intro k e f; rw [Prog.bind_assoc]; exact .get8 he (ih e)
  | get8Delta he h ih => intro k e f; rw [Prog.bind_assoc]; exact .get8Delta he (ih e)

/-! ## What can be executed -/

/-- `p` can be executed from every memory, and a value it returns satisfies `P`. -/
def CanP (L : Layout) (stk : Addr → Prop) (P : α → Prop) (p : Prog α) : Prop :=
  ∀ mem, ∃ o mem', FRun L stk p mem o mem' ∧ ∀ a, o = .ok a → P a

abbrev Can (L : Layout) (stk : Addr → Prop) (p : Prog α) : Prop := CanP L stk (fun _ => True) p

theorem can_ret {P : α → Prop} {a : α} (h : P a) : CanP L stk P (.ret a) := fun mem =>
  ⟨_, _, .ret a mem, fun _ e => by cases e; exact h⟩

theorem can_panic {P : α → Prop} {k : Panic} : CanP L stk P (.panic k) := fun mem =>
  ⟨_, _, .panic k mem, fun _ e => by cases e⟩

theorem can_bind {P : α → Prop} {Q : β → Prop} {p : Prog α} {f : α → Prog β} (h : CanP L stk P p)
    (hf : ∀ a, P a → CanP L stk Q (f a)) : CanP L stk Q (p.bind f) := fun mem => by
  obtain ⟨o, mem', h1, h2⟩ := h mem
  cases o with
  | ok a =>
    obtain ⟨o, mem'', h3, h4⟩ := hf a (h2 a rfl) mem'
    exact ⟨o, mem'', frun_bind_ok h1 rfl h3, h4⟩
  | panic k => exact ⟨_, _, frun_bind_panic h1 rfl, fun _ e => by cases e⟩

theorem can_un {Q : β → Prop} {p : Prog α} {f : α → Prog β} (h : Can L stk p) (hf : ∀ a, CanP L stk Q (f a)) :
    CanP L stk Q (p.bind f) := can_bind h fun a _ => hf a

theorem can_mono {P Q : α → Prop} {p : Prog α} (h : CanP L stk P p) (hQ : ∀ a, P a → Q a) : CanP L stk Q p := fun mem => by
  obtain ⟨o, mem', h1, h2⟩ := h mem
  exact ⟨o, mem', h1, fun a e => hQ a (h2 a e)⟩

theorem can_if {c : Prop} [Decidable c] {P : α → Prop} {p q : Prog α} (h : CanP L stk P p) (h' : CanP L stk P q) :
    CanP L stk P (if c then p else q) := by split <;> assumption

theorem can_loop {σ : Type} {cond : σ → Bool} {body : σ → Prog σ} (hb : ∀ s, Can L stk (body s)) :
    ∀ {fuel : Nat} {s : σ}, Can L stk (loop fuel cond body s) := by
  intro fuel
  induction fuel with
  | zero =>
    intro s; unfold loop; split
    · exact can_panic
    · exact can_ret trivial
  | succ n ih =>
    intro s; unfold loop; split
    · exact can_un (hb s) fun _ => ih
    · exact can_ret trivial

theorem can_load8 {p : Ptr} (h : asmOnly p.blk = false) : Can L stk (load8 p) := fun mem =>
  ⟨_, _, .load h (.ret _ mem), fun _ _ => trivial⟩

theorem can_store8 {p : Ptr} {v : Byte} : Can L stk (store8 p v) := fun _ => ⟨_, _, .store (.ret _ _), fun _ _ => trivial⟩

theorem can_from {e : Nat} {s : Slice e} {i : Int} (h : asmOnly s.blk = false) :
    CanP L stk (fun t => asmOnly t.blk = false) (s.from i) := by
  unfold Slice.from; split
  · exact can_ret h
  · exact can_panic

theorem can_range {e : Nat} {s : Slice e} {i j : Int} (h : asmOnly s.blk = false) :
    CanP L stk (fun t => asmOnly t.blk = false) (s.range i j) := by
  unfold Slice.range; split
  · exact can_ret h
  · exact can_panic

theorem can_getB {s : Bytes} {i : Int} (h : asmOnly s.blk = false) : Can L stk (getB s i) := by
  unfold getB; split
  · exact can_load8 h
  · exact can_panic

theorem can_setB {s : Bytes} {i : Int} {v : Byte} : Can L stk (setB s i v) := by
  unfold setB; split
  · exact can_store8
  · exact can_panic

theorem can_getW {s : U32s} {i : Int} (h : asmOnly s.blk = false) : Can L stk (getW s i) := by
  unfold getW; split
  · exact can_un (can_load8 h) fun _ => can_un (can_load8 h) fun _ => can_un (can_load8 h) fun _ => can_un (can_load8 h) fun _ =>
      can_ret trivial
  · exact can_panic

theorem can_setW {s : U32s} {i : Int} {v : U32} : Can L stk (setW s i v) := by
  unfold setW; split
  · exact can_un can_store8 fun _ => can_un can_store8 fun _ => can_un can_store8 fun _ => can_store8
  · exact can_panic

theorem can_zeroFill (n : Nat) : ∀ p, Can L stk (zeroFill p n) := by
  induction n with
  | zero => exact fun _ => can_ret trivial
  | succ n ih => exact fun p => can_un can_store8 fun _ => ih _

theorem can_make {b : Block} {n : Int} (h : asmOnly b = false) : CanP L stk (fun t => asmOnly t.blk = false) (makeBytes b n) := by
  unfold makeBytes; split
  · exact can_un (can_zeroFill _ _) fun _ => can_ret h
  · exact can_panic

theorem can_size {c : Byte} : Can L stk (controlByteToSize c) := can_un (can_load8 rfl) fun _ => can_ret trivial

theorem can_sizeTwo {c : U16} : Can L stk (controlByteToSizeTwo c) := by
  unfold controlByteToSizeTwo
  exact can_if (can_un (can_load8 rfl) fun _ => can_un (can_load8 rfl) fun _ => can_ret trivial) can_panic

theorem can_put8F (hr : Room stk) {inn : U32s} {out : Bytes} : Can L stk (put8uint32FastAsm inn out encShufPtr ctrlLenPtr) := by
  intro mem
  obtain ⟨t, ht⟩ := entry_exists (L := L) hr (fr := put8Args inn out) (n := 66) (by decide)
    (by simp [put8Args, sliceArg, slotSize]) (by simp [Sep, put8Args, sliceArg, slotSize]) mem
  have := FRun.put8 ht (.ret _ _)
  rw [Prog.bind_ret] at this
  exact ⟨_, _, this, fun _ _ => trivial⟩

theorem can_put8DF (hr : Room stk) {inn : U32s} {out : Bytes} {prev : U32} :
    Can L stk (put8uint32DeltaFastAsm inn out prev encShufPtr ctrlLenPtr) := by
  intro mem
  obtain ⟨t, ht⟩ := entry_exists (L := L) hr (fr := put8DeltaArgs inn out prev) (n := 74) (by decide)
    (by simp [put8DeltaArgs, sliceArg, slotSize]) (by simp [Sep, put8DeltaArgs, sliceArg, slotSize]) mem
  have := FRun.put8Delta ht (.ret _ _)
  rw [Prog.bind_ret] at this
  exact ⟨_, _, this, fun _ _ => trivial⟩

theorem can_get8F (hr : Room stk) {inn : Bytes} {out : U32s} {ctrl : U16} :
    Can L stk (get8uint32FastAsm inn out ctrl decShufPtr ctrlLenPtr) := by
  intro mem
  obtain ⟨t, ht⟩ := entry_exists (L := L) hr (fr := get8Args inn out ctrl) (n := 72) (by decide)
    (by simp [get8Args, sliceArg, slotSize]) (by simp [Sep, get8Args, sliceArg, slotSize]) mem
  have := FRun.get8 ht (.ret _ _)
  rw [Prog.bind_ret] at this
  exact ⟨_, _, this, fun _ _ => trivial⟩

theorem can_get8DF (hr : Room stk) {inn : Bytes} {out : U32s} {ctrl : U16} {prev : U32} :
    Can L stk (get8uint32DeltaFastAsm inn out ctrl prev decShufPtr ctrlLenPtr) := by
  intro mem
  obtain ⟨t, ht⟩ := entry_exists (L := L) hr (fr := get8DeltaArgs inn out ctrl prev) (n := 72) (by decide)
    (by simp [get8DeltaArgs, sliceArg, slotSize]) (by simp [Sep, get8DeltaArgs, sliceArg, slotSize]) mem
  have := FRun.get8Delta ht (.ret _ _)
  rw [Prog.bind_ret] at this
  exact ⟨_, _, this, fun _ _ => trivial⟩

/-! ## The Go functions -/

theorem can_fr {Q : β → Prop} {e : Nat} {s : Slice e} {i : Int} {f : Slice e → Prog β} (h : asmOnly s.blk = false)
    (hf : ∀ t, asmOnly t.blk = false → CanP L stk Q (f t)) : CanP L stk Q ((s.from i).bind f) := can_bind (can_from h) hf

theorem can_rg {Q : β → Prop} {e : Nat} {s : Slice e} {i j : Int} {f : Slice e → Prog β} (h : asmOnly s.blk = false)
    (hf : ∀ t, asmOnly t.blk = false → CanP L stk Q (f t)) : CanP L stk Q ((s.range i j).bind f) := can_bind (can_range h) hf

theorem can_row {c : Byte} : Can L stk (perNumLenRow c) :=
  can_un (can_load8 rfl) fun _ => can_un (can_load8 rfl) fun _ => can_un (can_load8 rfl) fun _ => can_un (can_load8 rfl) fun _ =>
    can_ret trivial

/-- One step through a function. -/
local macro "can1" : tactic => `(tactic| with_reducible first
  | assumption
  | exact can_panic
  | exact can_ret trivial
  | exact can_setB
  | exact can_setW
  | exact can_size
  | exact can_sizeTwo
  | exact can_store8
  | exact can_getB (by assumption)
  | exact can_getW (by assumption)
  | exact can_row
  | refine can_fr ?_ fun _ _ => ?_
  | refine can_rg ?_ fun _ _ => ?_
  | refine can_if ?_ ?_
  | refine can_loop fun _ => ?_)

theorem can_encodeOne {num : U32} {out : Bytes} : Can L stk (encodeOne num out) := by
  unfold encodeOne
  simp only [Prog.bind_eq, Prog.pure_eq]
  repeat' first | can1 | with_reducible refine can_un ?_ fun _ => ?_

theorem can_decodeOne {b : Bytes} {size : Byte} (h : asmOnly b.blk = false) : Can L stk (decodeOne b size) := by
  unfold decodeOne
  simp only [Prog.bind_eq, Prog.pure_eq]
  repeat' first | can1 | with_reducible refine can_un ?_ fun _ => ?_

theorem can_put4 {inn : U32s} {out : Bytes} (hi : asmOnly inn.blk = false) (ho : asmOnly out.blk = false) :
    Can L stk (put4uint32Scalar inn out) := by
  unfold put4uint32Scalar
  simp only [Prog.bind_eq, Prog.pure_eq]
  repeat' first | can1 | with_reducible exact can_encodeOne | with_reducible refine can_un ?_ fun _ => ?_

theorem can_put4D {inn : U32s} {out : Bytes} {prev : U32} (hi : asmOnly inn.blk = false) (ho : asmOnly out.blk = false) :
    Can L stk (put4uint32DeltaScalar inn out prev) := by
  unfold put4uint32DeltaScalar
  simp only [Prog.bind_eq, Prog.pure_eq]
  repeat' first | can1 | with_reducible exact can_encodeOne | with_reducible refine can_un ?_ fun _ => ?_

theorem can_put8 {inn : U32s} {out : Bytes} (hi : asmOnly inn.blk = false) (ho : asmOnly out.blk = false) :
    Can L stk (put8uint32Scalar inn out) := by
  unfold put8uint32Scalar
  simp only [Prog.bind_eq, Prog.pure_eq]
  repeat' first | can1 | with_reducible exact can_put4 ‹_› ‹_› | with_reducible refine can_un ?_ fun _ => ?_

theorem can_put8D {inn : U32s} {out : Bytes} {prev : U32} (hi : asmOnly inn.blk = false) (ho : asmOnly out.blk = false) :
    Can L stk (put8uint32DeltaScalar inn out prev) := by
  unfold put8uint32DeltaScalar
  simp only [Prog.bind_eq, Prog.pure_eq]
  repeat' first | can1 | with_reducible exact can_put4D ‹_› ‹_› | with_reducible refine can_un ?_ fun _ => ?_

theorem can_putN {inn : U32s} {out : Bytes} {count : Int} (hi : asmOnly inn.blk = false) (ho : asmOnly out.blk = false) :
    Can L stk (putUint32Scalar inn out count) := by
  unfold putUint32Scalar
  simp only [Prog.bind_eq, Prog.pure_eq]
  repeat' first | can1 | with_reducible exact can_encodeOne | with_reducible refine can_un ?_ fun _ => ?_

theorem can_putND {inn : U32s} {out : Bytes} {count : Int} {prev : U32} (hi : asmOnly inn.blk = false)
    (ho : asmOnly out.blk = false) : Can L stk (putUint32DeltaScalar inn out count prev) := by
  unfold putUint32DeltaScalar
  simp only [Prog.bind_eq, Prog.pure_eq]
  repeat' first | can1 | with_reducible exact can_encodeOne | with_reducible refine can_un ?_ fun _ => ?_

theorem can_get4 {inn : Bytes} {out : U32s} {c : Byte} (hi : asmOnly inn.blk = false) :
    Can L stk (get4uint32Scalar inn out c) := by
  unfold get4uint32Scalar
  simp only [Prog.bind_eq]
  refine can_un can_row fun ⟨_, _, _, _⟩ => ?_
  repeat' first | can1 | with_reducible exact can_decodeOne ‹_› | with_reducible refine can_un ?_ fun _ => ?_

theorem can_get4D {inn : Bytes} {out : U32s} {c : Byte} {prev : U32} (hi : asmOnly inn.blk = false) (ho : asmOnly out.blk = false) :
    Can L stk (get4uint32DeltaScalar inn out c prev) := by
  unfold get4uint32DeltaScalar
  simp only [Prog.bind_eq]
  refine can_un can_row fun ⟨_, _, _, _⟩ => ?_
  repeat' first | can1 | with_reducible exact can_decodeOne ‹_› | with_reducible refine can_un ?_ fun _ => ?_

theorem can_get8 {inn : Bytes} {out : U32s} {c : U16} (hi : asmOnly inn.blk = false) (ho : asmOnly out.blk = false) :
    Can L stk (get8uint32Scalar inn out c) := by
  unfold get8uint32Scalar
  simp only [Prog.bind_eq]
  repeat' first | can1 | with_reducible exact can_get4 ‹_› | with_reducible refine can_un ?_ fun _ => ?_

theorem can_get8D {inn : Bytes} {out : U32s} {c : U16} {prev : U32} (hi : asmOnly inn.blk = false) (ho : asmOnly out.blk = false) :
    Can L stk (get8uint32DeltaScalar inn out c prev) := by
  unfold get8uint32DeltaScalar
  simp only [Prog.bind_eq]
  repeat' first | can1 | with_reducible exact can_get4D ‹_› ‹_› | with_reducible refine can_un ?_ fun _ => ?_

theorem can_getN {inn : Bytes} {out : U32s} {c : Byte} {count : Int} (hi : asmOnly inn.blk = false) :
    Can L stk (getUint32Scalar inn out c count) := by
  unfold getUint32Scalar
  simp only [Prog.bind_eq, Prog.pure_eq]
  repeat' first | can1 | with_reducible exact can_decodeOne ‹_› | with_reducible refine can_un ?_ fun _ => ?_

theorem can_getND {inn : Bytes} {out : U32s} {c : Byte} {count : Int} {prev : U32} (hi : asmOnly inn.blk = false) :
    Can L stk (getUint32DeltaScalar inn out c count prev) := by
  unfold getUint32DeltaScalar
  simp only [Prog.bind_eq, Prog.pure_eq]
  repeat' first | can1 | with_reducible exact can_decodeOne ‹_› | with_reducible refine can_un ?_ fun _ => ?_

/-! ## The streams -/

/-- One step through a reader or writer. -/
local macro "can2" : tactic => `(tactic| with_reducible first
  | can1
  | exact can_put4 ‹_› ‹_›
  | exact can_put4D ‹_› ‹_›
  | exact can_putN ‹_› ‹_›
  | exact can_putND ‹_› ‹_›
  | exact can_get4 ‹_›
  | exact can_get4D ‹_› ‹_›
  | exact can_getN ‹_›
  | exact can_getND ‹_›
  | exact can_put8F ‹_›
  | exact can_put8DF ‹_›
  | exact can_get8F ‹_›
  | exact can_get8DF ‹_›
  | exact can_mono (can_range ‹_›) fun _ _ => trivial
  | refine can_bind (can_make ‹_›) fun _ _ => ?_
  | refine can_un ?_ fun _ => ?_)

section
variable {fresh : Block} {inn : U32s} {prev : U32}

theorem can_writeS (hb : asmOnly fresh = false) (hi : asmOnly inn.blk = false) : Can L stk (writeAllScalar fresh inn) := by
  unfold writeAllScalar wsBody16 wsBody4
  simp only [Prog.bind_eq, Prog.pure_eq]
  repeat' can2

theorem can_writeDS (hb : asmOnly fresh = false) (hi : asmOnly inn.blk = false) : Can L stk (writeAllDeltaScalar fresh inn prev) := by
  unfold writeAllDeltaScalar wdsBody16 wdsBody4
  simp only [Prog.bind_eq, Prog.pure_eq]
  repeat' can2

theorem can_writeF (hr : Room stk) (hb : asmOnly fresh = false) (hi : asmOnly inn.blk = false) :
    Can L stk (writeAllFast fresh inn) := by
  unfold writeAllFast wfBody32 wfBody8 wfBody1
  simp only [Prog.bind_eq, Prog.pure_eq]
  repeat' can2

theorem can_writeDF (hr : Room stk) (hb : asmOnly fresh = false) (hi : asmOnly inn.blk = false) :
    Can L stk (writeAllDeltaFast fresh inn prev) := by
  unfold writeAllDeltaFast wdfBody32 wdfBody8 wdfBody1
  simp only [Prog.bind_eq, Prog.pure_eq]
  repeat' can2

end

section
variable {count : Int} {stream : Bytes} {out : U32s} {prev : U32}

theorem can_readS (hs : asmOnly stream.blk = false) (ho : asmOnly out.blk = false) : Can L stk (readAllScalar count stream out) := by
  unfold readAllScalar rsBody16 rsBody4
  simp only [Prog.bind_eq, Prog.pure_eq]
  repeat' can2

theorem can_readDS (hs : asmOnly stream.blk = false) (ho : asmOnly out.blk = false) :
    Can L stk (readAllDeltaScalar count stream out prev) := by
  unfold readAllDeltaScalar rdsBody16 rdsBody4
  simp only [Prog.bind_eq, Prog.pure_eq]
  repeat' can2

theorem can_readF (hr : Room stk) (hs : asmOnly stream.blk = false) (ho : asmOnly out.blk = false) :
    Can L stk (readAllFast count stream out) := by
  unfold readAllFast rfBody32 rfBody8 rfBody1
  simp only [Prog.bind_eq, Prog.pure_eq]
  repeat' can2

theorem can_readDF (hr : Room stk) (hs : asmOnly stream.blk = false) (ho : asmOnly out.blk = false) :
    Can L stk (readAllDeltaFast count stream out prev) := by
  unfold readAllDeltaFast rdfBody32 rdfBody8 rdfBody1
  simp only [Prog.bind_eq, Prog.pure_eq]
  repeat' can2

end

end SVB.Flat
