import Verif.Proofs.SimWriter
import Verif.Proofs.AsmRegs

/-! # The vectorised block encoders on an input that changes -/

set_option autoImplicit false
set_option linter.unusedSimpArgs false

namespace SVB
open Spec Asm

variable {fresh : Block} {inn : U32s} {may : Ptr → Byte → Prop} {V : Nat → U32 → Prop}

section
variable {α β : Type} {R : α → β → List U32 → Prop} {ws : List U32}

theorem sim_left_loadN {n : Nat} {p : Ptr} (hm : ∀ o, ¬ Mine fresh ⟨inn.blk, o⟩) (hb : p.blk = inn.blk) {f : List Byte → Prog α}
    {q : Prog β} (h : ∀ bs : List Byte, (∀ k < n, may ⟨p.blk, p.off + k⟩ (bs.getD k 0)) → Sim fresh inn may V R ws (f bs) q) :
    Sim fresh inn may V R ws ((loadN p n).bind f) q := by
  induction n generalizing p f with
  | zero => exact h [] (by intro k hk; omega)
  | succ n ih =>
    unfold loadN
    refine .left (by have := hm p.off; rwa [← hb] at this) fun b hb' => ?_
    show Sim fresh inn may V R ws (((loadN (p.add 1) n).bind fun bs => .ret (b :: bs)).bind f) q
    rw [Prog.bind_assoc]
    refine ih (p := p.add 1) hb fun bs hbs => h (b :: bs) fun k hk => ?_
    cases k with
    | zero => exact hb'
    | succ k =>
      have := hbs k (by omega)
      rw [show (p.add 1).off + k = p.off + (k + 1) by simp only [Ptr.add]; omega] at this
      exact this

theorem sim_right_loadN {n : Nat} {p' : Ptr} (hb : p'.blk = inn.blk) {p : Prog α} {g : List Byte → Prog β} (v : Nat → Byte)
    (hv : ∀ k < n, ∃ j r w, ws[j]? = some w ∧ r < 4 ∧ p'.off + k = inn.off + 4 * j + r ∧ v k = wbyte w r)
    (h : ∀ bs : List Byte, (∀ k < n, bs.getD k 0 = v k) → Sim fresh inn may V R ws p (g bs)) :
    Sim fresh inn may V R ws p ((loadN p' n).bind g) := by
  induction n generalizing p' g v with
  | zero => exact h [] (by intro k hk; omega)
  | succ n ih =>
    unfold loadN
    obtain ⟨j, r, w, h1, h2, h3, h4⟩ := hv 0 (by omega)
    refine .right j r w h1 h2 (by cases p'; simp only at hb h3 ⊢; subst hb; congr 1) ?_
    rw [← h4]
    show Sim fresh inn may V R ws p (((loadN (p'.add 1) n).bind fun bs => .ret (v 0 :: bs)).bind g)
    rw [Prog.bind_assoc]
    refine ih (p' := p'.add 1) hb (fun k => v (k + 1)) (fun k hk => ?_) fun bs hbs => h (v 0 :: bs) fun k hk => ?_
    · obtain ⟨j, r, w, h1, h2, h3, h4⟩ := hv (k + 1) (by omega)
      exact ⟨j, r, w, h1, h2, by simp only [Ptr.add]; omega, h4⟩
    · cases k with
      | zero => rfl
      | succ k => exact hbs k (by omega)

theorem sim_left_load16 {p : Ptr} (hm : ∀ o, ¬ Mine fresh ⟨inn.blk, o⟩) (hb : p.blk = inn.blk) {f : Vec → Prog α}
    {q : Prog β} (h : ∀ v : Vec, (∀ k < 16, may ⟨p.blk, p.off + k⟩ (v k)) → Sim fresh inn may V R ws (f v) q) :
    Sim fresh inn may V R ws ((load16 p).bind f) q := by
  unfold load16
  simp only [Prog.bind_eq, Prog.pure_eq]
  rw [Prog.bind_assoc]
  exact sim_left_loadN hm hb fun bs hbs => h _ hbs

theorem sim_right_load16 {p' : Ptr} (hb : p'.blk = inn.blk) {p : Prog α} {g : Vec → Prog β} (v : Vec)
    (hv : ∀ k < 16, ∃ j r w, ws[j]? = some w ∧ r < 4 ∧ p'.off + k = inn.off + 4 * j + r ∧ v k = wbyte w r)
    (h : ∀ v' : Vec, (∀ k < 16, v' k = v k) → Sim fresh inn may V R ws p (g v')) :
    Sim fresh inn may V R ws p ((load16 p').bind g) := by
  unfold load16
  simp only [Prog.bind_eq, Prog.pure_eq]
  rw [Prog.bind_assoc]
  exact sim_right_loadN hb v hv fun bs hbs => h _ hbs

end

theorem wbyte_lane32 (x : Vec) (n r : Nat) (hr : r < 4) : wbyte (lane32 x n) r = x (4 * n + r) := by
  obtain ⟨e0, e1, e2, e3⟩ := wbyte_append (x (4 * n)) (x (4 * n + 1)) (x (4 * n + 2)) (x (4 * n + 3))
  unfold lane32
  obtain rfl | rfl | rfl | rfl : r = 0 ∨ r = 1 ∨ r = 2 ∨ r = 3 := by omega
  · exact e0
  · exact e1
  · exact e2
  · exact e3

/-- `encShape` after its two loads from the input. -/
def encTail (out : Bytes) (x0 x1 : Vec) : Prog U16 :=
  (load8 { blk := Block.mask0101, off := 0 }).bind fun a_2 =>
  (load8 { blk := Block.mask0101, off := 1 }).bind fun a_3 =>
  (load8 { blk := Block.mask7F00, off := 0 }).bind fun a_4 =>
  (load8 { blk := Block.mask7F00, off := 1 }).bind fun a_5 =>
  (load16 (encShufPtr.add (BitVec.setWidth 64 (BitVec.setWidth 8
    (BitVec.ofNat 64 (ctrlExpr x0 x1 a_2 a_3 a_4 a_5))) <<< 4).toNat)).bind fun a_6 =>
  (load16 (encShufPtr.add (BitVec.setWidth 64 (BitVec.setWidth 16
    (BitVec.ofNat 64 (ctrlExpr x0 x1 a_2 a_3 a_4 a_5))) >>> 8 <<< 4).toNat)).bind fun a_7 =>
  (load8 (ctrlLenPtr.add (BitVec.setWidth 64 (BitVec.setWidth 8
    (BitVec.ofNat 64 (ctrlExpr x0 x1 a_2 a_3 a_4 a_5)))).toNat)).bind fun a_8 =>
  (store16 ((Slice.ptr out).add 0) (pshufb a_6 x0)).bind fun _ =>
  (store16 (((Slice.ptr out).add (BitVec.setWidth 64 a_8).toNat).add 0) (pshufb a_7 x1)).bind fun _ =>
  Prog.ret (BitVec.setWidth 16 (BitVec.ofNat 64 (ctrlExpr x0 x1 a_2 a_3 a_4 a_5)))

theorem encShape_tail (s : U32s) (out : Bytes) (F0 F1 : Vec → Vec → Vec) : encShape s out F0 F1 =
    (load16 ((Slice.ptr s).add 0)).bind fun a => (load16 ((Slice.ptr s).add 16)).bind fun a_1 =>
      encTail out (F0 a a_1) (F1 a a_1) := rfl

theorem ctrlExpr_congr {x0 x1 y0 y1 : Vec} (h0 : ∀ i < 16, x0 i = y0 i) (h1 : ∀ i < 16, x1 i = y1 i) (a b c d : Byte) :
    ctrlExpr x0 x1 a b c d = ctrlExpr y0 y1 a b c d := by
  unfold ctrlExpr
  refine movmsk_congr (of16_congr fun i hi => ?_)
  simp only [lane16_of16]
  rw [lane16_congr (v := fun i => if i < 8 then _ else _) (w := fun i => if i < 8 then
    satU8 (lane16 (fun i => minU8 (y0 i) (of16 (fun _ => b ++ a) i)) i)
    else satU8 (lane16 (fun i => minU8 (y1 i) (of16 (fun _ => b ++ a) i)) (i - 8))) ?_ hi]
  intro j hj
  split
  · rw [lane16_congr (v := fun i => minU8 (x0 i) _) (w := fun i => minU8 (y0 i) (of16 (fun _ => b ++ a) i))
      (fun k hk => by rw [h0 k hk]) (by omega)]
  · rw [lane16_congr (v := fun i => minU8 (x1 i) _) (w := fun i => minU8 (y1 i) (of16 (fun _ => b ++ a) i))
      (fun k hk => by rw [h1 k hk]) (by omega)]

theorem store16_congr {p : Ptr} {v w : Vec} (h : ∀ i < 16, v i = w i) : store16 p v = store16 p w :=
  storeN_congr p 16 0 (by omega) h

theorem encTail_congr {x0 x1 y0 y1 : Vec} (out : Bytes) (h0 : ∀ i < 16, x0 i = y0 i) (h1 : ∀ i < 16, x1 i = y1 i) :
    encTail out x0 x1 = encTail out y0 y1 := by
  have hp : ∀ {x y : Vec} (m : Vec), (∀ i < 16, x i = y i) → ∀ i < 16, pshufb m x i = pshufb m y i := by
    intro x y m h i _
    unfold pshufb
    rw [h _ (Nat.mod_lt _ (by omega))]
  unfold encTail
  simp only [ctrlExpr_congr h0 h1, store16_congr (hp _ h0), store16_congr (hp _ h1)]

theorem n_encTail {F : Fp} {P : Panic → Prop} {out : Bytes} {x0 x1 : Vec} (ho : W32 F out) :
    TriP P F (encTail out x0 x1) (fun _ => True) := by
  have hlo : ∀ x : U64, (BitVec.setWidth 64 (BitVec.setWidth 8 x) <<< 4).toNat + 16 ≤ 4096 := fun x => by
    simp only [BitVec.toNat_setWidth, BitVec.toNat_shiftLeft, Nat.shiftLeft_eq]; omega
  have hhi : ∀ x : U64, (BitVec.setWidth 64 (BitVec.setWidth 16 x) >>> 8 <<< 4).toNat + 16 ≤ 4096 := fun x => by
    simp only [BitVec.toNat_setWidth, BitVec.toNat_shiftLeft, BitVec.toNat_ushiftRight, Nat.shiftLeft_eq,
      Nat.shiftRight_eq_div_pow]; omega
  have hb : ∀ x : U64, (BitVec.setWidth 64 (BitVec.setWidth 8 x)).toNat = (BitVec.setWidth 8 x).toNat :=
    fun x => byte64_toNat _
  unfold encTail
  simp only [ctrlLenPtr, encShufPtr, Slice.ptr, Ptr.add, Nat.add_zero, Nat.zero_add]
  refine tri_bind (tri_load8 (F.tabs _ (by simp only [inTables]; omega))) fun a2 _ => ?_
  refine tri_bind (tri_load8 (F.tabs _ (by simp only [inTables]; omega))) fun a3 _ => ?_
  refine tri_bind (tri_load8 (F.tabs _ (by simp only [inTables]; omega))) fun a4 _ => ?_
  refine tri_bind (tri_load8 (F.tabs _ (by simp only [inTables]; omega))) fun a5 _ => ?_
  generalize BitVec.ofNat 64 (ctrlExpr x0 x1 a2 a3 a4 a5) = x
  specialize hlo x; specialize hhi x
  refine tri_bind (tri_load16 fun k hk => F.tabs _ (by simp only [inTables]; omega)) fun _ _ => ?_
  refine tri_bind (tri_load16 fun k hk => F.tabs _ (by simp only [inTables]; omega)) fun _ _ => ?_
  rw [hb]
  generalize hc : BitVec.setWidth 8 x = c
  refine tri_bind (tri_load8 (F.tabs _ c.isLt)) ?_
  rintro _ ⟨m, hT, rfl⟩
  have g := gSize_bounds c
  rw [byte64_toNat, hT.ctrlLen' c]
  refine tri_bind (tri_store16 fun k hk => ho _ rfl (by simp only; omega) (by simp only; omega)) fun _ _ => ?_
  exact tri_bind (tri_store16 fun k hk => ho _ rfl (by simp only; omega) (by simp only; omega)) fun _ _ =>
    tri_ret trivial

section
variable {hf : fresh.isConst = false} {ws : List U32} {s : U32s} {n l : Nat} {out : Bytes}

/-- Four lanes of a vector as numbers. -/
def lanes (x : Vec) : List U32 := [lane32 x 0, lane32 x 1, lane32 x 2, lane32 x 3]

theorem lanes_get (x : Vec) (k : Nat) (hk : k < 4) : (lanes x)[k]? = some (lane32 x k) := by
  obtain rfl | rfl | rfl | rfl : k = 0 ∨ k = 1 ∨ k = 2 ∨ k = 3 := by omega
  all_goals rfl

theorem sim_encShape {F0 F1 : Vec → Vec → Vec} (hm : ∀ o, ¬ Mine fresh ⟨inn.blk, o⟩) (hs : InS inn s n l)
    (hn : n = ws.length) (ho : WrOk (mineFp fresh hf) out) (hc : 32 ≤ out.len)
    (hF : ∀ a b : Vec, (∀ k < 4, Rd inn may (n + k) (lane32 a k)) → (∀ k < 4, Rd inn may (n + 4 + k) (lane32 b k)) →
      (∀ k < 4, V (n + k) (lane32 (F0 a b) k)) ∧ ∀ k < 4, V (n + 4 + k) (lane32 (F1 a b) k)) :
    Sim fresh inn may V (Blk ws 8) ws (encShape s out F0 F1) (encShape s out (fun x _ => x) (fun _ x => x)) := by
  subst hn
  rw [encShape_tail, encShape_tail]
  have hb := hs.blk; have hoff := hs.off
  refine sim_left_load16 hm hb fun a ha => sim_left_load16 hm hb fun b hb' => ?_
  simp only [Slice.ptr, Ptr.add, Nat.add_zero, hb, hoff] at ha hb'
  obtain ⟨v0, v1⟩ := hF a b (fun k hk r hr => by
      rw [wbyte_lane32 _ _ _ hr]
      have := ha (4 * k + r) (by omega)
      rwa [show inn.off + 4 * ws.length + (4 * k + r) = inn.off + 4 * (ws.length + k) + r by omega] at this)
    (fun k hk r hr => by
      rw [wbyte_lane32 _ _ _ hr]
      have := hb' (4 * k + r) (by omega)
      rwa [show inn.off + 4 * ws.length + 16 + (4 * k + r) = inn.off + 4 * (ws.length + 4 + k) + r by omega] at this)
  generalize F0 a b = x at v0
  generalize F1 a b = y at v1
  have ell : ∀ v, (lanes v).length = 4 := fun _ => rfl
  have e0 : ∀ k < 4, (ws ++ (lanes x ++ lanes y))[ws.length + k]? = some (lane32 x k) := fun k hk => by
    rw [List.getElem?_append_right (by omega), show ws.length + k - ws.length = k by omega,
      List.getElem?_append_left (by rw [ell]; exact hk), lanes_get _ _ hk]
  have e1 : ∀ k < 4, (ws ++ (lanes x ++ lanes y))[ws.length + 4 + k]? = some (lane32 y k) := fun k hk => by
    rw [List.getElem?_append_right (by omega), show ws.length + 4 + k - ws.length = 4 + k by omega,
      List.getElem?_append_right (by rw [ell]; omega), ell, show 4 + k - 4 = k by omega, lanes_get _ _ hk]
  refine Sim.takes (lanes x ++ lanes y) (fun k w hw => ?_) ?_
  · obtain ⟨hk, -⟩ := List.getElem?_eq_some_iff.1 hw
    rw [List.length_append, ell, ell] at hk
    by_cases h4 : k < 4
    · rw [List.getElem?_append_left (by rw [ell]; exact h4), lanes_get _ _ h4] at hw
      cases hw; exact v0 k h4
    · rw [List.getElem?_append_right (by rw [ell]; omega), ell, lanes_get _ _ (by omega)] at hw
      cases hw
      have := v1 (k - 4) (by omega)
      rwa [show ws.length + 4 + (k - 4) = ws.length + k by omega] at this
  refine sim_right_load16 hb x (fun k hk => ⟨ws.length + k / 4, k % 4, lane32 x (k / 4), e0 _ (by omega), by omega, ?_, ?_⟩)
    fun x' hx' => ?_
  · simp only [Slice.ptr, Ptr.add]; omega
  · rw [wbyte_lane32 _ _ _ (by omega), show 4 * (k / 4) + k % 4 = k by omega]
  refine sim_right_load16 hb y (fun k hk => ⟨ws.length + 4 + k / 4, k % 4, lane32 y (k / 4), e1 _ (by omega), by omega, ?_, ?_⟩)
    fun y' hy' => ?_
  · simp only [Slice.ptr, Ptr.add]; omega
  · rw [wbyte_lane32 _ _ _ (by omega), show 4 * (k / 4) + k % 4 = k by omega]
  rw [encTail_congr out hx' hy']
  refine (sim_of_tri (P := fun _ => False) (n_encTail (ho.wb32 hc))).mono ?_
  rintro z _ _ ⟨rfl, rfl, -⟩
  exact ⟨rfl, by simp only [List.length_append, ell]⟩

theorem sim_put8 (hm : ∀ o, ¬ Mine fresh ⟨inn.blk, o⟩) (hs : InS inn s n l) (hn : n = ws.length)
    (ho : WrOk (mineFp fresh hf) out) (hc : 32 ≤ out.len) :
    Sim fresh inn may (Rd inn may) (Blk ws 8) ws (put8uint32FastAsm s out encShufPtr ctrlLenPtr)
      (put8uint32FastAsm s out encShufPtr ctrlLenPtr) := by
  rw [put8Fast_shape]
  exact sim_encShape hm hs hn ho hc fun a b ha hb => ⟨ha, hb⟩

theorem sim_put8D {prev p : U32} (hm : ∀ o, ¬ Mine fresh ⟨inn.blk, o⟩) (hs : InS inn s n l) (hn : n = ws.length)
    (ho : WrOk (mineFp fresh hf) out) (hc : 32 ≤ out.len) (hp : Pv inn may prev n p) :
    Sim fresh inn may (VD inn may prev) (Blk ws 8) ws (put8uint32DeltaFastAsm s out p encShufPtr ctrlLenPtr)
      (put8uint32FastAsm s out encShufPtr ctrlLenPtr) := by
  rw [put8Fast_shape, put8DeltaFast_shape]
  refine sim_encShape hm hs hn ho hc fun a b ha hb => ⟨fun k hk => ?_, fun k hk => ?_⟩
  · rw [diff4, lane32_of32, lane32_palignr12 _ _ _ hk]
    refine ⟨_, _, ha k hk, ?_, rfl⟩
    split
    · subst k; rw [lane32_of32]; exact hp
    · obtain ⟨j, rfl⟩ : ∃ j, k = j + 1 := ⟨k - 1, by omega⟩
      exact ha j (by omega)
  · rw [diff4, lane32_of32, lane32_palignr12 _ _ _ hk]
    refine ⟨_, _, hb k hk, ?_, rfl⟩
    split
    · subst k; exact ha 3 (by omega)
    · obtain ⟨j, rfl⟩ : ∃ j, k = j + 1 := ⟨k - 1, by omega⟩
      exact hb j (by omega)

end

end SVB
