import Verif.Proofs.Safe

/-! # Footprints of the readers for arbitrary arguments -/

set_option autoImplicit false

namespace SVB
open Spec Asm

variable {F : Fp} {P : Panic → Prop}

/-! ## Header arithmetic for every 64-bit count -/

theorem int64_wrap {x : Int} (h1 : 2 ^ 63 ≤ x) (h2 : x < 2 ^ 64) : int64 x = x - 2 ^ 64 := by
  unfold int64
  rw [BitVec.toInt_ofInt, Int.bmod_def]
  simp only [Nat.reducePow] at *
  split <;> omega

theorem int64_wrap_neg {x : Int} (h1 : -2 ^ 64 ≤ x) (h2 : x < -2 ^ 63) : int64 x = x + 2 ^ 64 := by
  unfold int64
  rw [BitVec.toInt_ofInt, Int.bmod_def]
  simp only [Nat.reducePow] at *
  split <;> omega

theorem goDiv4 (x : Int) : goDiv x 4 = if 0 ≤ x then x / 4 else -(-x / 4) := by
  unfold goDiv
  rw [Int.tdiv_eq_ediv]
  have : (4 : Int).sign = 1 := rfl
  rw [this]
  split <;> split <;> omega

/-- The start of the data section computed by the readers, for every 64-bit `count`. -/
def hdr (count : Int) : Int := goDiv (int64 (count + 3)) 4

theorem hdr_val {count : Int} (h1 : -2 ^ 63 ≤ count) (h2 : count < 2 ^ 63 - 3) :
    hdr count = if 0 ≤ count + 3 then (count + 3) / 4 else -(-(count + 3) / 4) := by
  unfold hdr
  rw [int64_eq (by omega) (by omega), goDiv4]

theorem hdr_ovf {count : Int} (h1 : 2 ^ 63 - 3 ≤ count) (h2 : count < 2 ^ 63) : hdr count < 0 := by
  unfold hdr
  rw [int64_wrap (by omega) (by omega), goDiv4]
  split <;> omega

theorem hdr_bound {count : Int} (h1 : -2 ^ 63 ≤ count) (h2 : count < 2 ^ 63) (h : 0 ≤ hdr count) :
    hdr count ≤ count.toNat + 1 ∧ lowest32Of (hdr count) ≤ count.toNat := by
  by_cases hc : count < 2 ^ 63 - 3
  · have hv := hdr_val h1 hc
    have : 0 ≤ hdr count ∧ (hdr count = 0 ∨ hdr count = (count + 3) / 4 ∧ 0 ≤ count + 3) := by
      refine ⟨h, ?_⟩
      split at hv <;> omega
    have hb : hdr count ≤ 2 ^ 61 := by omega
    refine ⟨by omega, ?_⟩
    unfold lowest32Of
    rw [int64_eq (x := hdr count - 3) (by omega) (by omega), int64_eq (by omega) (by omega),
      andNot31 (by omega) (by omega)]
    omega
  · have := hdr_ovf (by omega) h2; omega

theorem jump15_le {count : Int} (h1 : -2 ^ 63 ≤ count) (h2 : count < 2 ^ 63) :
    andNot count (jump - 1) ≤ count := by
  rw [jump_val, show (16 - 1 : Int) = 15 by decide, andNot15 h1 h2]; omega

theorem low4_le {count : Int} (h1 : -2 ^ 63 ≤ count) (h2 : count < 2 ^ 63) : andNot count 3 ≤ count := by
  rw [andNot3 h1 h2]; omega

/-! ## The scalar readers -/

theorem tri_rs16 {stream : Bytes} {out : U32s} (s : RSt) (hi : RdOk F stream) (ho : WrOk F out) :
    Tri F (rsBody16 stream out s) (fun s' => 0 ≤ s.dataPos ∧ 0 ≤ s'.dataPos ∧ s'.decoded = s.decoded + 16 ∧
      s'.decoded ≤ out.cap) := by
  unfold rsBody16
  simp only [Prog.bind_eq, Prog.pure_eq]
  refine tri_bind (tri_fromR hi) fun data ⟨h0, hd⟩ => ?_
  refine tri_bind (tri_rangeR hi) fun ctrls hc => ?_
  refine tri_bind (tri_rangeW ho) fun nums ⟨hn, hcap, _⟩ => ?_
  refine tri_bind (tri_getB hc) fun _ _ => ?_
  refine tri_bind (tri_get4 hd hn) fun _ _ => ?_
  refine tri_bind tri_size fun _ sA => ?_
  refine tri_bind (tri_getB hc) fun _ _ => ?_
  refine tri_bind (tri_fromR hd) fun _ d1 => ?_
  refine tri_bind (tri_fromW hn) fun _ n1 => ?_
  refine tri_bind (tri_get4 d1.2 n1.2.1) fun _ _ => ?_
  refine tri_bind tri_size fun _ sB => ?_
  refine tri_bind (tri_getB hc) fun _ _ => ?_
  refine tri_bind (tri_fromR hd) fun _ d1 => ?_
  refine tri_bind (tri_fromW hn) fun _ n1 => ?_
  refine tri_bind (tri_get4 d1.2 n1.2.1) fun _ _ => ?_
  refine tri_bind tri_size fun _ sC => ?_
  refine tri_bind (tri_getB hc) fun _ _ => ?_
  refine tri_bind (tri_fromR hd) fun _ d1 => ?_
  refine tri_bind (tri_fromW hn) fun _ n1 => ?_
  refine tri_bind (tri_get4 d1.2 n1.2.1) fun _ _ => ?_
  refine tri_bind tri_size fun _ sD => ?_
  rw [jump_val] at hcap
  refine tri_ret ⟨h0, ?_, ?_, ?_⟩
  · simp only; omega
  · simp only [jump_val]
  · simp only [jump_val]; omega

theorem tri_rs4 {stream : Bytes} {out : U32s} (s : RSt) (hi : RdOk F stream) (ho : WrOk F out) :
    Tri F (rsBody4 stream out s) (fun s' => 0 ≤ s.dataPos ∧ 0 ≤ s'.dataPos ∧ s'.decoded = s.decoded + 4 ∧
      s'.decoded ≤ out.len) := by
  unfold rsBody4
  simp only [Prog.bind_eq, Prog.pure_eq]
  refine tri_bind (tri_getB hi) fun _ _ => ?_
  refine tri_bind (tri_fromR hi) fun _ d => ?_
  refine tri_bind (tri_fromW ho) fun _ n => ?_
  refine tri_bind (tri_get4 d.2 n.2.1) fun _ h4 => ?_
  refine tri_bind tri_size fun _ _ => ?_
  refine tri_ret ⟨d.1, ?_, rfl, ?_⟩ <;> simp only <;> omega

theorem tri_rds16 {stream : Bytes} {out : U32s} (s : RSt) (hi : RdOk F stream) (ho : WrOk F out)
    (hr : RdOk F out) :
    Tri F (rdsBody16 stream out s) (fun s' => 0 ≤ s.dataPos ∧ 0 ≤ s'.dataPos ∧ s'.decoded = s.decoded + 16 ∧
      s'.decoded ≤ out.cap) := by
  unfold rdsBody16
  simp only [Prog.bind_eq, Prog.pure_eq]
  refine tri_bind (tri_fromR hi) fun data ⟨h0, hd⟩ => ?_
  refine tri_bind (tri_rangeR hi) fun ctrls hc => ?_
  refine tri_bind (tri_rangeRW hr ho) fun nums hn => ?_
  refine tri_bind (tri_getB hc) fun _ _ => ?_
  refine tri_bind (tri_get4Delta hd hn.2.1 hn.1) fun _ _ => ?_
  refine tri_bind tri_size fun _ sA => ?_
  refine tri_bind (tri_getB hc) fun _ _ => ?_
  refine tri_bind (tri_fromR hd) fun _ d1 => ?_
  refine tri_bind (tri_fromRW hn.1 hn.2.1) fun _ n1 => ?_
  refine tri_bind (tri_getW hn.1) fun _ _ => ?_
  refine tri_bind (tri_get4Delta d1.2 n1.2.2.1 n1.2.1) fun _ _ => ?_
  refine tri_bind tri_size fun _ sB => ?_
  refine tri_bind (tri_getB hc) fun _ _ => ?_
  refine tri_bind (tri_fromR hd) fun _ d1 => ?_
  refine tri_bind (tri_fromRW hn.1 hn.2.1) fun _ n1 => ?_
  refine tri_bind (tri_getW hn.1) fun _ _ => ?_
  refine tri_bind (tri_get4Delta d1.2 n1.2.2.1 n1.2.1) fun _ _ => ?_
  refine tri_bind tri_size fun _ sC => ?_
  refine tri_bind (tri_getB hc) fun _ _ => ?_
  refine tri_bind (tri_fromR hd) fun _ d1 => ?_
  refine tri_bind (tri_fromRW hn.1 hn.2.1) fun _ n1 => ?_
  refine tri_bind (tri_getW hn.1) fun _ _ => ?_
  refine tri_bind (tri_get4Delta d1.2 n1.2.2.1 n1.2.1) fun _ _ => ?_
  refine tri_bind tri_size fun _ sD => ?_
  refine tri_bind (tri_getW hn.1) fun _ _ => ?_
  have hcap := hn.2.2.1
  rw [jump_val] at hcap
  refine tri_ret ⟨h0, ?_, ?_, ?_⟩
  · simp only; omega
  · simp only [jump_val]
  · simp only [jump_val]; omega

theorem tri_rds4 {stream : Bytes} {out : U32s} (s : RSt) (hi : RdOk F stream) (ho : WrOk F out)
    (hr : RdOk F out) :
    Tri F (rdsBody4 stream out s) (fun s' => 0 ≤ s.dataPos ∧ 0 ≤ s'.dataPos ∧ s'.decoded = s.decoded + 4 ∧
      s'.decoded ≤ out.len) := by
  unfold rdsBody4
  simp only [Prog.bind_eq, Prog.pure_eq]
  refine tri_bind (tri_getB hi) fun _ _ => ?_
  refine tri_bind (tri_fromR hi) fun _ d => ?_
  refine tri_bind (tri_fromRW hr ho) fun _ n => ?_
  refine tri_bind (tri_get4Delta d.2 n.2.2.1 n.2.1) fun _ h4 => ?_
  refine tri_bind tri_size fun _ _ => ?_
  refine tri_bind (tri_getW hr) fun _ _ => ?_
  refine tri_ret ⟨d.1, ?_, rfl, ?_⟩ <;> simp only <;> omega

/-- Iterations left: a negative `dataPos` panics in the next iteration. -/
def rμ (lim pos dataPos : Int) : Nat := if dataPos < 0 then 1 else (lim - pos).toNat

/-- A reader loop whose bodies advance `pos` and panic unless `dataPos ≥ 0`. -/
theorem tri_rloop {cond : RSt → Bool} {body : RSt → Prog RSt} {lim : Int} {pos : RSt → Int}
    (hcond : ∀ s, cond s = true → pos s < lim) {I : RSt → Prop}
    (hbody : ∀ s, I s → cond s = true →
      Tri F (body s) (fun s' => 0 ≤ s.dataPos ∧ 0 ≤ s'.dataPos ∧ pos s < pos s' ∧ I s'))
    {fuel : Nat} {s : RSt} (hI : I s) (h0 : 0 ≤ pos s) (hf : 0 ≤ s.dataPos → lim ≤ fuel) (h1 : 1 ≤ fuel) :
    Tri F (loop fuel cond body s) (fun s' => (I s' ∧ 0 ≤ pos s' ∧ (0 ≤ s'.dataPos ↔ 0 ≤ s.dataPos)) ∧
      cond s' = false) := by
  refine tri_loop (fun s' => I s' ∧ 0 ≤ pos s' ∧ (0 ≤ s'.dataPos ↔ 0 ≤ s.dataPos))
    (fun s => rμ lim (pos s) s.dataPos) ?_ ?_ ⟨hI, h0, Iff.rfl⟩ ?_
  · rintro s1 ⟨hI1, hp, hd⟩ hc
    have := hcond _ hc
    refine tri_mono (hbody s1 hI1 hc) ?_
    rintro s2 ⟨a, b, c, d⟩
    refine ⟨⟨d, by omega, by omega⟩, ?_⟩
    simp only [rμ, if_neg (show ¬ s1.dataPos < 0 by omega), if_neg (show ¬ s2.dataPos < 0 by omega)]
    omega
  · rintro s1 - hc
    have := hcond _ hc
    unfold rμ; split <;> omega
  · unfold rμ; split <;> omega

theorem tri_readAllScalar {count : Int} {stream : Bytes} {out : U32s} (h1 : -2 ^ 63 ≤ count)
    (h2 : count < 2 ^ 63) (hi : RdOk F stream) (ho : WrOk F out) :
    Tri F (readAllScalar count stream out) (fun _ => True) := by
  unfold readAllScalar
  simp only [Prog.bind_eq, Prog.pure_eq]
  have hj := jump15_le h1 h2
  have hl := low4_le h1 h2
  refine tri_bind (tri_rloop (lim := andNot count (jump - 1)) (pos := RSt.decoded) (I := fun _ => True)
    (by simp) (fun s _ _ => tri_mono (tri_rs16 s hi ho) fun s' h => ⟨h.1, h.2.1, by omega, trivial⟩)
    trivial (by simp) (by omega) (by omega)) ?_
  rintro s ⟨⟨-, hp, hd⟩, -⟩
  refine tri_bind (tri_rloop (lim := andNot count 3) (pos := RSt.decoded) (I := fun _ => True)
    (by simp) (fun s _ _ => tri_mono (tri_rs4 s hi ho) fun s' h => ⟨h.1, h.2.1, by omega, trivial⟩)
    trivial hp (by omega) (by omega)) ?_
  rintro s ⟨⟨-, -, -⟩, -⟩
  split
  · refine tri_bind (tri_fromR hi) fun _ d => ?_
    refine tri_bind (tri_fromW ho) fun _ n => ?_
    refine tri_bind (tri_getB hi) fun _ _ => ?_
    refine tri_bind (tri_getN d.2 n.2.1) fun _ _ => tri_ret trivial
  · exact tri_ret trivial

theorem tri_readAllDeltaScalar {count : Int} {stream : Bytes} {out : U32s} {prev : U32}
    (h1 : -2 ^ 63 ≤ count) (h2 : count < 2 ^ 63) (hi : RdOk F stream) (ho : WrOk F out) (hr : RdOk F out) :
    Tri F (readAllDeltaScalar count stream out prev) (fun _ => True) := by
  unfold readAllDeltaScalar
  simp only [Prog.bind_eq, Prog.pure_eq]
  have hj := jump15_le h1 h2
  have hl := low4_le h1 h2
  refine tri_bind (tri_rloop (lim := andNot count (jump - 1)) (pos := RSt.decoded) (I := fun _ => True)
    (by simp) (fun s _ _ => tri_mono (tri_rds16 s hi ho hr) fun s' h => ⟨h.1, h.2.1, by omega, trivial⟩)
    trivial (by simp) (by omega) (by omega)) ?_
  rintro s ⟨⟨-, hp, hd⟩, -⟩
  refine tri_bind (tri_rloop (lim := andNot count 3) (pos := RSt.decoded) (I := fun _ => True)
    (by simp) (fun s _ _ => tri_mono (tri_rds4 s hi ho hr) fun s' h => ⟨h.1, h.2.1, by omega, trivial⟩)
    trivial hp (by omega) (by omega)) ?_
  rintro s ⟨⟨-, -, -⟩, -⟩
  split
  · refine tri_bind (tri_fromR hi) fun _ d => ?_
    refine tri_bind (tri_fromW ho) fun _ n => ?_
    refine tri_bind (tri_getB hi) fun _ _ => ?_
    refine tri_bind (tri_getNDelta d.2 n.2.1) fun _ _ => tri_ret trivial
  · exact tri_ret trivial

/-! ## The vectorised readers -/

/-- 32 bytes from the start of the slice may be loaded. -/
def R32 (F : Fp) (s : Bytes) : Prop :=
  ∀ q : Ptr, q.blk = s.blk → s.off ≤ q.off → q.off < s.off + 32 → F.R q

/-- 32 bytes from the start of the slice may be stored to. -/
def W32 {e : Nat} (F : Fp) (s : Slice e) : Prop :=
  ∀ q : Ptr, q.blk = s.blk → s.off ≤ q.off → q.off < s.off + 32 → F.W q

/-- 32 bytes from every position of the slice, including its end, may be loaded. -/
structure RdX (F : Fp) (s : Bytes) : Prop where
  lc : s.len ≤ s.cap
  r : ∀ q : Ptr, q.blk = s.blk → s.off ≤ q.off → q.off < s.off + s.len + 32 → F.R q

/-- 32 bytes from every position of the slice, including its end, may be stored to. -/
structure WrX (F : Fp) (s : U32s) : Prop where
  lc : s.len ≤ s.cap
  w : ∀ q : Ptr, q.blk = s.blk → s.off ≤ q.off → q.off < s.off + 4 * s.len + 32 → F.W q

theorem RdX.r32 {s : Bytes} (h : RdX F s) : R32 F s := fun q h1 h2 h3 => h.r q h1 h2 (by omega)

theorem tri_fromX {s : Bytes} {i : Int} (h : RdX F s) : Tri F (s.from i) (fun t => 0 ≤ i ∧ RdX F t) :=
  tri_mono tri_from fun _ ⟨a, h1, h2, h3⟩ => by
    subst h3
    refine ⟨by omega, by have := h.lc; simp only; omega, fun q a b c => ?_⟩
    simp only at a b c
    exact h.r q a (by omega) (by omega)

theorem tri_fromW32 {s : U32s} {i : Int} (h : WrX F s) : Tri F (s.from i) (fun t => 0 ≤ i ∧ W32 F t) :=
  tri_mono tri_from fun _ ⟨a, h1, h2, h3⟩ => by
    subst h3
    refine ⟨by omega, fun q a b c => ?_⟩
    simp only at a b c
    exact h.w q a (by omega) (by omega)

theorem tri_nums {s : U32s} {i : Int} (hr : RdOk F s) (hw : WrOk F s) :
    Tri F (s.range i (i + 32)) (fun t => (32 ≤ t.cap ∧ i + 32 ≤ s.cap) ∧ RdOk F t ∧ WrOk F t) :=
  tri_mono tri_range fun _ ⟨a, b, h1, h2, h3, h4, h5⟩ => by
    subst h5; exact ⟨⟨by simp only; omega, by omega⟩, hr.sub a _ (by omega), hw.sub a _ (by omega)⟩

theorem WrOk.w32 {s : U32s} (h : WrOk F s) (hc : 8 ≤ s.cap) : W32 F s := fun q h1 h2 h3 =>
  h.w q h1 h2 (by omega)

theorem tri_numsFrom {s : U32s} {i : Int} (hw : WrOk F s) (hc : 32 ≤ s.cap) (hi : i ≤ 24) :
    Tri F (s.from i) (fun t => W32 F t) :=
  tri_mono tri_from fun _ ⟨a, h1, h2, h3⟩ => by
    subst h3; exact (hw.sub a _ (by have := hw.lc; omega)).w32 (by simp only; omega)

theorem code16_lt (c : U16) (k : Nat) : code16 c k < 4 := Nat.mod_lt _ (by omega)

theorem tri_loadN {n : Nat} {p : Ptr} (h : ∀ k < n, F.R ⟨p.blk, p.off + k⟩) :
    TriP P F (loadN p n) (fun _ => True) := by
  induction n generalizing p with
  | zero => exact tri_ret trivial
  | succ n ih =>
    unfold loadN
    simp only [Prog.bind_eq, Prog.pure_eq]
    refine tri_bind (tri_load8 (h 0 (by omega))) fun _ _ => ?_
    refine tri_bind (ih fun k hk => ?_) fun _ _ => tri_ret trivial
    have := h (k + 1) (by omega)
    rwa [show p.off + (k + 1) = (p.add 1).off + k by simp only [Ptr.add]; omega] at this

theorem tri_load16 {p : Ptr} (h : ∀ k < 16, F.R ⟨p.blk, p.off + k⟩) : TriP P F (load16 p) (fun _ => True) := by
  unfold load16
  simp only [Prog.bind_eq, Prog.pure_eq]
  exact tri_bind (tri_loadN h) fun _ _ => tri_ret trivial

theorem tri_storeN {p : Ptr} {v : Vec} {n i : Nat} (h : ∀ k, i ≤ k → k < i + n → F.W (p.add k)) :
    TriP P F (storeN p v i n) (fun _ => True) := by
  induction n generalizing i with
  | zero => exact tri_ret trivial
  | succ n ih =>
    unfold storeN
    exact tri_bind (tri_store8 (h i (by omega) (by omega))) fun _ _ =>
      ih fun k h1 h2 => h k (by omega) (by omega)

theorem tri_store16 {p : Ptr} {v : Vec} (h : ∀ k < 16, F.W ⟨p.blk, p.off + k⟩) :
    TriP P F (store16 p v) (fun _ => True) :=
  tri_storeN fun k _ hk => h k (by omega)

theorem tri_decShape {inn : Bytes} {out : U32s} {c : U16} {F0 F1 : Vec → Vec → Vec} (hi : R32 F inn)
    (ho : W32 F out) : TriP P F (decShape inn out c F0 F1) (fun _ => True) := by
  unfold decShape
  rw [addr_len, addr_lo, addr_hi]
  generalize ((c &&& 0xff#16).setWidth 8 : Byte) = clo
  generalize ((c >>> 8).setWidth 8 : Byte) = chi
  have l1 := clo.isLt
  have l2 := chi.isLt
  simp only [ctrlLenPtr, decShufPtr, Slice.ptr, Ptr.add, Nat.add_zero, Nat.zero_add]
  refine tri_bind (tri_load8 (F.tabs _ l1)) ?_
  rintro _ ⟨m, hT, rfl⟩
  have g := gSize_bounds clo
  rw [byte64_toNat, hT.ctrlLen' clo]
  refine tri_bind (tri_load16 fun k hk => hi _ rfl (by simp only; omega) (by simp only; omega)) fun _ _ => ?_
  refine tri_bind (tri_load16 fun k hk => hi _ rfl (by simp only; omega) (by simp only; omega)) fun _ _ => ?_
  refine tri_bind (tri_load16 fun k hk => F.tabs _ (by simp only [inTables]; omega)) fun _ _ => ?_
  refine tri_bind (tri_load16 fun k hk => F.tabs _ (by simp only [inTables]; omega)) fun _ _ => ?_
  refine tri_bind (tri_store16 fun k hk => ho _ rfl (by simp only; omega) (by simp only; omega)) fun _ _ => ?_
  exact tri_bind (tri_store16 fun k hk => ho _ rfl (by simp only; omega) (by simp only; omega)) fun _ _ =>
    tri_ret trivial

theorem tri_get8F {inn : Bytes} {out : U32s} {c : U16} (hi : R32 F inn) (ho : W32 F out) :
    TriP P F (get8uint32FastAsm inn out c decShufPtr ctrlLenPtr) (fun _ => True) := by
  rw [get8Fast_shape]; exact tri_decShape hi ho

theorem tri_get8DF {inn : Bytes} {out : U32s} {c : U16} {prev : U32} (hi : R32 F inn) (ho : W32 F out) :
    TriP P F (get8uint32DeltaFastAsm inn out c prev decShufPtr ctrlLenPtr) (fun _ => True) := by
  rw [get8DeltaFast_shape]; exact tri_decShape hi ho

theorem tri_rf32 {stream : Bytes} {out : U32s} (s : RSt) (hi : RdOk F stream) (hx : RdX F stream)
    (hr : RdOk F out) (ho : WrOk F out) :
    Tri F (rfBody32 stream out s) (fun s' => 0 ≤ s.dataPos ∧ 0 ≤ s'.dataPos ∧ s'.decoded = s.decoded + 32 ∧
      s'.ctrlPos = s.ctrlPos + 8 ∧ s'.decoded ≤ out.cap) := by
  unfold rfBody32
  simp only [Prog.bind_eq, Prog.pure_eq]
  refine tri_bind (tri_fromX hx) fun data ⟨h0, hd⟩ => ?_
  refine tri_bind (tri_rangeR hi) fun ctrls hc => ?_
  refine tri_bind (tri_nums hr ho) fun nums ⟨⟨hcap, hcap'⟩, hnr, hn⟩ => ?_
  refine tri_bind (tri_getB hc) fun _ _ => ?_
  refine tri_bind (tri_getB hc) fun _ _ => ?_
  refine tri_bind (tri_get8F hd.r32 (hn.w32 (by omega))) fun _ _ => ?_
  refine tri_bind (tri_getB hc) fun _ _ => ?_
  refine tri_bind tri_size fun _ sA => ?_
  refine tri_bind (tri_getB hc) fun _ _ => ?_
  refine tri_bind tri_size fun _ sA' => ?_
  refine tri_bind (tri_getB hc) fun _ _ => ?_
  refine tri_bind (tri_getB hc) fun _ _ => ?_
  refine tri_bind (tri_fromX hd) fun _ d1 => ?_
  refine tri_bind (tri_numsFrom hn hcap (by omega)) fun _ n1 => ?_
  refine tri_bind (tri_get8F d1.2.r32 n1) fun _ _ => ?_
  refine tri_bind (tri_getB hc) fun _ _ => ?_
  refine tri_bind tri_size fun _ sB => ?_
  refine tri_bind (tri_getB hc) fun _ _ => ?_
  refine tri_bind tri_size fun _ sB' => ?_
  refine tri_bind (tri_getB hc) fun _ _ => ?_
  refine tri_bind (tri_getB hc) fun _ _ => ?_
  refine tri_bind (tri_fromX hd) fun _ d1 => ?_
  refine tri_bind (tri_numsFrom hn hcap (by omega)) fun _ n1 => ?_
  refine tri_bind (tri_get8F d1.2.r32 n1) fun _ _ => ?_
  refine tri_bind (tri_getB hc) fun _ _ => ?_
  refine tri_bind tri_size fun _ sC => ?_
  refine tri_bind (tri_getB hc) fun _ _ => ?_
  refine tri_bind tri_size fun _ sC' => ?_
  refine tri_bind (tri_getB hc) fun _ _ => ?_
  refine tri_bind (tri_getB hc) fun _ _ => ?_
  refine tri_bind (tri_fromX hd) fun _ d1 => ?_
  refine tri_bind (tri_numsFrom hn hcap (by omega)) fun _ n1 => ?_
  refine tri_bind (tri_get8F d1.2.r32 n1) fun _ _ => ?_
  refine tri_bind (tri_getB hc) fun _ _ => ?_
  refine tri_bind tri_size fun _ sD => ?_
  refine tri_bind (tri_getB hc) fun _ _ => ?_
  refine tri_bind tri_size fun _ sD' => ?_
  refine tri_ret ⟨h0, ?_, rfl, rfl, ?_⟩ <;> simp only <;> omega

theorem tri_rdf32 {stream : Bytes} {out : U32s} (s : RSt) (hi : RdOk F stream) (hx : RdX F stream)
    (hr : RdOk F out) (ho : WrOk F out) :
    Tri F (rdfBody32 stream out s) (fun s' => 0 ≤ s.dataPos ∧ 0 ≤ s'.dataPos ∧ s'.decoded = s.decoded + 32 ∧
      s'.ctrlPos = s.ctrlPos + 8 ∧ s'.decoded ≤ out.cap) := by
  unfold rdfBody32
  simp only [Prog.bind_eq, Prog.pure_eq]
  refine tri_bind (tri_fromX hx) fun data ⟨h0, hd⟩ => ?_
  refine tri_bind (tri_rangeR hi) fun ctrls hc => ?_
  refine tri_bind (tri_nums hr ho) fun nums ⟨⟨hcap, hcap'⟩, hnr, hn⟩ => ?_
  refine tri_bind (tri_getB hc) fun _ _ => ?_
  refine tri_bind (tri_getB hc) fun _ _ => ?_
  refine tri_bind (tri_get8DF hd.r32 (hn.w32 (by omega))) fun _ _ => ?_
  refine tri_bind (tri_getB hc) fun _ _ => ?_
  refine tri_bind tri_size fun _ sA => ?_
  refine tri_bind (tri_getB hc) fun _ _ => ?_
  refine tri_bind tri_size fun _ sA' => ?_
  refine tri_bind (tri_getB hc) fun _ _ => ?_
  refine tri_bind (tri_getB hc) fun _ _ => ?_
  refine tri_bind (tri_fromX hd) fun _ d1 => ?_
  refine tri_bind (tri_numsFrom hn hcap (by omega)) fun _ n1 => ?_
  refine tri_bind (tri_getW hnr) fun _ _ => ?_
  refine tri_bind (tri_get8DF d1.2.r32 n1) fun _ _ => ?_
  refine tri_bind (tri_getB hc) fun _ _ => ?_
  refine tri_bind tri_size fun _ sB => ?_
  refine tri_bind (tri_getB hc) fun _ _ => ?_
  refine tri_bind tri_size fun _ sB' => ?_
  refine tri_bind (tri_getB hc) fun _ _ => ?_
  refine tri_bind (tri_getB hc) fun _ _ => ?_
  refine tri_bind (tri_fromX hd) fun _ d1 => ?_
  refine tri_bind (tri_numsFrom hn hcap (by omega)) fun _ n1 => ?_
  refine tri_bind (tri_getW hnr) fun _ _ => ?_
  refine tri_bind (tri_get8DF d1.2.r32 n1) fun _ _ => ?_
  refine tri_bind (tri_getB hc) fun _ _ => ?_
  refine tri_bind tri_size fun _ sC => ?_
  refine tri_bind (tri_getB hc) fun _ _ => ?_
  refine tri_bind tri_size fun _ sC' => ?_
  refine tri_bind (tri_getB hc) fun _ _ => ?_
  refine tri_bind (tri_getB hc) fun _ _ => ?_
  refine tri_bind (tri_fromX hd) fun _ d1 => ?_
  refine tri_bind (tri_numsFrom hn hcap (by omega)) fun _ n1 => ?_
  refine tri_bind (tri_getW hnr) fun _ _ => ?_
  refine tri_bind (tri_get8DF d1.2.r32 n1) fun _ _ => ?_
  refine tri_bind (tri_getB hc) fun _ _ => ?_
  refine tri_bind tri_size fun _ sD => ?_
  refine tri_bind (tri_getB hc) fun _ _ => ?_
  refine tri_bind tri_size fun _ sD' => ?_
  refine tri_bind (tri_getW hnr) fun _ _ => ?_
  refine tri_ret ⟨h0, ?_, rfl, rfl, ?_⟩ <;> simp only <;> omega

theorem tri_rf8 {stream : Bytes} {out : U32s} (s : RSt) (hi : RdOk F stream) (hx : RdX F stream)
    (ho : WrX F out) :
    Tri F (rfBody8 stream out s) (fun s' => 0 ≤ s.dataPos ∧ 0 ≤ s'.dataPos ∧ s'.ctrlPos = s.ctrlPos + 2 ∧
      s'.decoded = s.decoded + 8) := by
  unfold rfBody8
  simp only [Prog.bind_eq, Prog.pure_eq]
  refine tri_bind (tri_getB hi) fun _ _ => ?_
  refine tri_bind (tri_getB hi) fun _ _ => ?_
  refine tri_bind (tri_fromX hx) fun _ d => ?_
  refine tri_bind (tri_fromW32 ho) fun _ n => ?_
  refine tri_bind (tri_get8F d.2.r32 n.2) fun _ _ => ?_
  refine tri_bind (tri_getB hi) fun _ _ => ?_
  refine tri_bind tri_size fun _ _ => ?_
  refine tri_bind (tri_getB hi) fun _ _ => ?_
  refine tri_bind tri_size fun _ _ => ?_
  refine tri_ret ⟨d.1, ?_, rfl, rfl⟩
  simp only; omega

theorem tri_rdf8 {stream : Bytes} {out : U32s} (s : RSt) (hi : RdOk F stream) (hx : RdX F stream)
    (hr : RdOk F out) (ho : WrX F out) :
    Tri F (rdfBody8 stream out s) (fun s' => 0 ≤ s.dataPos ∧ 0 ≤ s'.dataPos ∧ s'.ctrlPos = s.ctrlPos + 2 ∧
      s'.decoded = s.decoded + 8) := by
  unfold rdfBody8
  simp only [Prog.bind_eq, Prog.pure_eq]
  refine tri_bind (tri_getB hi) fun _ _ => ?_
  refine tri_bind (tri_getB hi) fun _ _ => ?_
  refine tri_bind (tri_fromX hx) fun _ d => ?_
  refine tri_bind (tri_fromW32 ho) fun _ n => ?_
  refine tri_bind (tri_get8DF d.2.r32 n.2) fun _ _ => ?_
  refine tri_bind (tri_getB hi) fun _ _ => ?_
  refine tri_bind tri_size fun _ _ => ?_
  refine tri_bind (tri_getB hi) fun _ _ => ?_
  refine tri_bind tri_size fun _ _ => ?_
  refine tri_bind (tri_getW hr) fun _ _ => ?_
  refine tri_ret ⟨d.1, ?_, rfl, rfl⟩
  simp only; omega

theorem tri_rf1 {count : Int} {stream : Bytes} {out : U32s} (s : RSt) (hi : RdOk F stream) (ho : WrOk F out) :
    Tri F (rfBody1 count stream out s)
      (fun s' => 0 ≤ s.dataPos ∧ 0 ≤ s'.dataPos ∧ s'.ctrlPos = s.ctrlPos + 1 ∧
        s'.decoded = s.decoded + min 4 (count - s.decoded) ∧ s'.decoded ≤ out.len) := by
  unfold rfBody1
  simp only [Prog.bind_eq, Prog.pure_eq]
  refine tri_bind (tri_fromR hi) fun _ d => ?_
  refine tri_bind (tri_fromW ho) fun _ n => ?_
  refine tri_bind (tri_getB hi) fun _ _ => ?_
  refine tri_bind (tri_getN d.2 n.2.1) fun _ hN => ?_
  have hN' := hN.2 (by split <;> omega)
  refine tri_ret ⟨d.1, ?_, rfl, ?_, ?_⟩ <;> simp only
  · omega
  · split <;> omega
  · omega

theorem tri_rdf1 {count : Int} {stream : Bytes} {out : U32s} (s : RSt) (hi : RdOk F stream) (ho : WrOk F out)
    (hr : RdOk F out) :
    Tri F (rdfBody1 count stream out s)
      (fun s' => 0 ≤ s.dataPos ∧ 0 ≤ s'.dataPos ∧ s'.ctrlPos = s.ctrlPos + 1 ∧
        s'.decoded = s.decoded + min 4 (count - s.decoded) ∧ s'.decoded ≤ out.len) := by
  unfold rdfBody1
  simp only [Prog.bind_eq, Prog.pure_eq]
  refine tri_bind (tri_fromR hi) fun _ d => ?_
  refine tri_bind (tri_fromW ho) fun _ n => ?_
  refine tri_bind (tri_getB hi) fun _ _ => ?_
  refine tri_bind (tri_getNDelta d.2 n.2.1) fun _ hN => ?_
  refine tri_bind (tri_getW hr) fun _ _ => ?_
  have hN' := hN.2 (by split <;> omega)
  refine tri_ret ⟨d.1, ?_, rfl, ?_, ?_⟩ <;> simp only
  · omega
  · split <;> omega
  · omega

theorem tri_readAllFast {count : Int} {stream : Bytes} {out : U32s} (h1 : -2 ^ 63 ≤ count)
    (h2 : count < 2 ^ 63) (hi : RdOk F stream) (hx : RdX F stream) (hr : RdOk F out) (ho : WrOk F out)
    (hox : WrX F out) : Tri F (readAllFast count stream out) (fun _ => True) := by
  have hb := hdr_bound h1 h2
  unfold readAllFast
  simp only [Prog.bind_eq, Prog.pure_eq]
  rw [show goDiv (int64 (count + 3)) 4 = hdr count from rfl]
  refine tri_bind (tri_rloop (lim := lowest32Of (hdr count)) (pos := RSt.decoded)
    (I := fun s => 0 ≤ s.ctrlPos) (by simp) (fun s hI _ => tri_mono (tri_rf32 s hi hx hr ho) fun s' h =>
      ⟨h.1, h.2.1, by omega, by omega⟩)
    (by simp) (by simp) (fun h => by have := hb h; omega) (by omega)) ?_
  rintro s ⟨⟨hI, hp, hd⟩, -⟩
  refine tri_bind (tri_rloop (lim := hdr count - 4) (pos := RSt.ctrlPos) (I := fun _ => True)
    (by simp) (fun s _ _ => tri_mono (tri_rf8 s hi hx hox) fun s' h => ⟨h.1, h.2.1, by omega, trivial⟩)
    trivial hI (fun h => by have := hb (hd.1 h); omega) (by omega)) ?_
  rintro s2 ⟨⟨-, hp2, hd2⟩, -⟩
  refine tri_bind (tri_rloop (lim := hdr count) (pos := RSt.ctrlPos) (I := fun _ => True)
    (by simp) (fun s _ _ => tri_mono (tri_rf1 s hi ho) fun s' h => ⟨h.1, h.2.1, by omega, trivial⟩)
    trivial hp2 (fun h => by have := hb (hd.1 (hd2.1 h)); omega) (by omega)) ?_
  intro _ _
  exact tri_ret trivial

theorem tri_readAllDeltaFast {count : Int} {stream : Bytes} {out : U32s} {prev : U32} (h1 : -2 ^ 63 ≤ count)
    (h2 : count < 2 ^ 63) (hi : RdOk F stream) (hx : RdX F stream) (hr : RdOk F out) (ho : WrOk F out)
    (hox : WrX F out) : Tri F (readAllDeltaFast count stream out prev) (fun _ => True) := by
  have hb := hdr_bound h1 h2
  unfold readAllDeltaFast
  simp only [Prog.bind_eq, Prog.pure_eq]
  rw [show goDiv (int64 (count + 3)) 4 = hdr count from rfl]
  refine tri_bind (tri_rloop (lim := lowest32Of (hdr count)) (pos := RSt.decoded)
    (I := fun s => 0 ≤ s.ctrlPos) (by simp) (fun s hI _ => tri_mono (tri_rdf32 s hi hx hr ho) fun s' h =>
      ⟨h.1, h.2.1, by omega, by omega⟩)
    (by simp) (by simp) (fun h => by have := hb h; omega) (by omega)) ?_
  rintro s ⟨⟨hI, hp, hd⟩, -⟩
  refine tri_bind (tri_rloop (lim := hdr count - 4) (pos := RSt.ctrlPos) (I := fun _ => True)
    (by simp) (fun s _ _ => tri_mono (tri_rdf8 s hi hx hr hox) fun s' h => ⟨h.1, h.2.1, by omega, trivial⟩)
    trivial hI (fun h => by have := hb (hd.1 h); omega) (by omega)) ?_
  rintro s2 ⟨⟨-, hp2, hd2⟩, -⟩
  refine tri_bind (tri_rloop (lim := hdr count) (pos := RSt.ctrlPos) (I := fun _ => True)
    (by simp) (fun s _ _ => tri_mono (tri_rdf1 s hi ho hr) fun s' h => ⟨h.1, h.2.1, by omega, trivial⟩)
    trivial hp2 (fun h => by have := hb (hd.1 (hd2.1 h)); omega) (by omega)) ?_
  intro _ _
  exact tri_ret trivial

/-! ## Normal return needs room in `out` -/

theorem tri_readAllScalar_room {count : Int} {stream : Bytes} {out : U32s} (h1 : 0 ≤ count)
    (h2 : count < 2 ^ 63) (hi : RdOk F stream) (ho : WrOk F out) :
    Tri F (readAllScalar count stream out)
      (fun _ => count ≤ out.cap ∧ (count % 16 ≠ 0 → count ≤ out.len)) := by
  unfold readAllScalar
  simp only [Prog.bind_eq, Prog.pure_eq]
  have hj : andNot count (jump - 1) = count - count % 16 := by
    rw [jump_val, show (16 - 1 : Int) = 15 by decide, andNot15 (by omega) h2]
  have hl : andNot count 3 = count - count % 4 := andNot3 (by omega) h2
  rw [hj, hl]
  have hlc := ho.lc
  refine tri_bind (tri_rloop (lim := count - count % 16) (pos := RSt.decoded)
    (I := fun s => s.decoded % 16 = 0 ∧ s.decoded ≤ count - count % 16 ∧ s.decoded ≤ out.cap)
    (by simp) (fun s hI hc => tri_mono (tri_rs16 s hi ho) fun s' h => ⟨h.1, h.2.1, by omega, ?_⟩)
    ⟨by simp, by simp only; omega, by simp only; omega⟩ (by simp) (by omega) (by omega)) ?_
  · simp only [decide_eq_true_eq] at hc; omega
  rintro s ⟨⟨hI, hp, hd⟩, hx⟩
  simp only [decide_eq_false_iff_not] at hx
  refine tri_bind (tri_rloop (lim := count - count % 4) (pos := RSt.decoded)
    (I := fun s => s.decoded ≤ out.cap ∧ (s.decoded = count - count % 16 ∨ s.decoded ≤ out.len))
    (by simp) (fun s _ _ => tri_mono (tri_rs4 s hi ho) fun s' h => ⟨h.1, h.2.1, by omega, by omega⟩)
    (by omega) hp (by omega) (by omega)) ?_
  rintro s ⟨⟨hI', hp', -⟩, hx'⟩
  simp only [decide_eq_false_iff_not] at hx'
  split
  · rename_i hne
    refine tri_bind (tri_fromR hi) fun _ d => ?_
    refine tri_bind (tri_fromW ho) fun _ n => ?_
    refine tri_bind (tri_getB hi) fun _ _ => ?_
    refine tri_bind (tri_getN d.2 n.2.1) fun _ hN => tri_ret ?_
    have hN' := hN.2
    rw [int64_eq (by omega) (by omega)] at hN'
    omega
  · refine tri_ret ?_
    omega

theorem tri_readAllDeltaScalar_room {count : Int} {stream : Bytes} {out : U32s} {prev : U32} (h1 : 0 ≤ count)
    (h2 : count < 2 ^ 63) (hi : RdOk F stream) (ho : WrOk F out) (hr : RdOk F out) :
    Tri F (readAllDeltaScalar count stream out prev)
      (fun _ => count ≤ out.cap ∧ (count % 16 ≠ 0 → count ≤ out.len)) := by
  unfold readAllDeltaScalar
  simp only [Prog.bind_eq, Prog.pure_eq]
  have hj : andNot count (jump - 1) = count - count % 16 := by
    rw [jump_val, show (16 - 1 : Int) = 15 by decide, andNot15 (by omega) h2]
  have hl : andNot count 3 = count - count % 4 := andNot3 (by omega) h2
  rw [hj, hl]
  have hlc := ho.lc
  refine tri_bind (tri_rloop (lim := count - count % 16) (pos := RSt.decoded)
    (I := fun s => s.decoded % 16 = 0 ∧ s.decoded ≤ count - count % 16 ∧ s.decoded ≤ out.cap)
    (by simp) (fun s hI hc => tri_mono (tri_rds16 s hi ho hr) fun s' h => ⟨h.1, h.2.1, by omega, ?_⟩)
    ⟨by simp, by simp only; omega, by simp only; omega⟩ (by simp) (by omega) (by omega)) ?_
  · simp only [decide_eq_true_eq] at hc; omega
  rintro s ⟨⟨hI, hp, hd⟩, hx⟩
  simp only [decide_eq_false_iff_not] at hx
  refine tri_bind (tri_rloop (lim := count - count % 4) (pos := RSt.decoded)
    (I := fun s => s.decoded ≤ out.cap ∧ (s.decoded = count - count % 16 ∨ s.decoded ≤ out.len))
    (by simp) (fun s _ _ => tri_mono (tri_rds4 s hi ho hr) fun s' h => ⟨h.1, h.2.1, by omega, by omega⟩)
    (by omega) hp (by omega) (by omega)) ?_
  rintro s ⟨⟨hI', hp', -⟩, hx'⟩
  simp only [decide_eq_false_iff_not] at hx'
  split
  · rename_i hne
    refine tri_bind (tri_fromR hi) fun _ d => ?_
    refine tri_bind (tri_fromW ho) fun _ n => ?_
    refine tri_bind (tri_getB hi) fun _ _ => ?_
    refine tri_bind (tri_getNDelta d.2 n.2.1) fun _ hN => tri_ret ?_
    have hN' := hN.2
    rw [int64_eq (by omega) (by omega)] at hN'
    omega
  · refine tri_ret ?_
    omega

theorem tri_readAllFast_room {count : Int} {stream : Bytes} {out : U32s} (h1 : 0 < count)
    (h2 : count < 2 ^ 63 - 3) (hi : RdOk F stream) (hx : RdX F stream) (hr : RdOk F out) (ho : WrOk F out)
    (hox : WrX F out) : Tri F (readAllFast count stream out) (fun _ => count ≤ out.len) := by
  have hb := hdr_bound (count := count) (by omega) (by omega)
  have hv := hdr_val (count := count) (by omega) (by omega)
  rw [if_pos (by omega)] at hv
  have hlow : lowest32Of (hdr count) % 32 = 0 ∧ lowest32Of (hdr count) ≤ 4 * (hdr count - 3) := by
    unfold lowest32Of
    rw [int64_eq (x := hdr count - 3) (by omega) (by omega), int64_eq (by omega) (by omega),
      andNot31 (by omega) (by omega)]
    omega
  unfold readAllFast
  simp only [Prog.bind_eq, Prog.pure_eq]
  rw [show goDiv (int64 (count + 3)) 4 = hdr count from rfl]
  refine tri_bind (tri_rloop (lim := lowest32Of (hdr count)) (pos := RSt.decoded)
    (I := fun s => s.decoded = 4 * s.ctrlPos ∧ s.decoded % 32 = 0 ∧ 0 ≤ s.ctrlPos ∧
      (s.ctrlPos = 0 ∨ s.decoded ≤ lowest32Of (hdr count)))
    (by simp) (fun s hI hc => tri_mono (tri_rf32 s hi hx hr ho) fun s' h => ⟨h.1, h.2.1, by omega, ?_⟩)
    (by simp) (by simp) (fun h => by have := hb h; omega) (by omega)) ?_
  · simp only [decide_eq_true_eq] at hc; omega
  rintro s ⟨⟨hI, hp, hd⟩, -⟩
  refine tri_bind (tri_rloop (lim := hdr count - 4) (pos := RSt.ctrlPos)
    (I := fun s => s.decoded = 4 * s.ctrlPos ∧ s.ctrlPos < hdr count)
    (by simp) (fun s hI hc => tri_mono (tri_rf8 s hi hx hox) fun s' h => ⟨h.1, h.2.1, by omega, ?_⟩)
    (by omega) (by omega) (fun h => by have := hb (hd.1 h); omega) (by omega)) ?_
  · simp only [decide_eq_true_eq] at hc; omega
  rintro s2 ⟨⟨hI2, hp2, hd2⟩, -⟩
  refine tri_bind (tri_rloop (lim := hdr count) (pos := RSt.ctrlPos)
    (I := fun s => s.decoded = min (4 * s.ctrlPos) count ∧ (s.ctrlPos < hdr count ∨ s.decoded ≤ out.len))
    (by simp) (fun s hI hc => tri_mono (tri_rf1 s hi ho) fun s' h => ⟨h.1, h.2.1, by omega, by omega⟩)
    (by omega) hp2 (fun h => by have := hb (hd.1 (hd2.1 h)); omega) (by omega)) ?_
  rintro s3 ⟨⟨hI3, -, -⟩, hx3⟩
  simp only [decide_eq_false_iff_not] at hx3
  exact tri_ret (by omega)

theorem tri_readAllDeltaFast_room {count : Int} {stream : Bytes} {out : U32s} {prev : U32} (h1 : 0 < count)
    (h2 : count < 2 ^ 63 - 3) (hi : RdOk F stream) (hx : RdX F stream) (hr : RdOk F out) (ho : WrOk F out)
    (hox : WrX F out) : Tri F (readAllDeltaFast count stream out prev) (fun _ => count ≤ out.len) := by
  have hb := hdr_bound (count := count) (by omega) (by omega)
  have hv := hdr_val (count := count) (by omega) (by omega)
  rw [if_pos (by omega)] at hv
  have hlow : lowest32Of (hdr count) % 32 = 0 ∧ lowest32Of (hdr count) ≤ 4 * (hdr count - 3) := by
    unfold lowest32Of
    rw [int64_eq (x := hdr count - 3) (by omega) (by omega), int64_eq (by omega) (by omega),
      andNot31 (by omega) (by omega)]
    omega
  unfold readAllDeltaFast
  simp only [Prog.bind_eq, Prog.pure_eq]
  rw [show goDiv (int64 (count + 3)) 4 = hdr count from rfl]
  refine tri_bind (tri_rloop (lim := lowest32Of (hdr count)) (pos := RSt.decoded)
    (I := fun s => s.decoded = 4 * s.ctrlPos ∧ s.decoded % 32 = 0 ∧ 0 ≤ s.ctrlPos ∧
      (s.ctrlPos = 0 ∨ s.decoded ≤ lowest32Of (hdr count)))
    (by simp) (fun s hI hc => tri_mono (tri_rdf32 s hi hx hr ho) fun s' h => ⟨h.1, h.2.1, by omega, ?_⟩)
    (by simp) (by simp) (fun h => by have := hb h; omega) (by omega)) ?_
  · simp only [decide_eq_true_eq] at hc; omega
  rintro s ⟨⟨hI, hp, hd⟩, -⟩
  refine tri_bind (tri_rloop (lim := hdr count - 4) (pos := RSt.ctrlPos)
    (I := fun s => s.decoded = 4 * s.ctrlPos ∧ s.ctrlPos < hdr count)
    (by simp) (fun s hI hc => tri_mono (tri_rdf8 s hi hx hr hox) fun s' h => ⟨h.1, h.2.1, by omega, ?_⟩)
    (by omega) (by omega) (fun h => by have := hb (hd.1 h); omega) (by omega)) ?_
  · simp only [decide_eq_true_eq] at hc; omega
  rintro s2 ⟨⟨hI2, hp2, hd2⟩, -⟩
  refine tri_bind (tri_rloop (lim := hdr count) (pos := RSt.ctrlPos)
    (I := fun s => s.decoded = min (4 * s.ctrlPos) count ∧ (s.ctrlPos < hdr count ∨ s.decoded ≤ out.len))
    (by simp) (fun s hI hc => tri_mono (tri_rdf1 s hi ho hr) fun s' h => ⟨h.1, h.2.1, by omega, by omega⟩)
    (by omega) hp2 (fun h => by have := hb (hd.1 (hd2.1 h)); omega) (by omega)) ?_
  rintro s3 ⟨⟨hI3, -, -⟩, hx3⟩
  simp only [decide_eq_false_iff_not] at hx3
  exact tri_ret (by omega)

/-! ## The vectorised block encoders -/

theorem tri_encShape {inn : U32s} {out : Bytes} {F0 F1 : Vec → Vec → Vec} (hi : ∀ q : Ptr, q.blk = inn.blk →
    inn.off ≤ q.off → q.off < inn.off + 32 → F.R q) (ho : W32 F out) :
    TriP P F (encShape inn out F0 F1) (fun _ => True) := by
  have hlo : ∀ x : U64, (BitVec.setWidth 64 (BitVec.setWidth 8 x) <<< 4).toNat + 16 ≤ 4096 := fun x => by
    simp only [BitVec.toNat_setWidth, BitVec.toNat_shiftLeft, Nat.shiftLeft_eq]; omega
  have hhi : ∀ x : U64, (BitVec.setWidth 64 (BitVec.setWidth 16 x) >>> 8 <<< 4).toNat + 16 ≤ 4096 := fun x => by
    simp only [BitVec.toNat_setWidth, BitVec.toNat_shiftLeft, BitVec.toNat_ushiftRight, Nat.shiftLeft_eq,
      Nat.shiftRight_eq_div_pow]; omega
  have hb : ∀ x : U64, (BitVec.setWidth 64 (BitVec.setWidth 8 x)).toNat = (BitVec.setWidth 8 x).toNat :=
    fun x => byte64_toNat _
  unfold encShape
  simp only [ctrlLenPtr, encShufPtr, Slice.ptr, Ptr.add, Nat.add_zero, Nat.zero_add]
  refine tri_bind (tri_load16 fun k hk => hi _ rfl (by simp only; omega) (by simp only; omega)) fun a _ => ?_
  refine tri_bind (tri_load16 fun k hk => hi _ rfl (by simp only; omega) (by simp only; omega)) fun a1 _ => ?_
  refine tri_bind (tri_load8 (F.tabs _ (by simp only [inTables]; omega))) fun a2 _ => ?_
  refine tri_bind (tri_load8 (F.tabs _ (by simp only [inTables]; omega))) fun a3 _ => ?_
  refine tri_bind (tri_load8 (F.tabs _ (by simp only [inTables]; omega))) fun a4 _ => ?_
  refine tri_bind (tri_load8 (F.tabs _ (by simp only [inTables]; omega))) fun a5 _ => ?_
  generalize BitVec.ofNat 64 (ctrlExpr (F0 a a1) (F1 a a1) a2 a3 a4 a5) = x
  specialize hlo x; specialize hhi x
  refine tri_bind (tri_load16 fun k hk => F.tabs _ (by simp only [inTables]; omega)) fun _ _ => ?_
  refine tri_bind (tri_load16 fun k hk => F.tabs _ (by simp only [inTables]; omega)) fun _ _ => ?_
  rw [hb]
  generalize hc : BitVec.setWidth 8 x = c
  refine tri_bind (tri_load8 (F.tabs _ c.isLt)) ?_
  rintro _ ⟨m, hT, rfl⟩
  have g := gSize_bounds c
  rw [byte64_toNat, hT.ctrlLen' c]
  refine tri_bind (tri_store16 fun k hk => ho _ rfl (by simp only; omega) (by simp only; omega)) fun _ _ => ?_
  exact tri_bind (tri_store16 fun k hk => ho _ rfl (by simp only; omega) (by simp only; omega)) fun _ _ =>
    tri_ret trivial

theorem tri_put8F {inn : U32s} {out : Bytes} (hi : ∀ q : Ptr, q.blk = inn.blk → inn.off ≤ q.off →
    q.off < inn.off + 32 → F.R q) (ho : W32 F out) :
    TriP P F (put8uint32FastAsm inn out encShufPtr ctrlLenPtr) (fun _ => True) := by
  rw [put8Fast_shape]; exact tri_encShape hi ho

theorem tri_put8DF {inn : U32s} {out : Bytes} {prev : U32} (hi : ∀ q : Ptr, q.blk = inn.blk →
    inn.off ≤ q.off → q.off < inn.off + 32 → F.R q) (ho : W32 F out) :
    TriP P F (put8uint32DeltaFastAsm inn out prev encShufPtr ctrlLenPtr) (fun _ => True) := by
  rw [put8DeltaFast_shape]; exact tri_encShape hi ho

end SVB
