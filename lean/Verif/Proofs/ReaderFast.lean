import Verif.Proofs.ReaderCommon

/-! # Specifications of the vectorised stream readers -/

set_option linter.unusedSimpArgs false

namespace SVB
open Spec Asm

local macro "ar" : tactic => `(tactic| first | omega | (simp only; omega) | (simp only))

/-- Loads of the vector code past the end of the stream: at most 32 bytes past its end, at most
`(4 - n % 4) % 4` bytes past the last encoded number, and never past the largest possible encoding of `n`
numbers. -/
def overR (st : Bytes) (n : Nat) (m0 : Mem) (q : Ptr) : Prop :=
  q.blk = st.blk ∧ st.off + st.len ≤ q.off ∧ q.off < st.off + st.len + 32 ∧
    q.off < rB st n + psum (rsz st m0) n + (4 - n % 4) % 4 ∧ q.off < rB st n + 4 * n

theorem code16_mk16 {st : Bytes} {m0 : Mem} {i g : Nat} (hi : i = 4 * g) {c0 c1 : Byte}
    (h0 : c0 = m0 ⟨st.blk, st.off + g⟩) (h1 : c1 = m0 ⟨st.blk, st.off + (g + 1)⟩) :
    ∀ k < 8, code16 (mk16 c0 c1) k + 1 = rsz st m0 (i + k) := by
  intro k hk
  rw [mk16, code16_mk c0 c1 k hk]
  split
  · rw [h0]; exact (sizes_of hi).eq k (by omega)
  · rw [h1, (sizes_of (i := i + 4) (g := g + 1) (by omega)).eq (k - 4) (by omega)]
    congr 1; omega

section
variable {st : Bytes} {out : U32s} {n : Nat} {m0 m : Mem} {y : Nat → U32} {i : Nat} {X : Nat → Prop} {Z : Ptr → Prop}

/-- The two 16-byte loads of one call stay inside the stream or the over-read region. -/
theorem asm_loads (hin : i + 8 ≤ 4 * (ctrlLen n - 3)) (hC : 3 < ctrlLen n)
    (hle : rB st n + psum (rsz st m0) i ≤ st.off + st.len) (hZ : ∀ q, overR st n m0 q → Z q) (q : Ptr)
    (h : Seg st.blk (rB st n + psum (rsz st m0) i) (rB st n + psum (rsz st m0) i + 16) q ∨
      Seg st.blk (rB st n + psum (rsz st m0) (i + 4)) (rB st n + psum (rsz st m0) (i + 4) + 16) q ∨ inTables q) :
    inSlice st q ∨ inTables q ∨ Z q := by
  have hC : ctrlLen n = (n + 3) / 4 := rfl
  have hB : rB st n = st.off + ctrlLen n := rfl
  have b0 := rpsum_bounds st m0 (show 0 ≤ i by omega)
  have b1 := rpsum_bounds st m0 (show i ≤ i + 4 by omega)
  have b2 := rpsum_bounds st m0 (show i + 4 ≤ n by omega)
  simp only [psum_zero] at b0
  have key : q.blk = st.blk → st.off ≤ q.off → q.off < rB st n + psum (rsz st m0) (i + 4) + 16 →
      inSlice st q ∨ inTables q ∨ Z q := by
    intro h1 h2 h3
    by_cases hq : q.off < st.off + st.len
    · exact .inl ⟨h1, h2, by omega⟩
    · exact .inr (.inr (hZ q ⟨h1, by omega, by omega, by omega, by omega⟩))
  rcases h with ⟨h1, h2, h3⟩ | ⟨h1, h2, h3⟩ | h
  · exact key h1 (by omega) (by omega)
  · exact key h1 (by omega) (by omega)
  · exact .inr (.inl h)

/-- Eight numbers through the vector code, then the two size look-ups. -/
theorem stepR8 {β : Type} {p : Prog Unit} {ctrls : Bytes} {j j' : Int} {g : Nat} {K : Int → Int → Prog β}
    {Q : β → Mem → Prop}
    (hy : RHyp st out n m0) (hi : i = 4 * g) (hin : i + 8 ≤ n) (hI : RI st out n m0 y m i)
    (hp : wp ⟨fun q => inSlice st q ∨ inTables q ∨ Z q, Seg out.blk (out.off + 4 * i) (out.off + 4 * (i + 8)),
      fun _ _ => False⟩ p m
      (fun _ m' => ∀ k < 8, rB st n + psum (rsz st m0) (i + k + 1) ≤ st.off + st.len →
        wordAt m' out.blk (out.off + 4 * (i + k)) = y (i + k)))
    (jn : Nat) (hj : j = jn) (hj' : j' = (jn + 1 : Nat)) (hb : ctrls.blk = st.blk)
    (hjl : jn + 1 < ctrls.len) (ho : ctrls.off + jn = st.off + g) (hgl : g + 1 < st.len)
    (hK : ∀ m' (s1 s2 : Nat), RI st out n m0 y m' (i + 8) →
      psum (rsz st m0) i + (s1 + s2) = psum (rsz st m0) (i + 8) →
      wp (rctxP st out n m0 y X Z) (K (s1 : Int) (s2 : Int)) m' Q) :
    wp (rctxP st out n m0 y X Z) (p.bind fun _ => (getB ctrls j).bind fun a => (controlByteToSize a).bind fun s1 =>
      (getB ctrls j').bind fun b => (controlByteToSize b).bind fun s2 => K s1 s2) m Q := by
  refine wp_call hp (fun _ h => h) ?_ (fun _ _ _ h => h.elim) ?_
  · rintro q ⟨h1, h2, h3⟩; exact ⟨h1, by omega, by omega⟩
  rintro _ m1 hf1 hw
  have hI1 := hI.extend (k := 8) hin hf1 hw
  rw [wp_bind]
  refine wp_getB_ok jn hj (by omega) (.inl ⟨hb, by ar, by ar⟩) ?_
  rw [hb, hI1.ctrl hy ho (by omega)]
  refine wp_call (controlByteToSize_spec _ _ (hI1.tables hy)) (fun _ h => .inr (.inl h)) (fun _ h => h.elim)
    (fun _ _ _ h => h.elim) ?_
  rintro _ _ - ⟨rfl, rfl⟩
  rw [wp_bind]
  refine wp_getB_ok (jn + 1) hj' (by omega) (.inl ⟨hb, by ar, by ar⟩) ?_
  rw [hb, hI1.ctrl hy (g := g + 1) (by omega) (by omega)]
  refine wp_call (controlByteToSize_spec _ _ (hI1.tables hy)) (fun _ h => .inr (.inl h)) (fun _ h => h.elim)
    (fun _ _ _ h => h.elim) ?_
  rintro _ _ - ⟨rfl, rfl⟩
  refine hK _ _ _ hI1 ?_
  have e1 := (sizes_of (st := st) (m0 := m0) hi).total
  have e2 := (sizes_of (st := st) (m0 := m0) (i := i + 4) (g := g + 1) (by omega)).total
  rw [show i + 8 = i + 4 + 4 by omega, e2, e1]; omega

theorem get8_R {nums : U32s} {data : Bytes} {g : Nat} {c0 c1 : Byte} (hy : RHyp st out n m0)
    (hZ : ∀ q, overR st n m0 q → Z q) (hI : RI st out n m0 (rd st n m0) m i) (hi : i = 4 * g)
    (hin : i + 8 ≤ 4 * (ctrlLen n - 3)) (hC : 3 < ctrlLen n)
    (hle : rB st n + psum (rsz st m0) i ≤ st.off + st.len)
    (h0 : c0 = m0 ⟨st.blk, st.off + g⟩) (h1 : c1 = m0 ⟨st.blk, st.off + (g + 1)⟩)
    (hn1 : nums.blk = out.blk) (hn2 : nums.off = out.off + 4 * i)
    (hd1 : data.blk = st.blk) (hd2 : data.off = rB st n + psum (rsz st m0) i) :
    wp ⟨fun q => inSlice st q ∨ inTables q ∨ Z q, Seg out.blk (out.off + 4 * i) (out.off + 4 * (i + 8)),
      fun _ _ => False⟩ (get8uint32FastAsm data nums (mk16 c0 c1) decShufPtr ctrlLenPtr) m
      (fun _ m' => ∀ k < 8, rB st n + psum (rsz st m0) (i + k + 1) ≤ st.off + st.len →
        wordAt m' out.blk (out.off + 4 * (i + k)) = rd st n m0 (i + k)) := by
  refine wp_conseq (get8Fast_spec (rsz st m0) (rd st n m0) i (rB st n) (st.off + st.len) data nums _ m
    (hI.tables hy) (code16_mk16 hi h0 h1) hd2 (hd1 ▸ hI.declim hy i (i + 8))) ?_ ?_ (fun _ _ _ h => h) ?_
  · rw [hd1]; exact asm_loads hin hC hle hZ
  · rintro q ⟨h1, h2, h3⟩; exact ⟨by rw [h1, hn1], by omega, by omega⟩
  · rintro _ m' - h k hk hg
    rw [← h k hk hg, hn1, hn2]; congr 1; omega

theorem get8Delta_R {prev : U32} {nums : U32s} {data : Bytes} {g : Nat} {c0 c1 : Byte} {pr : U32}
    (hy : RHyp st out n m0)
    (hZ : ∀ q, overR st n m0 q → Z q) (hI : RI st out n m0 (ysum (rd st n m0) prev) m i) (hi : i = 4 * g)
    (hin : i + 8 ≤ 4 * (ctrlLen n - 3)) (hC : 3 < ctrlLen n)
    (hle : rB st n + psum (rsz st m0) i ≤ st.off + st.len)
    (h0 : c0 = m0 ⟨st.blk, st.off + g⟩) (h1 : c1 = m0 ⟨st.blk, st.off + (g + 1)⟩)
    (hn1 : nums.blk = out.blk) (hn2 : nums.off = out.off + 4 * i)
    (hd1 : data.blk = st.blk) (hd2 : data.off = rB st n + psum (rsz st m0) i)
    (hpr : pr = pv (ysum (rd st n m0) prev) prev i) :
    wp ⟨fun q => inSlice st q ∨ inTables q ∨ Z q, Seg out.blk (out.off + 4 * i) (out.off + 4 * (i + 8)),
      fun _ _ => False⟩ (get8uint32DeltaFastAsm data nums (mk16 c0 c1) pr decShufPtr ctrlLenPtr) m
      (fun _ m' => ∀ k < 8, rB st n + psum (rsz st m0) (i + k + 1) ≤ st.off + st.len →
        wordAt m' out.blk (out.off + 4 * (i + k)) = ysum (rd st n m0) prev (i + k)) := by
  refine wp_conseq (get8DeltaFast_spec (rsz st m0) (rd st n m0) (ysum (rd st n m0) prev) i (rB st n)
    (st.off + st.len) data nums _ pr m
    (hI.tables hy) (code16_mk16 hi h0 h1) hd2 (hd1 ▸ hI.declim hy i (i + 8))
    (fun _ => by rw [hpr]; exact ysum_pv _ _ _) (fun _ _ => rfl)) ?_ ?_ (fun _ _ _ h => h) ?_
  · rw [hd1]; exact asm_loads hin hC hle hZ
  · rintro q ⟨h1, h2, h3⟩; exact ⟨by rw [h1, hn1], by omega, by omega⟩
  · rintro _ m' - h k hk hg
    rw [← h k hk hg, hn1, hn2]; congr 1; omega

end

theorem rfBody32_spec {st : Bytes} {out : U32s} {n : Nat} {m0 m : Mem} {i : Nat} {Z : Ptr → Prop} {s : RSt}
    (hy : RHyp st out n m0)
    (hZ : ∀ q, overR st n m0 q → Z q) (hI : RI st out n m0 (rd st n m0) m i) (h8 : W8 st n m0 i) (hi : i % 32 = 0)
    (hin : i + 32 ≤ 4 * (ctrlLen n - 3))
    (he : s.decoded = i) (hd : s.dataPos = ctrlLen n + psum (rsz st m0) i) (hcp : s.ctrlPos = (i / 4 : Nat)) :
    wp (rctxP st out n m0 (rd st n m0) (XF st n m0) Z) (rfBody32 st out s) m
      (fun s' m' => RI st out n m0 (rd st n m0) m' (i + 32) ∧ W8 st n m0 (i + 32) ∧
        s'.decoded = (i + 32 : Nat) ∧
        s'.dataPos = ctrlLen n + psum (rsz st m0) (i + 32) ∧ s'.ctrlPos = ((i + 32) / 4 : Nat)) := by
  obtain ⟨g, hg⟩ : ∃ g, i = 4 * g := ⟨i / 4, by omega⟩
  have hC : ctrlLen n = (n + 3) / 4 := rfl
  have hB : rB st n = st.off + ctrlLen n := rfl
  have hlen := hy.len
  have hcap := hy.cap
  have hscap := hy.scap
  have hmono : ∀ j ≤ n, psum (rsz st m0) j ≤ psum (rsz st m0) n := fun j hj => psum_mono hj
  have e32 : psum (rsz st m0) (i + 32) = psum (rsz st m0) (i + 8 + 8 + 8 + 8) := rfl
  unfold rfBody32
  simp only [Prog.bind_eq, Prog.pure_eq]
  rw [wp_bind]
  refine wp_from ?_ (fun h => epanic hI (xF_of h8 (by omega) (j := i) (by omega) (by omega)) (j := i) (by omega) (.inr rfl) (by omega))
  intro a ha hal
  obtain rfl : a = ctrlLen n + psum (rsz st m0) i := by omega
  rw [wp_bind]; refine wp_range_ok (i / 4) (i / 4 + 8) hcp (by omega) (by omega) (by omega) ?_
  rw [wp_bind]; refine wp_range_ok i (i + 32) he (by omega) (by omega) (by omega) ?_
  simp only [Nat.one_mul]
  rw [wp_bind]; refine wp_getB_ok 0 rfl (by ar) (.inl ⟨rfl, by ar, by ar⟩) ?_
  rw [wp_bind]; refine wp_getB_ok 1 rfl (by ar) (.inl ⟨rfl, by ar, by ar⟩) ?_
  refine stepR8 (i := i) (g := g + 0) hy (by omega) (by omega) hI (get8_R (g := g + 0) hy hZ hI (by omega) (by omega) (by omega)
    (by ar) (hI.ctrl hy (by ar) (by omega)) (hI.ctrl hy (by ar) (by omega)) rfl (by ar) rfl (by ar))
    0 rfl rfl rfl (by ar) (by ar) (by omega) fun m1 s0 t0 h1 e0 => ?_
  rw [wp_bind]; refine wp_getB_ok 2 rfl (by ar) (.inl ⟨rfl, by ar, by ar⟩) ?_
  rw [wp_bind]; refine wp_getB_ok 3 rfl (by ar) (.inl ⟨rfl, by ar, by ar⟩) ?_
  rw [wp_bind]
  refine wp_from ?_ (fun h => epanic h1 (xF_of (.mk (j := i) (by omega) (by omega)) (by omega) (j := i + 8) (by omega) (by simp only at h; omega)) (j := i + 8) (by omega) (.inr rfl) (by simp only at h; omega))
  intro a1 ha1 hal1
  obtain rfl : a1 = (s0+t0) := by omega
  simp only at hal1
  rw [wp_bind]; refine wp_from_ok 8 rfl (by ar) ?_
  refine stepR8 (i := i + 8) (g := g + 2) hy (by omega) (by omega) h1 (get8_R (g := g + 2) hy hZ h1 (by omega) (by omega) (by omega)
    (by ar) (h1.ctrl hy (by ar) (by omega)) (h1.ctrl hy (by ar) (by omega)) rfl (by ar) rfl (by ar))
    2 rfl rfl rfl (by ar) (by ar) (by omega) fun m2 s1 t1 h2 e1 => ?_
  rw [wp_bind]; refine wp_getB_ok 4 rfl (by ar) (.inl ⟨rfl, by ar, by ar⟩) ?_
  rw [wp_bind]; refine wp_getB_ok 5 rfl (by ar) (.inl ⟨rfl, by ar, by ar⟩) ?_
  rw [wp_bind]
  refine wp_from ?_ (fun h => epanic h2 (xF_of (.mk (j := i + 8) (by omega) (by omega)) (by omega) (j := i + 8 + 8) (by omega) (by simp only at h; omega)) (j := i + 8 + 8) (by omega) (.inr rfl) (by simp only at h; omega))
  intro a2 ha2 hal2
  obtain rfl : a2 = (s0+t0)+(s1+t1) := by omega
  simp only at hal2
  rw [wp_bind]; refine wp_from_ok 16 rfl (by ar) ?_
  refine stepR8 (i := i + 8 + 8) (g := g + 4) hy (by omega) (by omega) h2 (get8_R (g := g + 4) hy hZ h2 (by omega) (by omega) (by omega)
    (by ar) (h2.ctrl hy (by ar) (by omega)) (h2.ctrl hy (by ar) (by omega)) rfl (by ar) rfl (by ar))
    4 rfl rfl rfl (by ar) (by ar) (by omega) fun m3 s2 t2 h3 e2 => ?_
  rw [wp_bind]; refine wp_getB_ok 6 rfl (by ar) (.inl ⟨rfl, by ar, by ar⟩) ?_
  rw [wp_bind]; refine wp_getB_ok 7 rfl (by ar) (.inl ⟨rfl, by ar, by ar⟩) ?_
  rw [wp_bind]
  refine wp_from ?_ (fun h => epanic h3 (xF_of (.mk (j := i + 8 + 8) (by omega) (by omega)) (by omega) (j := i + 8 + 8 + 8) (by omega) (by simp only at h; omega)) (j := i + 8 + 8 + 8) (by omega) (.inr rfl) (by simp only at h; omega))
  intro a3 ha3 hal3
  obtain rfl : a3 = (s0+t0)+(s1+t1)+(s2+t2) := by omega
  simp only at hal3
  rw [wp_bind]; refine wp_from_ok 24 rfl (by ar) ?_
  refine stepR8 (i := i + 8 + 8 + 8) (g := g + 6) hy (by omega) (by omega) h3 (get8_R (g := g + 6) hy hZ h3 (by omega) (by omega) (by omega)
    (by ar) (h3.ctrl hy (by ar) (by omega)) (h3.ctrl hy (by ar) (by omega)) rfl (by ar) rfl (by ar))
    6 rfl rfl rfl (by ar) (by ar) (by omega) fun m4 s3 t3 h4 e3 => ?_
  exact ⟨h4, .mk (j := i + 8 + 8 + 8) (by omega) (by omega), by ar, by ar, by ar⟩

theorem rfBody8_spec {st : Bytes} {out : U32s} {n : Nat} {m0 m : Mem} {i : Nat} {Z : Ptr → Prop} {s : RSt}
    (hy : RHyp st out n m0)
    (hZ : ∀ q, overR st n m0 q → Z q) (hI : RI st out n m0 (rd st n m0) m i) (h8 : W8 st n m0 i) (hi : i % 8 = 0) (hin : i + 8 ≤ 4 * (ctrlLen n - 3))
    (he : s.decoded = i) (hd : s.dataPos = ctrlLen n + psum (rsz st m0) i) (hcp : s.ctrlPos = (i / 4 : Nat)) :
    wp (rctxP st out n m0 (rd st n m0) (XF st n m0) Z) (rfBody8 st out s) m
      (fun s' m' => RI st out n m0 (rd st n m0) m' (i + 8) ∧ W8 st n m0 (i + 8) ∧
        s'.decoded = (i + 8 : Nat) ∧
        s'.dataPos = ctrlLen n + psum (rsz st m0) (i + 8) ∧ s'.ctrlPos = ((i + 8) / 4 : Nat)) := by
  obtain ⟨g, hg⟩ : ∃ g, i = 4 * g := ⟨i / 4, by omega⟩
  have hC : ctrlLen n = (n + 3) / 4 := rfl
  have hB : rB st n = st.off + ctrlLen n := rfl
  have hlen := hy.len
  have hcap := hy.cap
  have hscap := hy.scap
  have hmono : ∀ j ≤ n, psum (rsz st m0) j ≤ psum (rsz st m0) n := fun j hj => psum_mono hj
  unfold rfBody8
  simp only [Prog.bind_eq, Prog.pure_eq]
  rw [wp_bind]
  refine wp_getB ?_ (fun h => epanic hI (xF_of h8 (by omega) (j := i) (by omega) (by omega)) (j := i) (by omega) (.inl rfl) (by omega))
  intro b hb hbl
  obtain rfl : b = g := by omega
  refine ⟨.inl ⟨rfl, by ar, by ar⟩, ?_⟩
  rw [wp_bind]
  refine wp_getB ?_ (fun h => epanic hI (xF_of h8 (by omega) (j := i) (by omega) (by omega)) (j := i) (by omega) (.inl rfl) (by omega))
  intro b' hb' hbl'
  obtain rfl : b' = b + 1 := by omega
  refine ⟨.inl ⟨rfl, by ar, by ar⟩, ?_⟩
  rw [wp_bind]
  refine wp_from ?_ (fun h => epanic hI (xF_of h8 (by omega) (j := i) (by omega) (by omega)) (j := i) (by omega) (.inr rfl) (by omega))
  intro a ha hal
  obtain rfl : a = ctrlLen n + psum (rsz st m0) i := by omega
  rw [wp_bind]; refine wp_from_ok i he (by omega) ?_
  simp only [Nat.one_mul]
  refine stepR8 (i := i) (g := b) hy (by omega) (by omega) hI (get8_R (g := b) hy hZ hI (by omega) (by omega) (by omega)
    (by ar) (hI.ctrl hy (by ar) (by omega)) (hI.ctrl hy (by ar) (by omega)) rfl (by ar) rfl (by ar))
    b (by omega) (by omega) rfl (by ar) (by ar) (by omega) fun m1 s0 t0 h1 e0 => ?_
  exact ⟨h1, .mk (j := i) (by omega) (by omega), by ar, by ar, by ar⟩

theorem rfBody1_spec {st : Bytes} {out : U32s} {n : Nat} {m0 m : Mem} {i : Nat} {Z : Ptr → Prop} {s : RSt} {k : Nat}
    (hy : RHyp st out n m0) (hI : RI st out n m0 (rd st n m0) m i) (h8 : W8 st n m0 i) (hi : i % 4 = 0) (hin : i < n) (hk : k = min 4 (n - i))
    (he : s.decoded = i) (hd : s.dataPos = ctrlLen n + psum (rsz st m0) i) (hcp : s.ctrlPos = (i / 4 : Nat)) :
    wp (rctxP st out n m0 (rd st n m0) (XF st n m0) Z) (rfBody1 n st out s) m
      (fun s' m' => RI st out n m0 (rd st n m0) m' (i + k) ∧ W8 st n m0 (i + k) ∧ rB st n + psum (rsz st m0) (i + k) ≤ st.off + st.len ∧
        s'.decoded = (i + k : Nat) ∧
        s'.dataPos = ctrlLen n + psum (rsz st m0) (i + k) ∧ s'.ctrlPos = (i / 4 + 1 : Nat)) := by
  obtain ⟨g, hg⟩ : ∃ g, i = 4 * g := ⟨i / 4, by omega⟩
  have hC : ctrlLen n = (n + 3) / 4 := rfl
  have hB : rB st n = st.off + ctrlLen n := rfl
  have hlen := hy.len
  have hcap := hy.cap
  have hscap := hy.scap
  have hmono : ∀ j ≤ n, psum (rsz st m0) j ≤ psum (rsz st m0) n := fun j hj => psum_mono hj
  unfold rfBody1
  simp only [Prog.bind_eq, Prog.pure_eq]
  have hnums : (if (n : Int) - s.decoded > 4 then 4 else (n : Int) - s.decoded) = (k : Int) := by
    split <;> omega
  rw [hnums, wp_bind]
  refine wp_from ?_ (fun h => epanic hI (xF_of h8 (by omega) (j := i) (by omega) (by omega)) (j := i) (by omega) (.inr rfl) (by omega))
  intro a ha hal
  obtain rfl : a = ctrlLen n + psum (rsz st m0) i := by omega
  rw [wp_bind]; refine wp_from_ok i he (by omega) ?_
  rw [wp_bind]; refine wp_getB_ok (i / 4) hcp (by omega) (.inl ⟨rfl, by ar, by ar⟩) ?_
  simp only [Nat.one_mul]
  rw [wp_bind]
  refine wp_mono (getP_R (g := i / 4) (k := k) hy hI (by omega) (by omega) (by omega)
    rfl (hI.ctrl hy rfl (by omega))
    rfl rfl (by ar) rfl (by ar) (by ar)
    fun j hj h1 h2 => xF_of (.mk (j := i + j) (by omega) (Classical.not_not.1 h1)) (by omega) (Nat.le_refl _) h2) ?_
  rintro r m1 ⟨h1, h2, h3⟩
  exact ⟨h1, .mk (j := i + k) (by omega) h3, h3, by ar, by ar, by ar⟩

theorem readAllFast_specP {st : Bytes} {out : U32s} {n : Nat} {m0 : Mem} {Z : Ptr → Prop}
    (hy : RHyp st out n m0)
    (hZ : ∀ q, overR st n m0 q → Z q) :
    wp (rctxP st out n m0 (rd st n m0) (XF st n m0) Z) (readAllFast n st out) m0
      (fun _ m' => RI st out n m0 (rd st n m0) m' n ∧ rB st n + psum (rsz st m0) n ≤ st.off + st.len) := by
  have hC : ctrlLen n = (n + 3) / 4 := rfl
  have hB : rB st n = st.off + ctrlLen n := rfl
  have hlen := hy.len
  have hcap := hy.cap
  have hscap := hy.scap
  have hsm := hy.small
  have hp0 : psum (rsz st m0) 0 = 0 := rfl
  unfold readAllFast
  simp only [Prog.bind_eq, Prog.pure_eq]
  rw [header_ctrlLen (by omega), header_lowest32 (by omega), Int.toNat_natCast]
  rw [wp_bind]
  refine wp_loop (fun (s : RSt) m' => ∃ i, RI st out n m0 (rd st n m0) m' i ∧ W8 st n m0 i ∧ i % 32 = 0 ∧ (i = 0 ∨ i ≤ 4 * (ctrlLen n - 3)) ∧
      s.decoded = (i : Nat) ∧ s.dataPos = ctrlLen n + psum (rsz st m0) i ∧ s.ctrlPos = ((i + 3) / 4 : Nat))
    (fun s => n - s.decoded.toNat) ?_ ?_ ?_ ?_ ?_
  · rintro s m1 ⟨i, hI, h8, hi, hil, he, hd, hcp⟩ hcond
    simp only [decide_eq_true_eq] at hcond
    refine wp_mono (rfBody32_spec hy hZ hI h8 (by omega) (by omega) he hd (by omega)) ?_
    rintro s' m2 ⟨h1, g8, h3, h4, h5⟩
    exact ⟨⟨i + 32, h1, g8, by omega, by omega, h3, h4, by omega⟩, by omega⟩
  · rintro s m1 ⟨i, hI, h8, hi, hil, he, hd, hcp⟩ hcond
    simp only [decide_eq_true_eq] at hcond
    omega
  rotate_left
  · exact ⟨0, RI.start st out n m0 _, .inl (by omega), by omega, .inl rfl, rfl, by simp, by simp⟩
  · omega
  rintro s m1 ⟨i, hI, h8, hi, hil, he, hd, hcp⟩ hcond
  simp only [decide_eq_false_iff_not] at hcond
  rw [wp_bind]
  refine wp_loop (fun (s : RSt) m' => ∃ i, RI st out n m0 (rd st n m0) m' i ∧ W8 st n m0 i ∧ i % 8 = 0 ∧ (i = 0 ∨ i ≤ 4 * (ctrlLen n - 3)) ∧
      s.decoded = (i : Nat) ∧ s.dataPos = ctrlLen n + psum (rsz st m0) i ∧ s.ctrlPos = ((i + 3) / 4 : Nat))
    (fun s => n - s.decoded.toNat) ?_ ?_ ?_ ?_ ?_
  · rintro s m1 ⟨i, hI, h8, hi, hil, he, hd, hcp⟩ hcond
    simp only [decide_eq_true_eq] at hcond
    refine wp_mono (rfBody8_spec hy hZ hI h8 (by omega) (by omega) he hd (by omega)) ?_
    rintro s' m2 ⟨h1, g8, h3, h4, h5⟩
    exact ⟨⟨i + 8, h1, g8, by omega, by omega, h3, h4, by omega⟩, by omega⟩
  · rintro s m1 ⟨i, hI, h8, hi, hil, he, hd, hcp⟩ hcond
    simp only [decide_eq_true_eq] at hcond
    omega
  rotate_left
  · exact ⟨i, hI, h8, by omega, by omega, he, hd, hcp⟩
  · omega
  rintro s m1 ⟨i, hI, h8, hi, hil, he, hd, hcp⟩ hcond
  simp only [decide_eq_false_iff_not] at hcond
  have hst : i < n ∨ n = 0 := by omega
  rw [wp_bind]
  refine wp_loop (fun (s : RSt) m' => ∃ i, RI st out n m0 (rd st n m0) m' i ∧ W8 st n m0 i ∧ (i % 4 = 0 ∨ i = n) ∧ i ≤ n ∧ (i = n → rB st n + psum (rsz st m0) n ≤ st.off + st.len) ∧
      s.decoded = (i : Nat) ∧ s.dataPos = ctrlLen n + psum (rsz st m0) i ∧ s.ctrlPos = ((i + 3) / 4 : Nat))
    (fun s => n - s.decoded.toNat) ?_ ?_ ?_ ?_ ?_
  · rintro s m1 ⟨i, hI, h8, hi, hil, hle, he, hd, hcp⟩ hcond
    simp only [decide_eq_true_eq] at hcond
    refine wp_mono (rfBody1_spec hy hI h8 (by omega) (by omega) rfl he hd (by omega)) ?_
    rintro s' m2 ⟨h1, g8, h2, h3, h4, h5⟩
    exact ⟨⟨i + min 4 (n - i), h1, g8, by omega, by omega, fun h => by rw [h] at h2; exact h2, h3, h4, by omega⟩, by omega⟩
  · rintro s m1 ⟨i, hI, h8, hi, hil, hle, he, hd, hcp⟩ hcond
    simp only [decide_eq_true_eq] at hcond
    omega
  rotate_left
  · exact ⟨i, hI, h8, by omega, by omega, fun h => (by have := congrArg (psum (rsz st m0)) (show n = 0 from (by omega)); omega), he, hd, hcp⟩
  · omega
  rintro s m1 ⟨i, hI, h8, hi, hil, hle, he, hd, hcp⟩ hcond
  simp only [decide_eq_false_iff_not] at hcond
  have hin : i = n := by omega
  subst hin
  exact ⟨hI, hle rfl⟩

theorem readAllFast_spec {st : Bytes} {out : U32s} {n : Nat} {m0 : Mem} {Z : Ptr → Prop}
    (hy : RHyp st out n m0)
    (hZ : ∀ q, overR st n m0 q → Z q) :
    wp (rctx st out n m0 Z) (readAllFast n st out) m0
      (fun _ m' => RI st out n m0 (rd st n m0) m' n ∧ rB st n + psum (rsz st m0) n ≤ st.off + st.len) :=
  rctxP_weaken (readAllFast_specP hy hZ)

theorem rdfBody32_spec {st : Bytes} {out : U32s} {n : Nat} {m0 m : Mem} {i : Nat} {Z : Ptr → Prop} {s : RSt} (prev : U32)
    (hy : RHyp st out n m0)
    (hZ : ∀ q, overR st n m0 q → Z q)
    (hZo : ∀ q, Seg out.blk out.off (out.off + 4 * n) q → Z q) (hI : RI st out n m0 (ysum (rd st n m0) prev) m i) (h8 : W8 st n m0 i) (hi : i % 32 = 0)
    (hin : i + 32 ≤ 4 * (ctrlLen n - 3))
    (he : s.decoded = i) (hd : s.dataPos = ctrlLen n + psum (rsz st m0) i) (hcp : s.ctrlPos = (i / 4 : Nat))
    (hp : rB st n + psum (rsz st m0) i ≤ st.off + st.len → s.prev = pv (ysum (rd st n m0) prev) prev i) :
    wp (rctxP st out n m0 (ysum (rd st n m0) prev) (XF st n m0) Z) (rdfBody32 st out s) m
      (fun s' m' => RI st out n m0 (ysum (rd st n m0) prev) m' (i + 32) ∧ W8 st n m0 (i + 32) ∧
        s'.decoded = (i + 32 : Nat) ∧
        s'.dataPos = ctrlLen n + psum (rsz st m0) (i + 32) ∧ s'.ctrlPos = ((i + 32) / 4 : Nat) ∧
        (rB st n + psum (rsz st m0) (i + 32) ≤ st.off + st.len → s'.prev = pv (ysum (rd st n m0) prev) prev (i + 32))) := by
  obtain ⟨g, hg⟩ : ∃ g, i = 4 * g := ⟨i / 4, by omega⟩
  have hC : ctrlLen n = (n + 3) / 4 := rfl
  have hB : rB st n = st.off + ctrlLen n := rfl
  have hlen := hy.len
  have hcap := hy.cap
  have hscap := hy.scap
  have hmono : ∀ j ≤ n, psum (rsz st m0) j ≤ psum (rsz st m0) n := fun j hj => psum_mono hj
  have e32 : psum (rsz st m0) (i + 32) = psum (rsz st m0) (i + 8 + 8 + 8 + 8) := rfl
  have hRW : ∀ a, a < 32 → ∀ k < 4, (rctxP st out n m0 (ysum (rd st n m0) prev) (XF st n m0) Z).R ⟨out.blk, out.off + 4 * i + 4 * a + k⟩ :=
    fun a ha k hk => .inr (.inr (hZo _ ⟨rfl, by ar, by ar⟩))
  have hw : ∀ {m' : Mem} (j : Nat), RI st out n m0 (ysum (rd st n m0) prev) m' j → ∀ a, i + a < j →
      rB st n + psum (rsz st m0) (i + a + 1) ≤ st.off + st.len →
      wordAt m' out.blk (out.off + 4 * i + 4 * a) = ysum (rd st n m0) prev (i + a) := fun j h a ha hle => by
    rw [← h.words (i + a) (by omega) hle]; congr 1; omega
  unfold rdfBody32
  simp only [Prog.bind_eq, Prog.pure_eq]
  rw [wp_bind]
  refine wp_from ?_ (fun h => epanic hI (xF_of h8 (by omega) (j := i) (by omega) (by omega)) (j := i) (by omega) (.inr rfl) (by omega))
  intro a ha hal
  obtain rfl : a = ctrlLen n + psum (rsz st m0) i := by omega
  rw [wp_bind]; refine wp_range_ok (i / 4) (i / 4 + 8) hcp (by omega) (by omega) (by omega) ?_
  rw [wp_bind]; refine wp_range_ok i (i + 32) he (by omega) (by omega) (by omega) ?_
  simp only [Nat.one_mul]
  rw [wp_bind]; refine wp_getB_ok 0 rfl (by ar) (.inl ⟨rfl, by ar, by ar⟩) ?_
  rw [wp_bind]; refine wp_getB_ok 1 rfl (by ar) (.inl ⟨rfl, by ar, by ar⟩) ?_
  refine stepR8 (i := i) (g := g + 0) hy (by omega) (by omega) hI (get8Delta_R (g := g + 0) hy hZ hI (by omega) (by omega) (by omega)
    (by ar) (hI.ctrl hy (by ar) (by omega)) (hI.ctrl hy (by ar) (by omega)) rfl (by ar) rfl (by ar) (hp (by omega)))
    0 rfl rfl rfl (by ar) (by ar) (by omega) fun m1 s0 t0 h1 e0 => ?_
  rw [wp_bind]; refine wp_getB_ok 2 rfl (by ar) (.inl ⟨rfl, by ar, by ar⟩) ?_
  rw [wp_bind]; refine wp_getB_ok 3 rfl (by ar) (.inl ⟨rfl, by ar, by ar⟩) ?_
  rw [wp_bind]
  refine wp_from ?_ (fun h => epanic h1 (xF_of (.mk (j := i) (by omega) (by omega)) (by omega) (j := i + 8) (by omega) (by simp only at h; omega)) (j := i + 8) (by omega) (.inr rfl) (by simp only at h; omega))
  intro a1 ha1 hal1
  obtain rfl : a1 = (s0+t0) := by omega
  simp only at hal1
  rw [wp_bind]; refine wp_from_ok 8 rfl (by ar) ?_
  rw [wp_bind]; refine wp_getW_ok 7 rfl (by ar) (hRW 7 (by omega)) ?_
  refine stepR8 (i := i + 8) (g := g + 2) hy (by omega) (by omega) h1 (get8Delta_R (g := g + 2) hy hZ h1 (by omega) (by omega) (by omega)
    (by ar) (h1.ctrl hy (by ar) (by omega)) (h1.ctrl hy (by ar) (by omega)) rfl (by ar) rfl (by ar) ((hw _ h1 7 (by omega) (by show rB st n + psum (rsz st m0) (i + 8) ≤ st.off + st.len; omega)).trans rfl))
    2 rfl rfl rfl (by ar) (by ar) (by omega) fun m2 s1 t1 h2 e1 => ?_
  rw [wp_bind]; refine wp_getB_ok 4 rfl (by ar) (.inl ⟨rfl, by ar, by ar⟩) ?_
  rw [wp_bind]; refine wp_getB_ok 5 rfl (by ar) (.inl ⟨rfl, by ar, by ar⟩) ?_
  rw [wp_bind]
  refine wp_from ?_ (fun h => epanic h2 (xF_of (.mk (j := i + 8) (by omega) (by omega)) (by omega) (j := i + 8 + 8) (by omega) (by simp only at h; omega)) (j := i + 8 + 8) (by omega) (.inr rfl) (by simp only at h; omega))
  intro a2 ha2 hal2
  obtain rfl : a2 = (s0+t0)+(s1+t1) := by omega
  simp only at hal2
  rw [wp_bind]; refine wp_from_ok 16 rfl (by ar) ?_
  rw [wp_bind]; refine wp_getW_ok 15 rfl (by ar) (hRW 15 (by omega)) ?_
  refine stepR8 (i := i + 8 + 8) (g := g + 4) hy (by omega) (by omega) h2 (get8Delta_R (g := g + 4) hy hZ h2 (by omega) (by omega) (by omega)
    (by ar) (h2.ctrl hy (by ar) (by omega)) (h2.ctrl hy (by ar) (by omega)) rfl (by ar) rfl (by ar) ((hw _ h2 15 (by omega) (by show rB st n + psum (rsz st m0) (i + 8 + 8) ≤ st.off + st.len; omega)).trans rfl))
    4 rfl rfl rfl (by ar) (by ar) (by omega) fun m3 s2 t2 h3 e2 => ?_
  rw [wp_bind]; refine wp_getB_ok 6 rfl (by ar) (.inl ⟨rfl, by ar, by ar⟩) ?_
  rw [wp_bind]; refine wp_getB_ok 7 rfl (by ar) (.inl ⟨rfl, by ar, by ar⟩) ?_
  rw [wp_bind]
  refine wp_from ?_ (fun h => epanic h3 (xF_of (.mk (j := i + 8 + 8) (by omega) (by omega)) (by omega) (j := i + 8 + 8 + 8) (by omega) (by simp only at h; omega)) (j := i + 8 + 8 + 8) (by omega) (.inr rfl) (by simp only at h; omega))
  intro a3 ha3 hal3
  obtain rfl : a3 = (s0+t0)+(s1+t1)+(s2+t2) := by omega
  simp only at hal3
  rw [wp_bind]; refine wp_from_ok 24 rfl (by ar) ?_
  rw [wp_bind]; refine wp_getW_ok 23 rfl (by ar) (hRW 23 (by omega)) ?_
  refine stepR8 (i := i + 8 + 8 + 8) (g := g + 6) hy (by omega) (by omega) h3 (get8Delta_R (g := g + 6) hy hZ h3 (by omega) (by omega) (by omega)
    (by ar) (h3.ctrl hy (by ar) (by omega)) (h3.ctrl hy (by ar) (by omega)) rfl (by ar) rfl (by ar) ((hw _ h3 23 (by omega) (by show rB st n + psum (rsz st m0) (i + 8 + 8 + 8) ≤ st.off + st.len; omega)).trans rfl))
    6 rfl rfl rfl (by ar) (by ar) (by omega) fun m4 s3 t3 h4 e3 => ?_
  rw [wp_bind]; refine wp_getW_ok 31 rfl (by ar) (hRW 31 (by omega)) ?_
  exact ⟨h4, .mk (j := i + 8 + 8 + 8) (by omega) (by omega), by ar, by ar, by ar, fun hle => (hw _ h4 31 (by omega) hle).trans rfl⟩

theorem rdfBody8_spec {st : Bytes} {out : U32s} {n : Nat} {m0 m : Mem} {i : Nat} {Z : Ptr → Prop} {s : RSt} (prev : U32)
    (hy : RHyp st out n m0)
    (hZ : ∀ q, overR st n m0 q → Z q)
    (hZo : ∀ q, Seg out.blk out.off (out.off + 4 * n) q → Z q) (hI : RI st out n m0 (ysum (rd st n m0) prev) m i) (h8 : W8 st n m0 i) (hi : i % 8 = 0) (hin : i + 8 ≤ 4 * (ctrlLen n - 3))
    (he : s.decoded = i) (hd : s.dataPos = ctrlLen n + psum (rsz st m0) i) (hcp : s.ctrlPos = (i / 4 : Nat))
    (hp : rB st n + psum (rsz st m0) i ≤ st.off + st.len → s.prev = pv (ysum (rd st n m0) prev) prev i) :
    wp (rctxP st out n m0 (ysum (rd st n m0) prev) (XF st n m0) Z) (rdfBody8 st out s) m
      (fun s' m' => RI st out n m0 (ysum (rd st n m0) prev) m' (i + 8) ∧ W8 st n m0 (i + 8) ∧
        s'.decoded = (i + 8 : Nat) ∧
        s'.dataPos = ctrlLen n + psum (rsz st m0) (i + 8) ∧ s'.ctrlPos = ((i + 8) / 4 : Nat) ∧
        (rB st n + psum (rsz st m0) (i + 8) ≤ st.off + st.len → s'.prev = pv (ysum (rd st n m0) prev) prev (i + 8))) := by
  obtain ⟨g, hg⟩ : ∃ g, i = 4 * g := ⟨i / 4, by omega⟩
  have hC : ctrlLen n = (n + 3) / 4 := rfl
  have hB : rB st n = st.off + ctrlLen n := rfl
  have hlen := hy.len
  have hcap := hy.cap
  have hscap := hy.scap
  have hmono : ∀ j ≤ n, psum (rsz st m0) j ≤ psum (rsz st m0) n := fun j hj => psum_mono hj
  unfold rdfBody8
  simp only [Prog.bind_eq, Prog.pure_eq]
  rw [wp_bind]
  refine wp_getB ?_ (fun h => epanic hI (xF_of h8 (by omega) (j := i) (by omega) (by omega)) (j := i) (by omega) (.inl rfl) (by omega))
  intro b hb hbl
  obtain rfl : b = g := by omega
  refine ⟨.inl ⟨rfl, by ar, by ar⟩, ?_⟩
  rw [wp_bind]
  refine wp_getB ?_ (fun h => epanic hI (xF_of h8 (by omega) (j := i) (by omega) (by omega)) (j := i) (by omega) (.inl rfl) (by omega))
  intro b' hb' hbl'
  obtain rfl : b' = b + 1 := by omega
  refine ⟨.inl ⟨rfl, by ar, by ar⟩, ?_⟩
  rw [wp_bind]
  refine wp_from ?_ (fun h => epanic hI (xF_of h8 (by omega) (j := i) (by omega) (by omega)) (j := i) (by omega) (.inr rfl) (by omega))
  intro a ha hal
  obtain rfl : a = ctrlLen n + psum (rsz st m0) i := by omega
  rw [wp_bind]; refine wp_from_ok i he (by omega) ?_
  simp only [Nat.one_mul]
  refine stepR8 (i := i) (g := b) hy (by omega) (by omega) hI (get8Delta_R (g := b) hy hZ hI (by omega) (by omega) (by omega)
    (by ar) (hI.ctrl hy (by ar) (by omega)) (hI.ctrl hy (by ar) (by omega)) rfl (by ar) rfl (by ar) (hp (by omega)))
    b (by omega) (by omega) rfl (by ar) (by ar) (by omega) fun m1 s0 t0 h1 e0 => ?_
  rw [wp_bind]; refine wp_getW_ok (i + 7) (by omega) (by omega)
    (fun k hk => .inr (.inr (hZo _ ⟨rfl, by ar, by ar⟩))) ?_
  exact ⟨h1, .mk (j := i) (by omega) (by omega), by ar, by ar, by ar, fun hle => (h1.words (i + 7) (by omega) hle).trans rfl⟩

theorem rdfBody1_spec {st : Bytes} {out : U32s} {n : Nat} {m0 m : Mem} {i : Nat} {Z : Ptr → Prop} {s : RSt} (prev : U32) {k : Nat}
    (hy : RHyp st out n m0)
    (hZo : ∀ q, Seg out.blk out.off (out.off + 4 * n) q → Z q) (hI : RI st out n m0 (ysum (rd st n m0) prev) m i) (h8 : W8 st n m0 i) (hi : i % 4 = 0) (hin : i < n) (hk : k = min 4 (n - i))
    (he : s.decoded = i) (hd : s.dataPos = ctrlLen n + psum (rsz st m0) i) (hcp : s.ctrlPos = (i / 4 : Nat))
    (hp : rB st n + psum (rsz st m0) i ≤ st.off + st.len → s.prev = pv (ysum (rd st n m0) prev) prev i) :
    wp (rctxP st out n m0 (ysum (rd st n m0) prev) (XF st n m0) Z) (rdfBody1 n st out s) m
      (fun s' m' => RI st out n m0 (ysum (rd st n m0) prev) m' (i + k) ∧ W8 st n m0 (i + k) ∧ rB st n + psum (rsz st m0) (i + k) ≤ st.off + st.len ∧
        s'.decoded = (i + k : Nat) ∧
        s'.dataPos = ctrlLen n + psum (rsz st m0) (i + k) ∧ s'.ctrlPos = (i / 4 + 1 : Nat) ∧
        (rB st n + psum (rsz st m0) (i + k) ≤ st.off + st.len → s'.prev = pv (ysum (rd st n m0) prev) prev (i + k))) := by
  obtain ⟨g, hg⟩ : ∃ g, i = 4 * g := ⟨i / 4, by omega⟩
  have hC : ctrlLen n = (n + 3) / 4 := rfl
  have hB : rB st n = st.off + ctrlLen n := rfl
  have hlen := hy.len
  have hcap := hy.cap
  have hscap := hy.scap
  have hmono : ∀ j ≤ n, psum (rsz st m0) j ≤ psum (rsz st m0) n := fun j hj => psum_mono hj
  unfold rdfBody1
  simp only [Prog.bind_eq, Prog.pure_eq]
  have hnums : (if (n : Int) - s.decoded > 4 then 4 else (n : Int) - s.decoded) = (k : Int) := by
    split <;> omega
  rw [hnums, wp_bind]
  refine wp_from ?_ (fun h => epanic hI (xF_of h8 (by omega) (j := i) (by omega) (by omega)) (j := i) (by omega) (.inr rfl) (by omega))
  intro a ha hal
  obtain rfl : a = ctrlLen n + psum (rsz st m0) i := by omega
  rw [wp_bind]; refine wp_from_ok i he (by omega) ?_
  rw [wp_bind]; refine wp_getB_ok (i / 4) hcp (by omega) (.inl ⟨rfl, by ar, by ar⟩) ?_
  simp only [Nat.one_mul]
  rw [wp_bind]
  refine wp_mono (getPDelta_R (g := i / 4) (k := k) hy hI (by omega) (by omega) (by omega)
    rfl (hI.ctrl hy rfl (by omega))
    rfl rfl (by ar) rfl (by ar) (by ar) (hp (by omega))
    fun j hj h1 h2 => xF_of (.mk (j := i + j) (by omega) (Classical.not_not.1 h1)) (by omega) (Nat.le_refl _) h2) ?_
  rintro r m1 ⟨h1, h2, h3⟩
  rw [wp_bind]; refine wp_getW_ok (i + k - 1) (by omega) (by omega)
    (fun k hk => .inr (.inr (hZo _ ⟨rfl, by ar, by ar⟩))) ?_
  refine ⟨h1, .mk (j := i + k) (by omega) h3, h3, by ar, by ar, by ar, fun hle => ?_⟩
  simp only
  rw [h1.words (i + k - 1) (by omega) (by rw [show i + k - 1 + 1 = i + k by omega]; exact hle), pv, if_neg (by omega)]

theorem readAllDeltaFast_specP {st : Bytes} {out : U32s} {n : Nat} {m0 : Mem} {Z : Ptr → Prop} (prev : U32)
    (hy : RHyp st out n m0)
    (hZ : ∀ q, overR st n m0 q → Z q)
    (hZo : ∀ q, Seg out.blk out.off (out.off + 4 * n) q → Z q) :
    wp (rctxP st out n m0 (ysum (rd st n m0) prev) (XF st n m0) Z) (readAllDeltaFast n st out prev) m0
      (fun _ m' => RI st out n m0 (ysum (rd st n m0) prev) m' n ∧ rB st n + psum (rsz st m0) n ≤ st.off + st.len) := by
  have hC : ctrlLen n = (n + 3) / 4 := rfl
  have hB : rB st n = st.off + ctrlLen n := rfl
  have hlen := hy.len
  have hcap := hy.cap
  have hscap := hy.scap
  have hsm := hy.small
  have hp0 : psum (rsz st m0) 0 = 0 := rfl
  unfold readAllDeltaFast
  simp only [Prog.bind_eq, Prog.pure_eq]
  rw [header_ctrlLen (by omega), header_lowest32 (by omega), Int.toNat_natCast]
  rw [wp_bind]
  refine wp_loop (fun (s : RSt) m' => ∃ i, RI st out n m0 (ysum (rd st n m0) prev) m' i ∧ W8 st n m0 i ∧ i % 32 = 0 ∧ (i = 0 ∨ i ≤ 4 * (ctrlLen n - 3)) ∧
      (rB st n + psum (rsz st m0) i ≤ st.off + st.len → s.prev = pv (ysum (rd st n m0) prev) prev i) ∧ s.decoded = (i : Nat) ∧ s.dataPos = ctrlLen n + psum (rsz st m0) i ∧ s.ctrlPos = ((i + 3) / 4 : Nat))
    (fun s => n - s.decoded.toNat) ?_ ?_ ?_ ?_ ?_
  · rintro s m1 ⟨i, hI, h8, hi, hil, hp, he, hd, hcp⟩ hcond
    simp only [decide_eq_true_eq] at hcond
    refine wp_mono (rdfBody32_spec prev hy hZ hZo hI h8 (by omega) (by omega) he hd (by omega) hp) ?_
    rintro s' m2 ⟨h1, g8, h3, h4, h5, h6⟩
    exact ⟨⟨i + 32, h1, g8, by omega, by omega, h6, h3, h4, by omega⟩, by omega⟩
  · rintro s m1 ⟨i, hI, h8, hi, hil, hp, he, hd, hcp⟩ hcond
    simp only [decide_eq_true_eq] at hcond
    omega
  rotate_left
  · exact ⟨0, RI.start st out n m0 _, .inl (by omega), by omega, .inl rfl, fun _ => rfl, rfl, by simp, by simp⟩
  · omega
  rintro s m1 ⟨i, hI, h8, hi, hil, hp, he, hd, hcp⟩ hcond
  simp only [decide_eq_false_iff_not] at hcond
  rw [wp_bind]
  refine wp_loop (fun (s : RSt) m' => ∃ i, RI st out n m0 (ysum (rd st n m0) prev) m' i ∧ W8 st n m0 i ∧ i % 8 = 0 ∧ (i = 0 ∨ i ≤ 4 * (ctrlLen n - 3)) ∧
      (rB st n + psum (rsz st m0) i ≤ st.off + st.len → s.prev = pv (ysum (rd st n m0) prev) prev i) ∧ s.decoded = (i : Nat) ∧ s.dataPos = ctrlLen n + psum (rsz st m0) i ∧ s.ctrlPos = ((i + 3) / 4 : Nat))
    (fun s => n - s.decoded.toNat) ?_ ?_ ?_ ?_ ?_
  · rintro s m1 ⟨i, hI, h8, hi, hil, hp, he, hd, hcp⟩ hcond
    simp only [decide_eq_true_eq] at hcond
    refine wp_mono (rdfBody8_spec prev hy hZ hZo hI h8 (by omega) (by omega) he hd (by omega) hp) ?_
    rintro s' m2 ⟨h1, g8, h3, h4, h5, h6⟩
    exact ⟨⟨i + 8, h1, g8, by omega, by omega, h6, h3, h4, by omega⟩, by omega⟩
  · rintro s m1 ⟨i, hI, h8, hi, hil, hp, he, hd, hcp⟩ hcond
    simp only [decide_eq_true_eq] at hcond
    omega
  rotate_left
  · exact ⟨i, hI, h8, by omega, by omega, hp, he, hd, hcp⟩
  · omega
  rintro s m1 ⟨i, hI, h8, hi, hil, hp, he, hd, hcp⟩ hcond
  simp only [decide_eq_false_iff_not] at hcond
  have hst : i < n ∨ n = 0 := by omega
  rw [wp_bind]
  refine wp_loop (fun (s : RSt) m' => ∃ i, RI st out n m0 (ysum (rd st n m0) prev) m' i ∧ W8 st n m0 i ∧ (i % 4 = 0 ∨ i = n) ∧ i ≤ n ∧ (i = n → rB st n + psum (rsz st m0) n ≤ st.off + st.len) ∧
      (rB st n + psum (rsz st m0) i ≤ st.off + st.len → s.prev = pv (ysum (rd st n m0) prev) prev i) ∧ s.decoded = (i : Nat) ∧ s.dataPos = ctrlLen n + psum (rsz st m0) i ∧ s.ctrlPos = ((i + 3) / 4 : Nat))
    (fun s => n - s.decoded.toNat) ?_ ?_ ?_ ?_ ?_
  · rintro s m1 ⟨i, hI, h8, hi, hil, hle, hp, he, hd, hcp⟩ hcond
    simp only [decide_eq_true_eq] at hcond
    refine wp_mono (rdfBody1_spec prev hy hZo hI h8 (by omega) (by omega) rfl he hd (by omega) hp) ?_
    rintro s' m2 ⟨h1, g8, h2, h3, h4, h5, h6⟩
    exact ⟨⟨i + min 4 (n - i), h1, g8, by omega, by omega, fun h => by rw [h] at h2; exact h2, h6, h3, h4, by omega⟩, by omega⟩
  · rintro s m1 ⟨i, hI, h8, hi, hil, hle, hp, he, hd, hcp⟩ hcond
    simp only [decide_eq_true_eq] at hcond
    omega
  rotate_left
  · exact ⟨i, hI, h8, by omega, by omega, fun h => (by have := congrArg (psum (rsz st m0)) (show n = 0 from (by omega)); omega), hp, he, hd, hcp⟩
  · omega
  rintro s m1 ⟨i, hI, h8, hi, hil, hle, hp, he, hd, hcp⟩ hcond
  simp only [decide_eq_false_iff_not] at hcond
  have hin : i = n := by omega
  subst hin
  exact ⟨hI, hle rfl⟩

theorem readAllDeltaFast_spec {st : Bytes} {out : U32s} {n : Nat} {m0 : Mem} {Z : Ptr → Prop} (prev : U32)
    (hy : RHyp st out n m0)
    (hZ : ∀ q, overR st n m0 q → Z q)
    (hZo : ∀ q, Seg out.blk out.off (out.off + 4 * n) q → Z q) :
    wp (rctx st out n m0 Z) (readAllDeltaFast n st out prev) m0
      (fun _ m' => RI st out n m0 (ysum (rd st n m0) prev) m' n ∧ rB st n + psum (rsz st m0) n ≤ st.off + st.len) :=
  rctxP_weaken (readAllDeltaFast_specP prev hy hZ hZo)

end SVB
