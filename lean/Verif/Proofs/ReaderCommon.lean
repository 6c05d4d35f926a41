import Verif.Model.Reader
import Verif.Proofs.Arith
import Verif.Proofs.DecScalar
import Verif.Proofs.AsmDec
import Verif.Proofs.WriterCommon

/-! # Readers: invariant and the steps that keep it -/

namespace SVB
open Spec Asm

/-- What every reader is called with: tables, enough output space, no overlap. -/
structure RHyp (st : Bytes) (out : U32s) (n : Nat) (m0 : Mem) : Prop where
  tables : TablesLoaded m0
  hout : out.blk.isConst = false
  disj : ∀ q, inSlice st q → ¬ Seg out.blk out.off (out.off + 4 * n) q
  len : n ≤ out.len
  cap : out.len ≤ out.cap
  scap : st.len ≤ st.cap
  small : n < 2 ^ 60

/-- Length of number `t` according to the control bytes. -/
def rsz (st : Bytes) (m0 : Mem) (t : Nat) : Nat := code (m0 ⟨st.blk, st.off + t / 4⟩) (t % 4) + 1

/-- Start of the data. -/
def rB (st : Bytes) (n : Nat) : Nat := st.off + ctrlLen n

/-- Value of number `t`. -/
def rd (st : Bytes) (n : Nat) (m0 : Mem) (t : Nat) : U32 :=
  BitVec.ofNat 32 (leNat m0 st.blk (rB st n + psum (rsz st m0) t) (rsz st m0 t))

/-- Running sums. -/
def ysum (d : Nat → U32) (prev : U32) : Nat → U32
  | 0 => d 0 + prev
  | t + 1 => d (t + 1) + ysum d prev t

theorem ysum_pv (d : Nat → U32) (prev : U32) (t : Nat) : ysum d prev t = d t + pv (ysum d prev) prev t := by
  cases t <;> rfl

/-- After `i` numbers: only `out[0:i]` has changed, and the numbers that lie inside the stream are there. -/
structure RI (st : Bytes) (out : U32s) (n : Nat) (m0 : Mem) (y : Nat → U32) (m : Mem) (i : Nat) : Prop where
  le : i ≤ n
  frameI : ∀ q, ¬ Seg out.blk out.off (out.off + 4 * i) q → m q = m0 q
  words : ∀ t < i, rB st n + psum (rsz st m0) (t + 1) ≤ st.off + st.len →
    wordAt m out.blk (out.off + 4 * t) = y t

/-- Footprint of a reader; `Z` are the loads besides the stream and the tables.  It panics only if the
stream is too short. -/
def rctx (st : Bytes) (out : U32s) (n : Nat) (m0 : Mem) (Z : Ptr → Prop) : Ctx :=
  ⟨fun q => inSlice st q ∨ inTables q ∨ Z q, Seg out.blk out.off (out.off + 4 * n),
    fun k _ => boundsPanic k ∧ ¬ (rB st n + psum (rsz st m0) n ≤ st.off + st.len)⟩

/-- The stream ends before the end of number `j - 1`. -/
def Short (st : Bytes) (n : Nat) (m0 : Mem) (j : Nat) : Prop := ¬ (rB st n + psum (rsz st m0) j ≤ st.off + st.len)

/-- Like `rctx`; at a panic the numbers before some `j` with `X j` have been stored, and nothing else. -/
def rctxP (st : Bytes) (out : U32s) (n : Nat) (m0 : Mem) (y : Nat → U32) (X : Nat → Prop) (Z : Ptr → Prop) : Ctx :=
  ⟨fun q => inSlice st q ∨ inTables q ∨ Z q, Seg out.blk out.off (out.off + 4 * n),
    fun k m' => (boundsPanic k ∧ Short st n m0 n) ∧ ∃ j, RI st out n m0 y m' j ∧ X j⟩

/-- Where a reader stops that stores number by number: number `j` is the first that does not lie inside the stream. -/
def X1 (st : Bytes) (n : Nat) (m0 : Mem) (j : Nat) : Prop :=
  j < n ∧ (j = 0 ∨ ¬ Short st n m0 j) ∧ Short st n m0 (j + 1)

/-- Where a reader stops that stores whole groups, except for the last group if that is not full. -/
def XG (st : Bytes) (n : Nat) (m0 : Mem) (j : Nat) : Prop :=
  j < n ∧ (j = 0 ∨ ¬ Short st n m0 j) ∧ (j + 4 ≤ n ∧ j % 4 = 0 ∧ Short st n m0 (j + 4) ∨ n / 4 * 4 ≤ j ∧ Short st n m0 (j + 1))

/-- The numbers before the last eight lie inside the stream. -/
def W8 (st : Bytes) (n : Nat) (m0 : Mem) (j : Nat) : Prop := j < 8 ∨ ¬ Short st n m0 (j - 8)

/-- Where a vector reader stops: all numbers inside the stream have been stored, and at most eight others. -/
def XF (st : Bytes) (n : Nat) (m0 : Mem) (j : Nat) : Prop := j < n ∧ W8 st n m0 j ∧ Short st n m0 (j + 1)

section
variable {st : Bytes} {out : U32s} {n : Nat} {m0 m : Mem} {y : Nat → U32} {i : Nat} {X : Nat → Prop} {Z : Ptr → Prop}

theorem rsz_bounds (st : Bytes) (m0 : Mem) (t : Nat) : 1 ≤ rsz st m0 t ∧ rsz st m0 t ≤ 4 := by
  have := code_lt (m0 ⟨st.blk, st.off + t / 4⟩) (t % 4)
  unfold rsz; omega

theorem rpsum_bounds (st : Bytes) (m0 : Mem) {i j : Nat} (h : i ≤ j) :
    psum (rsz st m0) i + (j - i) ≤ psum (rsz st m0) j ∧
      psum (rsz st m0) j ≤ psum (rsz st m0) i + 4 * (j - i) :=
  psum_bounds (rsz_bounds st m0) h

theorem RI.frame (h : RI st out n m0 y m i) (q : Ptr) (hq : ¬ Seg out.blk out.off (out.off + 4 * n) q) : m q = m0 q :=
  h.frameI q fun hs => hq ⟨hs.1, hs.2.1, Nat.lt_of_lt_of_le hs.2.2 (by have := h.le; omega)⟩

theorem RI.start (st : Bytes) (out : U32s) (n : Nat) (m0 : Mem) (y : Nat → U32) : RI st out n m0 y m0 0 :=
  ⟨Nat.zero_le _, fun _ _ => rfl, fun _ h => absurd h (Nat.not_lt_zero _)⟩

theorem Short.mono {a b : Nat} (h : Short st n m0 a) (hab : a ≤ b) : Short st n m0 b := fun hb => h (by
  have := psum_mono (f := rsz st m0) hab; omega)

theorem RI.tables (h : RI st out n m0 y m i) (hy : RHyp st out n m0) : TablesLoaded m :=
  hy.tables.frame fun q hq => h.frame q fun hs => by
    rw [hs.1, hy.hout] at hq; exact absurd hq (by decide)

theorem RI.stream (h : RI st out n m0 y m i) (hy : RHyp st out n m0) {o : Nat} (ho : st.off ≤ o)
    (ho' : o < st.off + st.len) : m ⟨st.blk, o⟩ = m0 ⟨st.blk, o⟩ :=
  h.frame _ (hy.disj _ ⟨rfl, ho, by simp only; omega⟩)

theorem RI.ctrl (h : RI st out n m0 y m i) (hy : RHyp st out n m0) {o g : Nat} (ho : o = st.off + g)
    (hg : g < st.len) : m ⟨st.blk, o⟩ = m0 ⟨st.blk, st.off + g⟩ := by
  rw [ho]; exact h.stream hy (by omega) (by omega)

theorem rd_lim0 (st : Bytes) (n : Nat) (m0 : Mem) (i j lim : Nat) :
    DecLim m0 st.blk (rB st n) (rsz st m0) (rd st n m0) i j lim := by
  intro t _ _ _
  have := rsz_bounds st m0 t
  rw [rd, BitVec.toNat_ofNat, Nat.mod_eq_of_lt (leNat_lt32 _ _ _ _ this.2)]

theorem RI.declim (h : RI st out n m0 y m i) (hy : RHyp st out n m0) (a b : Nat) :
    DecLim m st.blk (rB st n) (rsz st m0) (rd st n m0) a b (st.off + st.len) := by
  refine (rd_lim0 st n m0 a b _).frame fun q hq => h.frame q (hy.disj q ⟨hq.1, ?_, ?_⟩)
  · have := hq.2.1; unfold rB at this; omega
  · have := hq.2.2; omega

theorem RI.extend {m' : Mem} {k : Nat} (h : RI st out n m0 y m i) (hk : i + k ≤ n)
    (hf : ∀ q, ¬ Seg out.blk (out.off + 4 * i) (out.off + 4 * (i + k)) q → m' q = m q)
    (hw : ∀ t < k, rB st n + psum (rsz st m0) (i + t + 1) ≤ st.off + st.len →
      wordAt m' out.blk (out.off + 4 * (i + t)) = y (i + t)) : RI st out n m0 y m' (i + k) := by
  refine ⟨hk, fun q hq => ?_, fun t ht hle => ?_⟩
  · rw [hf q fun hs => hq ⟨hs.1, by have := hs.2.1; omega, by have := hs.2.2; omega⟩,
      h.frameI q fun hs => hq ⟨hs.1, hs.2.1, by have := hs.2.2; omega⟩]
  · by_cases hti : t < i
    · rw [← h.words t hti hle]
      refine wordAt_congr fun j hj => hf _ fun hs => ?_
      have := hs.2.1; simp only at this; omega
    · have := hw (t - i) (by omega)
      rw [show i + (t - i) = t by omega] at this
      exact this hle

/-- The control byte of group `g`. -/
theorem sizes_of {g : Nat} (hi : i = 4 * g) : Sizes (m0 ⟨st.blk, st.off + g⟩) (rsz st m0) i :=
  ⟨fun k hk => by
    unfold rsz
    rw [show (i + k) / 4 = g by omega, show (i + k) % 4 = k by omega]⟩

/-- A panic because the stream ends before number `j ≤ n`. -/
theorem epanic {j : Nat} {m' : Mem} (hI : RI st out n m0 y m' i) (hX : X i) (hj : j ≤ n) {k : Panic} (hk : boundsPanic k)
    (h : ¬ (rB st n + psum (rsz st m0) j ≤ st.off + st.len)) :
    (rctxP st out n m0 y X Z).E k m' :=
  ⟨⟨hk, Short.mono h hj⟩, i, hI, hX⟩

theorem x1_of {j : Nat} (hle : i = 0 ∨ ¬ Short st n m0 i) (hin : i < n) (hj : j ≤ i + 1)
    (h : ¬ (rB st n + psum (rsz st m0) j ≤ st.off + st.len)) : X1 st n m0 i := ⟨hin, hle, Short.mono h hj⟩

theorem xG_of {j : Nat} (hle : i = 0 ∨ ¬ Short st n m0 i) (hin : i + 4 ≤ n) (hi : i % 4 = 0) (hj : j ≤ i + 4)
    (h : ¬ (rB st n + psum (rsz st m0) j ≤ st.off + st.len)) : XG st n m0 i :=
  ⟨by omega, hle, .inl ⟨hin, hi, Short.mono h hj⟩⟩

theorem xG_tail {j : Nat} (hle : i = 0 ∨ ¬ Short st n m0 i) (hin : i < n) (hi : n / 4 * 4 ≤ i) (hj : j ≤ i + 1)
    (h : ¬ (rB st n + psum (rsz st m0) j ≤ st.off + st.len)) : XG st n m0 i :=
  ⟨hin, hle, .inr ⟨hi, Short.mono h hj⟩⟩

theorem xF_of {j : Nat} (h8 : W8 st n m0 i) (hin : i < n) (hj : j ≤ i + 1)
    (h : ¬ (rB st n + psum (rsz st m0) j ≤ st.off + st.len)) : XF st n m0 i := ⟨hin, h8, Short.mono h hj⟩

theorem W8.mk {j : Nat} (hj : i ≤ j + 8) (h : rB st n + psum (rsz st m0) j ≤ st.off + st.len) : W8 st n m0 i :=
  .inr fun hs => hs (by have := psum_mono (f := rsz st m0) (show i - 8 ≤ j by omega); omega)

/-- Some of the numbers of a block. -/
theorem RI.part {m' : Mem} {nums : U32s} {j : Nat} (hI : RI st out n m0 y m i) (hj : i + j ≤ n)
    (hn1 : nums.blk = out.blk) (hn2 : nums.off = out.off + 4 * i) (h : PartOut m m' nums y i j) :
    RI st out n m0 y m' (i + j) :=
  hI.extend hj (fun q hq => h.2 q fun hs => hq ⟨by rw [hs.1, hn1], by have := hs.2.1; omega, by have := hs.2.2; omega⟩)
    fun t ht _ => by rw [← h.1 t ht, hn1, hn2]; congr 1; omega

theorem rctxP_weaken {p : Prog Unit} {Q : Unit → Mem → Prop} (h : wp (rctxP st out n m0 y X Z) p m Q) :
    wp (rctx st out n m0 Z) p m Q :=
  wp_conseq h (fun _ h => h) (fun _ h => h) (fun _ _ _ h => h.1) fun _ _ _ h => h

/-- Four numbers through the scalar code, then the size look-up. -/
theorem stepR4 {β : Type} {p : Prog Unit} {ctrl : Byte} {g : Nat} {K : Int → Prog β} {Q : β → Mem → Prop}
    (hy : RHyp st out n m0) (hi : i = 4 * g) (hin : i + 4 ≤ n) (hI : RI st out n m0 y m i)
    (hc : ctrl = m0 ⟨st.blk, st.off + g⟩)
    (hp : wp ⟨fun q => inSlice st q ∨ inTables q ∨ Z q, Seg out.blk (out.off + 4 * i) (out.off + 4 * (i + 4)),
      fun k m' => (boundsPanic k ∧ Short st n m0 (i + 4)) ∧ ∃ j, RI st out n m0 y m' j ∧ X j⟩ p m
      (fun _ m' => rB st n + psum (rsz st m0) (i + 4) ≤ st.off + st.len ∧
        ∀ k < 4, wordAt m' out.blk (out.off + 4 * (i + k)) = y (i + k)))
    (hK : ∀ m' (sz : Nat), RI st out n m0 y m' (i + 4) → psum (rsz st m0) i + sz = psum (rsz st m0) (i + 4) →
      rB st n + psum (rsz st m0) (i + 4) ≤ st.off + st.len →
      wp (rctxP st out n m0 y X Z) (K (sz : Int)) m' Q) :
    wp (rctxP st out n m0 y X Z) (p.bind fun _ => (controlByteToSize ctrl).bind K) m Q := by
  refine wp_call hp (fun _ h => h) ?_ ?_ ?_
  · rintro q ⟨h1, h2, h3⟩; exact ⟨h1, by omega, by omega⟩
  · rintro k m' - ⟨⟨h1, h2⟩, j, h3, h4⟩; exact epanic h3 h4 hin h1 h2
  rintro _ m1 hf1 ⟨hle, hw⟩
  have hI1 := hI.extend (k := 4) hin hf1 (fun t ht _ => hw t ht)
  refine wp_call (controlByteToSize_spec ctrl _ (hI1.tables hy)) (fun _ h => .inr (.inl h)) (fun _ h => h.elim)
    (fun _ _ _ h => h.elim) ?_
  rintro _ _ - ⟨rfl, rfl⟩
  refine hK _ _ hI1 ?_ hle
  have := (sizes_of (st := st) (m0 := m0) hi).total
  rw [hc, this]

theorem get4_R {nums : U32s} {data : Bytes} {g : Nat} {ctrl : Byte} (hy : RHyp st out n m0)
    (hI : RI st out n m0 (rd st n m0) m i) (hi : i = 4 * g) (hin : i + 4 ≤ n)
    (hc : ctrl = m0 ⟨st.blk, st.off + g⟩)
    (hn1 : nums.blk = out.blk) (hn2 : nums.off = out.off + 4 * i) (hn3 : 4 ≤ nums.len)
    (hd1 : data.blk = st.blk) (hd2 : data.off = rB st n + psum (rsz st m0) i)
    (hd3 : data.off + data.len = st.off + st.len) (hle : i = 0 ∨ ¬ Short st n m0 i) :
    wp ⟨fun q => inSlice st q ∨ inTables q ∨ Z q, Seg out.blk (out.off + 4 * i) (out.off + 4 * (i + 4)),
      fun k m' => (boundsPanic k ∧ Short st n m0 (i + 4)) ∧ ∃ j, RI st out n m0 (rd st n m0) m' j ∧ XG st n m0 j⟩
      (get4uint32Scalar data nums ctrl) m
      (fun _ m' => rB st n + psum (rsz st m0) (i + 4) ≤ st.off + st.len ∧
        ∀ k < 4, wordAt m' out.blk (out.off + 4 * (i + k)) = rd st n m0 (i + k)) := by
  subst hc
  have hB : rB st n = st.off + ctrlLen n := rfl
  refine wp_conseq (get4_specP (rsz st m0) (rd st n m0) i (rB st n) data nums _ m (hI.tables hy) (sizes_of hi) hd2
    (fun h => hd1 ▸ (hI.declim hy i (i + 4)).dec (Nat.le_refl _) (Nat.le_refl _) (by omega)) ?_) ?_ ?_ ?_ ?_
  · rintro h1 h2 q ⟨a1, a2, a3⟩ ⟨b1, b2, b3⟩
    exact hy.disj q ⟨by rw [a1, hd1], by omega, by omega⟩ ⟨by rw [b1, hn1], by omega, by omega⟩
  · rintro q (⟨h1, h2, h3⟩ | h)
    · exact .inl ⟨by rw [h1, hd1], by omega, by omega⟩
    · exact .inr (.inl h)
  · rintro q ⟨h1, h2, h3⟩; exact ⟨by rw [h1, hn1], by omega, by omega⟩
  · rintro k m' - ⟨⟨h1, h2⟩, rfl⟩
    have hs : Short st n m0 (i + 4) := fun h => h2 ⟨hn3, by omega⟩
    exact ⟨⟨h1, hs⟩, i, hI, xG_of hle hin (by omega) (Nat.le_refl _) hs⟩
  · rintro _ m' - ⟨-, h2, h3⟩
    refine ⟨by omega, fun k hk => ?_⟩
    rw [← h3 k hk, hn1, hn2]; congr 1; omega

theorem get4Delta_R {prev : U32} {nums : U32s} {data : Bytes} {g : Nat} {ctrl : Byte} {pr : U32}
    (hy : RHyp st out n m0) (hZ : ∀ q, Seg out.blk out.off (out.off + 4 * n) q → Z q)
    (hI : RI st out n m0 (ysum (rd st n m0) prev) m i) (hi : i = 4 * g) (hin : i + 4 ≤ n)
    (hc : ctrl = m0 ⟨st.blk, st.off + g⟩)
    (hn1 : nums.blk = out.blk) (hn2 : nums.off = out.off + 4 * i) (hn3 : 4 ≤ nums.len)
    (hd1 : data.blk = st.blk) (hd2 : data.off = rB st n + psum (rsz st m0) i)
    (hd3 : data.off + data.len = st.off + st.len) (hpr : pr = pv (ysum (rd st n m0) prev) prev i) :
    wp ⟨fun q => inSlice st q ∨ inTables q ∨ Z q, Seg out.blk (out.off + 4 * i) (out.off + 4 * (i + 4)),
      fun k m' => (boundsPanic k ∧ Short st n m0 (i + 4)) ∧
        ∃ j, RI st out n m0 (ysum (rd st n m0) prev) m' j ∧ X1 st n m0 j⟩
      (get4uint32DeltaScalar data nums ctrl pr) m
      (fun _ m' => rB st n + psum (rsz st m0) (i + 4) ≤ st.off + st.len ∧
        ∀ k < 4, wordAt m' out.blk (out.off + 4 * (i + k)) = ysum (rd st n m0) prev (i + k)) := by
  subst hc
  have hB : rB st n = st.off + ctrlLen n := rfl
  refine wp_conseq (get4Delta_specP (rsz st m0) (rd st n m0) (ysum (rd st n m0) prev) i (rB st n) data nums _ pr m
    (hI.tables hy) (sizes_of hi) hd2
    (hd1 ▸ hd3 ▸ hI.declim hy i (i + 4)) hn3 ?_
    (by rw [hpr]; exact ysum_pv _ _ _) (fun _ _ => rfl)) ?_ ?_ ?_ ?_
  · rintro q ⟨a1, a2, a3⟩ ⟨b1, b2, b3⟩
    exact hy.disj q ⟨by rw [a1, hd1], by omega, by omega⟩ ⟨by rw [b1, hn1], by omega, by omega⟩
  · rintro q (⟨h1, h2, h3⟩ | h | ⟨h1, h2, h3⟩)
    · exact .inl ⟨by rw [h1, hd1], by omega, by omega⟩
    · exact .inr (.inl h)
    · exact .inr (.inr (hZ q ⟨by rw [h1, hn1], by omega, by omega⟩))
  · rintro q ⟨h1, h2, h3⟩; exact ⟨by rw [h1, hn1], by omega, by omega⟩
  · rintro k m' - ⟨h1, h2, j, hj, h3, h4, h5⟩
    exact ⟨⟨h1, fun h => h2 (by omega)⟩, i + j, hI.part (by omega) hn1 hn2 h5, by omega,
      .inr fun h => h (by omega), fun h => h4 (by omega)⟩
  · rintro _ m' - ⟨h2, h3⟩
    refine ⟨by omega, fun k hk => ?_⟩
    rw [← h3 k hk, hn1, hn2]; congr 1; omega

theorem getP_R {nums : U32s} {data : Bytes} {g k : Nat} {ctrl : Byte} {cnt : Int} (hy : RHyp st out n m0)
    (hI : RI st out n m0 (rd st n m0) m i) (hi : i = 4 * g) (hk : k = min 4 (n - i)) (hin : i ≤ n) (hcnt : cnt = k)
    (hc : ctrl = m0 ⟨st.blk, st.off + g⟩)
    (hn1 : nums.blk = out.blk) (hn2 : nums.off = out.off + 4 * i) (hn3 : k ≤ nums.len)
    (hd1 : data.blk = st.blk) (hd2 : data.off = rB st n + psum (rsz st m0) i)
    (hd3 : data.off + data.len = st.off + st.len)
    (hX : ∀ j < k, ¬ Short st n m0 (i + j) → Short st n m0 (i + j + 1) → X (i + j)) :
    wp (rctxP st out n m0 (rd st n m0) X Z)
      (getUint32Scalar data nums ctrl cnt) m
      (fun r m' => RI st out n m0 (rd st n m0) m' (i + k) ∧
        r + (psum (rsz st m0) i : Int) = (psum (rsz st m0) (i + k) : Int) ∧
        rB st n + psum (rsz st m0) (i + k) ≤ st.off + st.len) := by
  subst hc
  have hB : rB st n = st.off + ctrlLen n := rfl
  refine wp_conseq (getUint32_specP (rsz st m0) (rd st n m0) i (rB st n) data nums _ cnt m k (by omega)
    (fun j hj => (sizes_of hi).eq j (by omega)) hd2 (hd1 ▸ hd3 ▸ hI.declim hy i (i + k)) ?_) ?_ ?_ ?_ ?_
  · rintro q ⟨a1, a2, a3⟩ ⟨b1, b2, b3⟩
    exact hy.disj q ⟨by rw [a1, hd1], by omega, by omega⟩ ⟨by rw [b1, hn1], by omega, by omega⟩
  · rintro q ⟨h1, h2, h3⟩
    exact .inl ⟨by rw [h1, hd1], by omega, by omega⟩
  · rintro q ⟨h1, h2, h3⟩; exact ⟨by rw [h1, hn1], by omega, by omega⟩
  · rintro e m' - ⟨⟨h1, h2⟩, h3⟩
    obtain ⟨j, hj, h3, h4, h5⟩ := h3 hn3
    exact epanic (hI.part (by omega) hn1 hn2 h5) (hX j hj (fun h => h (by omega)) fun h => h4 (by omega)) (j := i + k)
      (by omega) h1 (fun h => h2 ⟨hn3, by omega⟩)
  · rintro r m' hf ⟨h1, -, h2, h3⟩
    refine ⟨hI.extend (by omega) (fun q hq => hf q fun hs => hq ?_) fun t ht _ => ?_, h1, by omega⟩
    · exact ⟨by rw [hs.1, hn1], by have := hs.2.1; omega, by have := hs.2.2; omega⟩
    · rw [← h3 t ht, hn1, hn2]; congr 1; omega

theorem getPDelta_R {prev : U32} {nums : U32s} {data : Bytes} {g k : Nat} {ctrl : Byte} {cnt : Int} {pr : U32}
    (hy : RHyp st out n m0)
    (hI : RI st out n m0 (ysum (rd st n m0) prev) m i) (hi : i = 4 * g) (hk : k = min 4 (n - i)) (hin : i ≤ n)
    (hcnt : cnt = k) (hc : ctrl = m0 ⟨st.blk, st.off + g⟩)
    (hn1 : nums.blk = out.blk) (hn2 : nums.off = out.off + 4 * i) (hn3 : k ≤ nums.len)
    (hd1 : data.blk = st.blk) (hd2 : data.off = rB st n + psum (rsz st m0) i)
    (hd3 : data.off + data.len = st.off + st.len) (hpr : pr = pv (ysum (rd st n m0) prev) prev i)
    (hX : ∀ j < k, ¬ Short st n m0 (i + j) → Short st n m0 (i + j + 1) → X (i + j)) :
    wp (rctxP st out n m0 (ysum (rd st n m0) prev) X Z)
      (getUint32DeltaScalar data nums ctrl cnt pr) m
      (fun r m' => RI st out n m0 (ysum (rd st n m0) prev) m' (i + k) ∧
        r + (psum (rsz st m0) i : Int) = (psum (rsz st m0) (i + k) : Int) ∧
        rB st n + psum (rsz st m0) (i + k) ≤ st.off + st.len) := by
  subst hc
  have hB : rB st n = st.off + ctrlLen n := rfl
  refine wp_conseq (getUint32Delta_specP (rsz st m0) (rd st n m0) (ysum (rd st n m0) prev) i (rB st n) data nums _ cnt
    pr m k (by omega)
    (fun j hj => (sizes_of hi).eq j (by omega)) hd2 (hd1 ▸ hd3 ▸ hI.declim hy i (i + k)) ?_
    (fun _ => by rw [hpr]; exact ysum_pv _ _ _) (fun _ _ _ => rfl)) ?_ ?_ ?_ ?_
  · rintro q ⟨a1, a2, a3⟩ ⟨b1, b2, b3⟩
    exact hy.disj q ⟨by rw [a1, hd1], by omega, by omega⟩ ⟨by rw [b1, hn1], by omega, by omega⟩
  · rintro q ⟨h1, h2, h3⟩
    exact .inl ⟨by rw [h1, hd1], by omega, by omega⟩
  · rintro q ⟨h1, h2, h3⟩; exact ⟨by rw [h1, hn1], by omega, by omega⟩
  · rintro e m' - ⟨⟨h1, h2⟩, h3⟩
    obtain ⟨j, hj, h3, h4, h5⟩ := h3 hn3
    exact epanic (hI.part (by omega) hn1 hn2 h5) (hX j hj (fun h => h (by omega)) fun h => h4 (by omega)) (j := i + k)
      (by omega) h1 (fun h => h2 ⟨hn3, by omega⟩)
  · rintro r m' hf ⟨h1, -, h2, h3⟩
    refine ⟨hI.extend (by omega) (fun q hq => hf q fun hs => hq ?_) fun t ht _ => ?_, h1, by omega⟩
    · exact ⟨by rw [hs.1, hn1], by have := hs.2.1; omega, by have := hs.2.2; omega⟩
    · rw [← h3 t ht, hn1, hn2]; congr 1; omega

end

end SVB
