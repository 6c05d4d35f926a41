import Verif.Proofs.VarintStream
import Verif.SpecOverlap

/-! # The functions of package `util` on arguments that share memory -/

set_option autoImplicit false

namespace SVB
open Spec

theorem VI.num {nums : U32s} {out : Bytes} {ys : List U32} {m0 m : Mem} {n : Nat} {pos : Int} (h : VI out ys m0 n pos m)
    {t : Nat} (ht : t < nums.len) (hA : Clear nums t out (varintsOf (ys.take n)).length) :
    wordAt m nums.blk (nums.off + 4 * t) = fn (wordsOf m0 nums) t := by
  rw [← words_of m0 nums t ht]
  refine wordAt_congr fun k hk => h.frame _ ?_
  rintro ⟨h1, h2, h3⟩
  simp only at h1 h2 h3
  rcases hA with hA | hA | hA
  · exact hA h1
  · omega
  · omega

theorem putVarint_over {nums : U32s} {out : Bytes} {m : Mem} (ho : out.len < 2 ^ 62)
    (hA : ∀ n < nums.len, Clear nums n out (varintsOf ((wordsOf m nums).take n)).length) :
    wp (vctx nums out (wordsOf m nums)) (putVarint nums out) m
      (fun r m' => VI out (wordsOf m nums) m nums.len r m') := by
  have hl := wordsOf_length m nums
  unfold putVarint
  simp only [Prog.bind_eq, Prog.pure_eq]
  rw [wp_bind]
  refine wp_loop (fun (s : Int × Int) (m' : Mem) => ∃ n : Nat, s.1 = (n : Int) ∧ n ≤ nums.len ∧
      VI out (wordsOf m nums) m n s.2 m')
    (fun s : Int × Int => nums.len - s.1.toNat) ?_ ?_ ?_ ⟨0, rfl, by omega, VI.init _ _ _⟩ (by omega)
  · rintro ⟨i, pos⟩ m' ⟨n, hi, hn, hI⟩ hc
    simp only at hi hI ⊢; subst hi
    replace hc : n < nums.len := by simpa using hc
    rw [wp_bind]
    refine wp_from_ok _ hI.hpos hI.room ?_
    rw [wp_bind]
    refine wp_getW_ok n rfl hc (fun k hk => ⟨rfl, by simp only; omega, by simp only; omega⟩) ?_
    refine put_step hI (by omega) (hI.num hc (hA n hc)) ho fun size m'' hI' => ?_
    exact ⟨⟨n + 1, by simp, by omega, hI'⟩, by simp only; omega⟩
  · rintro ⟨i, pos⟩ m' ⟨n, hi, hn, hI⟩ hc
    simp only at hi; subst hi
    replace hc : n < nums.len := by simpa using hc
    simp only; omega
  · rintro ⟨i, pos⟩ m' ⟨n, hi, hn, hI⟩ hc
    simp only at hi; subst hi
    replace hc : nums.len ≤ n := by simpa using hc
    have : n = nums.len := by omega
    subst this
    exact hI

theorem clear_mono {nums : U32s} {n : Nat} {out : Bytes} {k l : Nat} (h : Clear nums n out l) (hk : k ≤ l) :
    Clear nums n out k := by
  rcases h with h | h | h
  · exact .inl h
  · exact .inr (.inl (by omega))
  · exact .inr (.inr h)

theorem varintsOf_take_mono (xs : List U32) {a b : Nat} (h : a ≤ b) :
    (varintsOf (xs.take a)).length ≤ (varintsOf (xs.take b)).length := by
  have := varintsOf_take_le (xs.take b) a
  rwa [List.take_take, Nat.min_eq_left h] at this

theorem putDeltaVarint_over {nums : U32s} {out : Bytes} {m : Mem} (prev : U32) (ho : out.len < 2 ^ 62)
    (hA : ∀ n < nums.len, Clear nums n out (varintsOf ((delta prev (wordsOf m nums)).take (n + 1))).length) :
    wp (vctx nums out (delta prev (wordsOf m nums))) (putDeltaVarint nums out prev) m
      (fun r m' => VI out (delta prev (wordsOf m nums)) m nums.len r m') := by
  have hl := wordsOf_length m nums
  have hl' : (delta prev (wordsOf m nums)).length = nums.len := by rw [delta_length, hl]
  unfold putDeltaVarint
  simp only [Prog.bind_eq, Prog.pure_eq]
  rw [wp_bind]
  refine wp_loop (fun (s : Int × Int × U32) (m' : Mem) => ∃ n : Nat, s.1 = (n : Int) ∧ n ≤ nums.len ∧
      VI out (delta prev (wordsOf m nums)) m n s.2.1 m' ∧ s.2.2 = pv (fn (wordsOf m nums)) prev n)
    (fun s : Int × Int × U32 => nums.len - s.1.toNat) ?_ ?_ ?_
    ⟨0, rfl, by omega, VI.init _ _ _, rfl⟩ (by omega)
  · rintro ⟨i, pos, p⟩ m' ⟨n, hi, hn, hI, hp⟩ hc
    simp only at hi hI hp ⊢; subst hi
    replace hc : n < nums.len := by simpa using hc
    rw [wp_bind]
    refine wp_from_ok _ hI.hpos hI.room ?_
    rw [wp_bind]
    refine wp_getW_ok n rfl hc (fun k hk => ⟨rfl, by simp only; omega, by simp only; omega⟩) ?_
    refine put_step hI (by omega) ?_ ho fun size m'' hI' => ?_
    · rw [hI.num hc (clear_mono (hA n hc) (varintsOf_take_mono _ (by omega))), hp, delta_fn _ _ _ (by omega)]
    · rw [wp_bind]
      refine wp_getW_ok n rfl hc (fun k hk => ⟨rfl, by simp only; omega, by simp only; omega⟩) ?_
      exact ⟨⟨n + 1, by simp, by omega, hI', by rw [hI'.num hc (hA n hc), pv_succ]⟩, by simp only; omega⟩
  · rintro ⟨i, pos⟩ m' ⟨n, hi, hn, hI⟩ hc
    simp only at hi; subst hi
    replace hc : n < nums.len := by simpa using hc
    simp only; omega
  · rintro ⟨i, pos⟩ m' ⟨n, hi, hn, hI⟩ hc
    simp only at hi; subst hi
    replace hc : nums.len ≤ n := by simpa using hc
    have : n = nums.len := by omega
    subst this
    exact hI.1

/-! ## Reading -/

theorem getGen_over {upd : U32 → U32 → U32} {data : Bytes} {out : U32s} {m : Mem} {xs : List U32} (prev : U32)
    (hlen : data.len < 2 ^ 62) (hx : bytesOf m data = varintsOf xs) (hroom : xs.length ≤ out.len)
    (hA : ∀ n < xs.length, Unread data (varintsOf (xs.take n)).length out n) :
    wp ⟨inSlice data, inSlice out, fun _ _ => False⟩
      (loop (out.len + 1) (fun s : Int × Int × U32 => decide (s.1 < data.len)) (getGen upd data out)
        (0, 0, prev)) m
      (fun s m' => s.1 = data.len ∧ wordsN m' out xs.length = scan upd prev xs ∧
        ∀ q, ¬ inFirst out xs.length q → m' q = m q) := by
  have hDl : (varintsOf xs).length = data.len := by rw [← hx]; simp [bytesOf]
  have hlast : ∀ n ≤ xs.length, (varintsOf (xs.take n)).length = data.len → n = xs.length := by
    intro n hn h
    rcases Nat.lt_or_ge n xs.length with hlt | hge
    · have h1 := congrArg List.length (varintsOf_take_succ hlt)
      have h2 := varintsOf_take_le xs (n + 1)
      have h3 := varint_length_pos (fn xs n).toNat
      rw [List.length_append] at h1
      omega
    · omega
  refine wp_loop (fun (s : Int × Int × U32) (m' : Mem) => ∃ n : Nat, s.2.1 = (n : Int) ∧ n ≤ xs.length ∧
      s.1 = ((varintsOf (xs.take n)).length : Nat) ∧ wordsN m' out n = scan upd prev (xs.take n) ∧
      s.2.2 = (scan upd prev (xs.take n)).getLast?.getD prev ∧ ∀ q, ¬ inFirst out n q → m' q = m q)
    (fun s : Int × Int × U32 => out.len + 1 - s.2.1.toNat) ?_ ?_ ?_
    ⟨0, rfl, by omega, by simp [varintsOf], rfl, rfl, fun _ _ => rfl⟩ (by simp)
  · rintro ⟨pos, i, p⟩ m' ⟨n, hi, hn, hp, hw, hpr, hf⟩ hc
    simp only at hi hp hpr; subst hi
    replace hc : pos < data.len := by simpa using hc
    have hlt : n < xs.length := by
      rcases Nat.lt_or_ge n xs.length with h | h
      · exact h
      · rw [List.take_of_length_le h, hDl] at hp; omega
    have e := varintsOf_take_succ hlt
    have hl := congrArg List.length e
    rw [List.length_append] at hl
    have hle := varintsOf_take_le xs (n + 1)
    unfold getGen
    simp only
    rw [wp_bind]
    refine wp_from_ok _ hp (by omega) ?_
    generalize hk : (varintsOf (xs.take n)).length = k at *
    have hdrop : (varintsOf xs).drop k = varint (fn xs n).toNat ++ varintsOf (xs.drop (n + 1)) := by
      conv => lhs; rw [← List.take_append_drop (n + 1) xs, varintsOf_append, e, List.append_assoc]
      exact List.drop_left' hk
    have hbytes : bytesOf m' ⟨data.blk, data.off + 1 * k, data.len - k, data.cap - k⟩ =
        varint (fn xs n).toNat ++ varintsOf (xs.drop (n + 1)) := by
      rw [← hdrop, ← hx, bytesOf_seq, bytesOf_seq, seq_drop m _ _ (by omega), Nat.one_mul]
      refine seq_congr fun j hj => hf _ ?_
      rintro ⟨h1, h2, h3⟩
      simp only at h1 h2 h3 hj
      have h4 := hA n hlt
      rw [hk] at h4
      rcases h4 with h4 | h4 | h4
      · exact h4 h1
      · omega
      · omega
    refine wp_call (uvarint_spec _ m') ?_ (fun _ h => h.elim) (fun _ _ _ h => h.elim) ?_
    · rintro q ⟨h1, h2, h3⟩
      simp only at h1 h2 h3
      exact ⟨h1, by omega, by omega⟩
    · rintro ⟨v, r⟩ m1 - ⟨rfl, hr⟩
      rw [hbytes] at hr
      simp only at hr ⊢
      have hx32 := (fn xs n).isLt
      have hok : GroupOk (varint (fn xs n).toNat) :=
        ⟨by have := varint_length_le (k := 4) (n := (fn xs n).toNat) (by omega); omega, by rw [groupValue_varint]; omega⟩
      rcases hr with ⟨g, hg, -, hv, hr⟩ | ⟨hbad, -⟩
      · rw [firstGroup_varint] at hg; cases hg
        rw [groupValue_varint] at hv
        have hv32 : (v.setWidth 32 : U32) = fn xs n := by
          apply BitVec.eq_of_toNat_eq
          rw [BitVec.toNat_setWidth, hv]; omega
        have hsc : scan upd prev (xs.take (n + 1)) = scan upd prev (xs.take n) ++ [upd (v.setWidth 32) p] := by
          rw [take_succ_getD hlt, scan_snoc, hpr, hv32]
        rw [wp_bind]
        refine wp_setW_ok n rfl (by omega) (fun k hk => ⟨rfl, by simp only; omega, by simp only; omega⟩) ?_
        refine ⟨⟨n + 1, by simp, by omega, ?_, ?_, ?_, fun q hq => ?_⟩, by simp only; omega⟩
        · simp only
          rw [int64_eq (by omega) (by omega)]; omega
        · rw [wordsN_succ, wordAt_set32_self, hsc, ← hw]
          congr 1
          refine wordsN_congr' fun q hq => set32_other _ _ _ _ _ ?_
          have := hq.2.2
          omega
        · simp only; rw [hsc]; simp
        · rw [set32_other, hf]
          · exact fun h => hq ⟨h.1, h.2.1, by have := h.2.2; omega⟩
          · exact fun h => hq ⟨h.1, by have := h.2.1; omega, by have := h.2.2; omega⟩
      · exact absurd hok (hbad _ (firstGroup_varint _ _))
  · rintro ⟨pos, i, p⟩ m' ⟨n, hi, hn, hp, hw, hpr, hf⟩ hc
    simp only at hi; subst hi
    simp only; omega
  · rintro ⟨pos, i, p⟩ m' ⟨n, hi, hn, hp, hw, hpr, hf⟩ hc
    simp only at hi hp; subst hi
    replace hc : data.len ≤ pos := by simpa using hc
    have h1 := varintsOf_take_le xs n
    have := hlast n hn (by omega)
    subst this
    rw [List.take_length] at hw
    exact ⟨by simp only; omega, hw, hf⟩

/-! ## `Delta` -/

theorem selfDelta_scan (p : U32) (xs : List U32) : selfDelta p xs = scan (fun d p => d - p) p xs := by
  induction xs generalizing p with
  | nil => rfl
  | cons x xs ih => simp [selfDelta, scan, ih]

/-- The loop of `Delta`, however the numbers written so far show in the input; `ys` are the numbers it writes. -/
theorem utilDelta_over {inn out : U32s} {m : Mem} (ys : List U32) (hy : ys.length = inn.len)
    (h0 : 0 < inn.len → fn ys 0 = fn (wordsOf m inn) 0)
    (hs : ∀ n, 0 < n → n < inn.len → ∀ m', (∀ q, ¬ inFirst out n q → m' q = m q) → wordsN m' out n = ys.take n →
      fn ys n = wordAt m' inn.blk (inn.off + 4 * n) - wordAt m' inn.blk (inn.off + 4 * (n - 1))) :
    wp ⟨inSlice inn, inSlice out, fun k _ => k = .index ∧ out.len < inn.len⟩ (utilDelta inn out) m
      (fun _ m' => inn.len ≤ out.len ∧ wordsN m' out inn.len = ys ∧ ∀ q, ¬ inFirst out inn.len q → m' q = m q) := by
  unfold utilDelta
  simp only [Prog.bind_eq, Prog.pure_eq]
  rw [wp_bind]
  refine wp_loop (fun (i : Int) (m' : Mem) => ∃ n : Nat, i = (n : Int) ∧ n ≤ inn.len ∧ n ≤ out.len ∧
      wordsN m' out n = ys.take n ∧ ∀ q, ¬ inFirst out n q → m' q = m q)
    (fun i => inn.len - i.toNat) ?_ ?_ ?_ ⟨0, rfl, by omega, by omega, rfl, fun _ _ => rfl⟩ (by omega)
  · rintro i m' ⟨n, rfl, hn, ho, hw, hf⟩ hc
    replace hc : n < inn.len := by simpa using hc
    have key : ∀ w : U32, w = fn ys n →
        wp ⟨inSlice inn, inSlice out, fun k _ => k = .index ∧ out.len < inn.len⟩ (setW out n w) m'
        (fun _ m' => wp ⟨inSlice inn, inSlice out, fun k _ => k = .index ∧ out.len < inn.len⟩
          (.ret ((n : Int) + 1)) m' (fun s' m' => (∃ n : Nat, s' = (n : Int) ∧ n ≤ inn.len ∧ n ≤ out.len ∧
            wordsN m' out n = ys.take n ∧ ∀ q, ¬ inFirst out n q → m' q = m q) ∧
            inn.len - s'.toNat < inn.len - (n : Int).toNat)) := by
      intro w hw'
      refine wp_setW (fun a ha hal => ⟨fun k hk => ⟨rfl, by simp only; omega, by simp only; omega⟩, ?_⟩)
        fun _ => ⟨rfl, by omega⟩
      have : a = n := by omega
      subst this
      refine ⟨⟨a + 1, by simp, by omega, by omega, ?_, fun q hq => ?_⟩, by omega⟩
      · rw [wordsN_succ, wordAt_set32_self, take_succ_getD (by omega), hw', ← hw]
        congr 1
        refine wordsN_congr' fun q hq => set32_other _ _ _ _ _ ?_
        have := hq.2.2
        omega
      · rw [set32_other, hf]
        · exact fun h => hq ⟨h.1, h.2.1, by have := h.2.2; omega⟩
        · exact fun h => hq ⟨h.1, by have := h.2.1; omega, by have := h.2.2; omega⟩
    have hR : ∀ t < inn.len, ∀ k < 4, inSlice inn ⟨inn.blk, inn.off + 4 * t + k⟩ := fun t ht k hk =>
      ⟨rfl, by simp only; omega, by simp only; omega⟩
    split
    · rename_i hpos
      rw [wp_bind]
      refine wp_getW_ok n rfl hc (hR n hc) ?_
      rw [wp_bind]
      refine wp_getW_ok (n - 1) (by omega) (by omega) (hR (n - 1) (by omega)) ?_
      rw [wp_bind]
      exact key _ (hs n (by omega) hc m' hf hw).symm
    · rename_i hpos
      rw [wp_bind]
      refine wp_getW_ok n rfl hc (hR n hc) ?_
      rw [wp_bind]
      have : n = 0 := by omega
      subst this
      refine key _ ?_
      rw [h0 hc, ← words_of m inn 0 hc]
      refine wordAt_congr fun k hk => hf _ fun h => ?_
      have h2 := h.2.1; have h3 := h.2.2
      omega
  · rintro i m' ⟨n, rfl, hn, ho, hw, hf⟩ hc
    replace hc : n < inn.len := by simpa using hc
    omega
  · rintro i m' ⟨n, rfl, hn, ho, hw, hf⟩ hc
    replace hc : inn.len ≤ n := by simpa using hc
    have : n = inn.len := by omega
    subst this
    refine ⟨ho, ?_, hf⟩
    rw [hw, List.take_of_length_le (by omega)]

end SVB
