import Verif.Props.Extract

/-! # C88: numbers appended to a stream -/

set_option autoImplicit false

namespace SVB.Props
open Spec

private theorem words_copied {m : Mem} {b : Block} {r c : Nat} {s : U32s} :
    wordsOf (copied m b (0 + 4 * r) s.blk s.off (4 * s.len)) ⟨b, 0, r + s.len, c⟩ =
      wordsN m (⟨b, 0, r + s.len, c⟩ : U32s) r ++ wordsOf m s := by
  refine List.ext_getElem (by simp [wordsOf, wordsN]) fun i h1 h2 => ?_
  rw [List.getElem_append]
  simp only [wordsOf, wordsN, List.getElem_map, List.getElem_range, List.length_map, List.length_range, Nat.zero_add]
  have hi : i < r + s.len := by simpa [wordsOf, wordsN] using h1
  by_cases h : i < r
  · rw [dif_pos h]
    simp only [copied]
    rw [if_neg (by omega), if_neg (by omega), if_neg (by omega), if_neg (by omega)]
  · rw [dif_neg h]
    simp only [copied]
    rw [if_pos ⟨trivial, by omega, by omega⟩, if_pos ⟨trivial, by omega, by omega⟩,
      if_pos ⟨trivial, by omega, by omega⟩, if_pos ⟨trivial, by omega, by omega⟩]
    rw [show s.off + (4 * i + 3 - 4 * r) = s.off + 4 * (i - r) + 3 by omega,
      show s.off + (4 * i + 2 - 4 * r) = s.off + 4 * (i - r) + 2 by omega,
      show s.off + (4 * i + 1 - 4 * r) = s.off + 4 * (i - r) + 1 by omega,
      show s.off + (4 * i - 4 * r) = s.off + 4 * (i - r) by omega]

/-- The allocations of `appendNums` are different blocks and differ from those of its arguments. -/
structure AppendPre (b : Nat → Block) (st : Bytes) (more : U32s) : Prop where
  new : ∀ i j, i < j → j < 5 → b i ≠ b j
  heap : ∀ i, i < 5 → (b i).isConst = false
  st : ∀ i, i < 5 → st.blk ≠ b i
  more : ∀ i, i < 5 → more.blk ≠ b i

/-- C88: for the encoding of any numbers `ys` (more bytes may follow it) the caller obtains exactly the encoding of `ys` and the
new numbers, whichever reader and writer are used; nothing but new allocations has changed. -/
theorem C88_append (f g : Fn) {b : Nat → Block} {st : Bytes} {more : U32s} {m : Mem} {ys : List U32} {t : List Byte}
    (hT : TablesLoaded m) (hc : st.len ≤ st.cap) (hs : more.len < 2 ^ 59) (hpre : AppendPre b st more)
    (hb : bytesOf m st = encode ys ++ t) :
    ∃ m' r, run (appendNums f g b ys.length st more) m = (.ok r, m') ∧ r.blk = b 4 ∧
      bytesOf m' r = encode (ys ++ wordsOf m more) ∧ ∀ q : Ptr, (∀ i, i < 5 → q.blk ≠ b i) → m' q = m q := by
  have tbl : ∀ {i : Nat} {m m' : Mem}, i < 5 → Tests.Same (b i) m m' → TablesLoaded m → TablesLoaded m' := by
    intro i m m' hi h hT
    exact hT.frame fun q hq => h q fun e => by rw [e, hpre.heap i hi] at hq; cases hq
  generalize hk : ys.length / 4 = k
  generalize hr : ys.length % 4 = r
  have hn : ys.length = 4 * k + r := by omega
  have hcl : k ≤ ctrlLen ys.length := by unfold ctrlLen; omega
  -- the full groups
  obtain ⟨m0, head, a1, a2, a2', a3, a4⟩ := C87_extract (fresh := b 0) hT hc (hpre.st 0 (by omega)) hb (Nat.zero_le k) hcl
  have s0 : Tests.Same (b 0) m m0 := a4
  have hb0 : bytesOf m0 st = encode ys ++ t := by rw [← hb]; exact s0.bytes (hpre.st 0 (by omega))
  have hT0 := tbl (by omega) s0 hT
  -- the last group
  obtain ⟨m1, last, b1, b2, b2', b3, b4⟩ := C87_extract (fresh := b 1) hT0 hc (hpre.st 1 (by omega)) hb0 hcl (Nat.le_refl _)
  have s1 : Tests.Same (b 1) m0 m1 := b4
  have hT1 := tbl (by omega) s1 hT0
  have el : (ys.take (4 * ctrlLen ys.length)).drop (4 * k) = ys.drop (4 * k) := by
    rw [List.take_of_length_le (by unfold ctrlLen; omega)]
  rw [el] at b3
  -- decoded
  obtain ⟨m2, c1, s2⟩ := Tests.makeWords_run (b 2) m1 (i := ((r + more.len : Nat) : Int)) _ rfl
  have hT2 := tbl (by omega) s2 hT1
  have hlast : bytesOf m2 last = encode (ys.drop (4 * k)) := by
    rw [s2.bytes (by rw [b2]; exact hpre.new 1 2 (by omega) (by omega)), b3]
  have hrd := read_result f (n := r) (st := last) (out := ⟨b 2, 0, r + more.len, r + more.len⟩) (m := m2)
    ⟨hT2, Nat.le_of_eq b2', ⟨Nat.le_refl _, hpre.heap 2 (by omega), by simp only; omega⟩,
      .inl (by rw [b2]; exact hpre.new 1 2 (by omega) (by omega)), by simp only; omega⟩
  have hd := decode_encode (ys.drop (4 * k)) []
  rw [List.append_nil, List.length_drop, show ys.length - 4 * k = r by omega, ← hlast] at hd
  rw [hd] at hrd
  obtain ⟨⟨m3, d1, d2⟩, d3⟩ := hrd
  rw [d1] at d3
  have s3 : Tests.Same (b 2) m2 m3 := fun q hq => d3 q fun h => hq h.1
  have hT3 := tbl (by omega) s3 hT2
  -- copied
  have hfrom : Slice.from (⟨b 2, 0, r + more.len, r + more.len⟩ : U32s) ((r : Nat) : Int) =
      .ret ⟨b 2, 0 + 4 * r, more.len, more.len⟩ := by
    rw [Slice.from, if_pos ⟨by omega, by simp only; omega⟩]
    simp
  have hcopy := copyLoop_run (fresh := b 2) (b := more.blk) (hpre.more 2 (by omega)) (4 * more.len) (0 + 4 * r) more.off m3
  have s4 : Tests.Same (b 2) m3 (copied m3 (b 2) (0 + 4 * r) more.blk more.off (4 * more.len)) := fun q hq => by
    rw [copied, if_neg (fun e => hq e.1)]
  have hw := words_copied (m := m3) (b := b 2) (r := r) (c := r + more.len) (s := more)
  generalize hm4 : copied m3 (b 2) (0 + 4 * r) more.blk more.off (4 * more.len) = m4 at *
  have hT4 := tbl (by omega) s4 hT3
  have hmore : wordsOf m3 more = wordsOf m more := by
    have h0 := s0.words (hpre.more 0 (by omega)) more.len
    have h1 := s1.words (hpre.more 1 (by omega)) more.len
    have h2 := s2.words (hpre.more 2 (by omega)) more.len
    have h3 := s3.words (hpre.more 2 (by omega)) more.len
    exact h3.trans (h2.trans (h1.trans h0))
  rw [d2, hmore] at hw
  -- encoded
  obtain ⟨m5, f1, f2, f3, -⟩ := (write_result g (fresh := b 3) (inn := ⟨b 2, 0, r + more.len, r + more.len⟩) (m := m4)
    ⟨hT4, ⟨Nat.le_refl _, hpre.heap 2 (by omega), by simp only; omega⟩, hpre.heap 3 (by omega),
      (hpre.new 2 3 (by omega) (by omega)).symm⟩).ex
  have s5 : Tests.Same (b 3) m4 m5 := fun q hq => f3 q fun h => hq h.1
  rw [hw] at f1 f2
  have hhead : bytesOf m5 head = encode (ys.take (4 * k)) := by
    have h1 := s1.bytes (s := head) (by rw [a2]; exact hpre.new 0 1 (by omega) (by omega))
    have h2 := s2.bytes (s := head) (by rw [a2]; exact hpre.new 0 2 (by omega) (by omega))
    have h3 := s3.bytes (s := head) (by rw [a2]; exact hpre.new 0 2 (by omega) (by omega))
    have h4 := s4.bytes (s := head) (by rw [a2]; exact hpre.new 0 2 (by omega) (by omega))
    have h5 := s5.bytes (s := head) (by rw [a2]; exact hpre.new 0 3 (by omega) (by omega))
    rw [h5, h4, h3, h2, h1, a3, Nat.mul_zero, List.drop_zero]
  -- joined
  have np : (ys.take (4 * k)).length = 4 * k := by rw [List.length_take]; omega
  have nq : (ys.drop (4 * k) ++ wordsOf m more).length = r + more.len := by
    rw [List.length_append, List.length_drop, wordsOf_length]; omega
  have lp := congrArg List.length hhead
  rw [bytesOf_length, encode_length_sum, np] at lp
  have lq := encode_length_sum (ys.drop (4 * k) ++ wordsOf m more)
  have lq' := (sum_bounds (ys.drop (4 * k) ++ wordsOf m more)).2
  rw [nq] at lq lq'
  generalize htl : (⟨b 3, 0, (encode (ys.drop (4 * k) ++ wordsOf m more)).length, ctrlLen (r + more.len) + 4 * (r + more.len)⟩ : Bytes) =
    tail at f1 f2
  obtain ⟨m6, N, e1, e2, e3⟩ := joinChunks_run (b := b 4) (ps := [(4 * k, head), (r + more.len, tail)]) (m := m5) (by
    intro x hx
    simp only [List.mem_cons, List.not_mem_nil, or_false] at hx
    rcases hx with rfl | rfl
    · exact ⟨by rw [a2]; exact hpre.new 0 4 (by omega) (by omega), by simp only; omega, Nat.le_of_eq a2'⟩
    · subst htl
      exact ⟨hpre.new 3 4 (by omega) (by omega), by simp only; omega, by simp only; omega⟩)
  refine ⟨m6, _, ?_, rfl, e3.trans ?_, fun q hq => ?_⟩
  · have e : appendNums f g b ys.length st more = (extract (b 0) ys.length 0 (ys.length / 4) st).bind fun head =>
      (extract (b 1) ys.length (ys.length / 4) (ctrlLen ys.length) st).bind fun last =>
      (Tests.makeWords (b 2) (ys.length % 4 + more.len : Nat)).bind fun buf =>
      (f.read (ys.length % 4 : Nat) last buf).bind fun _ =>
      (Slice.from buf (ys.length % 4 : Nat)).bind fun rest => (copyWords rest more).bind fun _ =>
      (g.write (b 3) buf).bind fun tail =>
        joinChunks (b 4) [(4 * (ys.length / 4), head), (ys.length % 4 + more.len, tail)] := rfl
    rw [e, hk, hr, run_bind, a1]
    simp only
    rw [run_bind, b1]
    simp only
    rw [run_bind, c1]
    simp only
    rw [run_bind, d1]
    simp only
    rw [hfrom, Prog.ret_bind, run_bind]
    unfold copyWords
    simp only [Slice.ptr, Nat.min_self]
    rw [hcopy]
    simp only
    rw [run_bind, f1]
    exact e1
  · have cp := ctrls_length (ys.take (4 * k))
    have cq := ctrls_length (ys.drop (4 * k) ++ wordsOf m more)
    rw [np] at cp
    rw [nq] at cq
    simp only [List.map_cons, List.map_nil, List.flatten_cons, List.flatten_nil, List.append_nil]
    rw [hhead, f2, encode, encode, ← cp, ← cq]
    simp only [List.take_left, List.drop_left]
    rw [← ctrls_append _ _ (by rw [np]; omega), ← dataBytes_append, ← List.append_assoc, List.take_append_drop]
    rfl
  · rw [e2 q (hq 4 (by omega)), s5 q (hq 3 (by omega)), s4 q (hq 2 (by omega)), s3 q (hq 2 (by omega)), s2 q (hq 2 (by omega)),
      s1 q (hq 1 (by omega)), s0 q (hq 0 (by omega))]

/-- C88: the same caller appends to a delta stream, when the new numbers come as differences that go on from the last number. -/
theorem C88_append_delta (f g : Fn) {b : Nat → Block} {st : Bytes} {more : U32s} {m : Mem} {xs new : List U32} {prev : U32}
    {t : List Byte} (hT : TablesLoaded m) (hc : st.len ≤ st.cap) (hs : more.len < 2 ^ 59) (hpre : AppendPre b st more)
    (hb : bytesOf m st = encode (delta prev xs) ++ t) (hm : wordsOf m more = delta (xs.getLast?.getD prev) new) :
    ∃ m' r, run (appendNums f g b xs.length st more) m = (.ok r, m') ∧ r.blk = b 4 ∧
      bytesOf m' r = encode (delta prev (xs ++ new)) ∧ ∀ q : Ptr, (∀ i, i < 5 → q.blk ≠ b i) → m' q = m q := by
  have h := C88_append f g hT hc hs hpre hb
  rw [delta_length] at h
  rw [delta_append, ← hm]
  exact h

/-! An instance: two numbers are appended to seven, so that the third group begins. -/

def exMore : U32s := ⟨.heap 0, 4, 2, 2⟩

def exAppMem : Mem := memWith [5, 6, 80000] (encode [1, 300, 3, 4, 9, 7, 70000] ++ [8, 8, 8])

example : wordsOf exAppMem exMore = [6, 80000] := by decide +kernel
example (f g : Fn) := C88_append f g (b := fun i => .heap (5 + i)) (m := exAppMem) (st := ⟨.heap 1, 0, 15, 20⟩) (more := exMore)
  (ys := [1, 300, 3, 4, 9, 7, 70000]) (t := [8, 8, 8]) (memWith_tables _ _) (by decide) (by decide)
  ⟨fun i j h _ e => by injection e with e; omega, fun _ _ => rfl, fun i _ e => by injection e with e; omega,
    fun i _ e => by injection e with e; omega⟩ (by decide +kernel)
example (f g : Fn) := C88_append_delta f g (b := fun i => .heap (5 + i)) (m := exAppMem) (st := ⟨.heap 1, 0, 15, 20⟩)
  (more := exMore) (xs := [1, 301, 304, 308, 317, 324, 70324]) (new := [70330, 150330]) (prev := 0) (t := [8, 8, 8])
  (memWith_tables _ _) (by decide) (by decide)
  ⟨fun i j h _ e => by injection e with e; omega, fun _ _ => rfl, fun i _ e => by injection e with e; omega,
    fun i _ e => by injection e with e; omega⟩ (by decide +kernel) (by decide +kernel)

end SVB.Props
