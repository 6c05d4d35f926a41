import Verif.Model.Extract
import Verif.Props.Archive
import Verif.Props.Chunked

/-! # C87: pieces of a stream as streams, without decoding -/

set_option autoImplicit false

namespace SVB.Props
open Spec

/-! ## Lists -/

theorem ctrls_split (ys : List U32) (k : Nat) : ctrls ys = ctrls (ys.take (4 * k)) ++ ctrls (ys.drop (4 * k)) := by
  by_cases h : 4 * k ≤ ys.length
  · rw [← ctrls_append _ _ (by rw [List.length_take]; omega), List.take_append_drop]
  · rw [List.drop_eq_nil_of_le (by omega), List.take_of_length_le (by omega), ctrls_nil, List.append_nil]

private theorem lengths_prefix (ys : List U32) (t : List Byte) (k : Nat) (h : k ≤ ys.length) :
    (lengths k (encode ys ++ t)).sum = (dataBytes (ys.take k)).length := by
  have h1 := lengths_encode ys (dataBytes ys ++ t)
  have h2 : lengths k (encode ys ++ t) = (lengths ys.length (encode ys ++ t)).take k := by
    unfold lengths
    rw [← List.map_take, List.take_range, Nat.min_eq_left h]
  rw [h2, encode, List.append_assoc, h1, dataBytes_length, List.map_take]

/-! ## The size of the first groups -/

section
variable {st : Bytes} {m : Mem} {ys : List U32} {t : List Byte}

theorem dataBefore_run (hT : TablesLoaded m) (hb : bytesOf m st = encode ys ++ t) (k : Nat)
    (hk : k ≤ ctrlLen ys.length) :
    run (dataBefore ys.length k st) m = (.ok ((dataBytes (ys.take (4 * k))).length : Int), m) ∧
    ∀ e ∈ trace (dataBefore ys.length k st) m, ∃ q, e = .rd q ∧ (inSlice st q ∨ inTables q) := by
  have hlen : st.len = (encode ys).length + t.length := by rw [← bytesOf_length m st, hb, List.length_append]
  have hcl : ctrlLen ys.length ≤ (encode ys).length := by rw [encode_length_sum]; omega
  obtain ⟨h1, h2⟩ := ctrlSizes_run (st := st) hT k (by omega)
  have e : dataBefore ys.length k st = (ctrlSizes st k).bind fun a => .ret (a - (4 * k - ys.length : Nat)) := rfl
  rw [e]
  refine ⟨?_, fun e he => ?_⟩
  · rw [run_bind, h1]
    show (Outcome.ok _, m) = _
    refine congrArg (fun (z : Int) => (Outcome.ok z, m)) ?_
    have hpre : ∀ j, j ≤ ys.length → psum (rsz st m) j = (dataBytes (ys.take j)).length := by
      intro j hj
      rw [← lengths_sum m st j (by unfold ctrlLen at hcl ⊢; omega), hb, lengths_prefix ys t j hj]
    by_cases h : 4 * k ≤ ys.length
    · rw [hpre _ h]; omega
    · have hk' : k = ctrlLen ys.length := by unfold ctrlLen at hk ⊢; omega
      have hs : SpareZero ys.length (bytesOf m st) := by rw [hb]; exact encode_spareZero ys t
      have hd : ys.length + (4 * k - ys.length) = 4 * k := by omega
      have h3 := (psum_spare (rsz st m) (fun i => by unfold rsz; omega) ys.length (4 * k - ys.length)).2.2 (by
        intro i hi hi'
        have := hs i hi (by rw [← hk']; omega)
        rw [bytesOf_getD _ _ _ (by omega)] at this
        unfold rsz
        omega)
      rw [hd, hpre _ (Nat.le_refl _)] at h3
      rw [h3, List.take_of_length_le (show ys.length ≤ 4 * k by omega), List.take_length]
      omega
  · rw [_root_.SVB.Flat.trace_bind, h1] at he
    rcases List.mem_append.1 he with he | he
    · exact h2 e he
    · cases he

private theorem bytesOf_range (m : Mem) (s : Bytes) (a n c : Nat) (h : a + n ≤ s.len) :
    bytesOf m (⟨s.blk, s.off + 1 * a, n, c⟩ : Bytes) = ((bytesOf m s).drop a).take n := by
  refine List.ext_getElem (by simp [bytesOf]; omega) fun i h1 h2 => ?_
  simp only [bytesOf, List.getElem_map, List.getElem_range, List.getElem_drop, List.getElem_take]
  rw [Nat.one_mul, Nat.add_assoc]

/-- C87: for a stream that is the encoding of `ys` (more bytes may follow it) and any groups `a ≤ b`, the caller obtains exactly
the encoding of the numbers of groups `a` to `b - 1`, and nothing but the new buffer has changed. -/
theorem C87_extract {fresh : Block} (hT : TablesLoaded m) (hc : st.len ≤ st.cap) (hf : st.blk ≠ fresh)
    (hb : bytesOf m st = encode ys ++ t) {a b : Nat} (hab : a ≤ b) (hn : b ≤ ctrlLen ys.length) :
    ∃ m' r, run (extract fresh ys.length a b st) m = (.ok r, m') ∧ r.blk = fresh ∧ r.len = r.cap ∧
      bytesOf m' r = encode ((ys.take (4 * b)).drop (4 * a)) ∧ ∀ q : Ptr, q.blk ≠ fresh → m' q = m q := by
  have hlen : st.len = (encode ys).length + t.length := by rw [← bytesOf_length m st, hb, List.length_append]
  have hcl : (encode ys).length = ctrlLen ys.length + (dataBytes ys).length := by
    rw [encode, List.length_append, ctrls_length]
  have hx := (dataBefore_run hT hb a (by omega)).1
  have hy := (dataBefore_run hT hb b hn).1
  have e1 : ys.take (4 * b) = ys.take (4 * a) ++ (ys.take (4 * b)).drop (4 * a) := by
    have := List.take_append_drop (4 * a) (ys.take (4 * b))
    rw [List.take_take, Nat.min_eq_left (by omega)] at this
    exact this.symm
  have d1 : (dataBytes (ys.take (4 * b))) = dataBytes (ys.take (4 * a)) ++ dataBytes ((ys.take (4 * b)).drop (4 * a)) := by
    conv => lhs; rw [e1]
    exact dataBytes_append _ _
  have d2 : dataBytes ys = dataBytes (ys.take (4 * b)) ++ dataBytes (ys.drop (4 * b)) := by
    rw [← dataBytes_append, List.take_append_drop]
  have c2 := ctrls_split ys b
  have c1 : ctrls (ys.take (4 * b)) = ctrls (ys.take (4 * a)) ++ ctrls ((ys.take (4 * b)).drop (4 * a)) := by
    have := ctrls_split (ys.take (4 * b)) a
    rwa [List.take_take, Nat.min_eq_left (by omega)] at this
  have lc : ∀ k, k ≤ ctrlLen ys.length → (ctrls (ys.take (4 * k))).length = k := by
    intro k hk
    rw [ctrls_length, List.length_take]
    unfold ctrlLen at hk ⊢
    omega
  generalize hX : dataBytes (ys.take (4 * a)) = X at *
  generalize hY : dataBytes ((ys.take (4 * b)).drop (4 * a)) = Y at *
  generalize hZ : dataBytes (ys.drop (4 * b)) = Z at *
  have la := lc a (by omega)
  have lb := lc b hn
  rw [d1] at d2 hy
  have hl2 : (dataBytes ys).length = X.length + Y.length + Z.length := by rw [d2]; simp only [List.length_append]
  -- the two parts
  have hr1 : st.range (a : Int) (b : Int) = .ret ⟨st.blk, st.off + 1 * a, b - a, st.cap - a⟩ := by
    rw [Slice.range, if_pos ⟨by omega, by omega, by omega⟩]
    simp only [Int.toNat_natCast]
  have hr2 : st.range (((ys.length + 3) / 4 : Nat) + (X.length : Int)) (((ys.length + 3) / 4 : Nat) + ((X ++ Y).length : Int)) =
      .ret ⟨st.blk, st.off + 1 * (ctrlLen ys.length + X.length), Y.length, st.cap - (ctrlLen ys.length + X.length)⟩ := by
    have ec : ctrlLen ys.length = (ys.length + 3) / 4 := rfl
    rw [List.length_append, Slice.range, if_pos ⟨by omega, by omega, by omega⟩, ec]
    congr 2 <;> omega
  have b1 : bytesOf m (⟨st.blk, st.off + 1 * a, b - a, st.cap - a⟩ : Bytes) = ctrls ((ys.take (4 * b)).drop (4 * a)) := by
    rw [bytesOf_range _ _ _ _ _ (by omega), hb, encode, c2, c1]
    simp only [List.append_assoc]
    have l1 : (ctrls ((ys.take (4 * b)).drop (4 * a))).length = b - a := by
      have := congrArg List.length c1
      rw [List.length_append] at this
      omega
    rw [List.drop_left' la, List.take_left' l1]
  have b2 : bytesOf m (⟨st.blk, st.off + 1 * (ctrlLen ys.length + X.length), Y.length,
      st.cap - (ctrlLen ys.length + X.length)⟩ : Bytes) = Y := by
    rw [bytesOf_range _ _ _ _ _ (by omega), hb, encode, d2]
    have l0 : (ctrls ys ++ X).length = ctrlLen ys.length + X.length := by rw [List.length_append, ctrls_length]
    rw [show ctrls ys ++ (X ++ Y ++ Z) ++ t = (ctrls ys ++ X) ++ (Y ++ (Z ++ t)) by simp only [List.append_assoc],
      List.drop_left' l0, List.take_left' rfl]
  obtain ⟨m0, r0, s0⟩ := Tests.makeBytes_run fresh m (i := ((b - a + Y.length : Nat) : Int)) _ rfl
  obtain ⟨m1, r1, s1, g1⟩ := copyParts_run (part := fun p => .ret p.2) (g := fun p => p.2) (b := fresh) (N := b - a + Y.length)
    [(0, ⟨st.blk, st.off + 1 * a, b - a, st.cap - a⟩), (0, ⟨st.blk, st.off + 1 * (ctrlLen ys.length + X.length), Y.length,
      st.cap - (ctrlLen ys.length + X.length)⟩)] 0 m0 (fun p hp => ⟨rfl, by
        simp only [List.mem_cons, List.not_mem_nil, or_false] at hp
        rcases hp with rfl | rfl <;> exact hf⟩) (by simp)
  refine ⟨m1, ⟨fresh, 0, b - a + Y.length, b - a + Y.length⟩, ?_, rfl, rfl, ?_, fun q hq => (s0.trans s1) q hq⟩
  · have e : extract fresh ys.length a b st = (dataBefore ys.length a st).bind fun x => (dataBefore ys.length b st).bind fun y =>
      (st.range (a : Int) (b : Int)).bind fun c => (st.range (((ys.length + 3) / 4 : Nat) + x) (((ys.length + 3) / 4 : Nat) + y)).bind
        fun d => (makeBytes fresh (c.len + d.len : Nat)).bind fun buf =>
          (copyParts (fun p => .ret p.2) buf 0 [(0, c), (0, d)]).bind fun _ => .ret buf := rfl
    rw [e, run_bind, hx]
    simp only
    rw [run_bind, hy]
    simp only
    rw [hr1, Prog.ret_bind, hr2, Prog.ret_bind, run_bind, r0]
    simp only
    rw [run_bind, r1]
    rfl
  · simp only [List.map_cons, List.map_nil, List.sum_cons, List.sum_nil, Nat.add_zero, Nat.zero_add, List.flatten_cons,
      List.flatten_nil, List.append_nil] at g1
    rw [g1, s0.bytes (s := ⟨st.blk, st.off + 1 * a, b - a, st.cap - a⟩) hf, b1,
      s0.bytes (s := ⟨st.blk, st.off + 1 * (ctrlLen ys.length + X.length), Y.length, st.cap - (ctrlLen ys.length + X.length)⟩) hf,
      b2, encode, hY]
    simp only [bytesOf, List.range_zero, List.map_nil, List.nil_append]

/-- C87 for delta streams: the piece is a delta stream with the number before it as base. -/
theorem C87_extract_delta {fresh : Block} {xs : List U32} {prev : U32} (hT : TablesLoaded m) (hc : st.len ≤ st.cap)
    (hf : st.blk ≠ fresh) (hb : bytesOf m st = encode (delta prev xs) ++ t) {a b : Nat} (hab : a ≤ b)
    (hn : b ≤ ctrlLen xs.length) :
    ∃ m' r, run (extract fresh xs.length a b st) m = (.ok r, m') ∧ r.blk = fresh ∧ r.len = r.cap ∧
      bytesOf m' r = encode (delta (if a = 0 then prev else xs.getD (4 * a - 1) 0) ((xs.take (4 * b)).drop (4 * a))) ∧
      ∀ q : Ptr, q.blk ≠ fresh → m' q = m q := by
  have hl := delta_length prev xs
  obtain ⟨m', r, h1, h2, h2', h3, h4⟩ := C87_extract (fresh := fresh) hT hc hf hb hab (by rw [hl]; exact hn)
  rw [hl] at h1
  refine ⟨m', r, h1, h2, h2', ?_, h4⟩
  rw [h3]
  congr 1
  by_cases ha : 4 * a ≤ xs.length
  · have e : ∀ l : List U32, l.length = xs.length → (l.take (4 * b)).drop (4 * a) =
        (l.drop (4 * a)).take (min (4 * b) xs.length - 4 * a) := by
      intro l hl
      rw [List.drop_take, List.take_eq_take_iff, List.length_drop, hl]
      omega
    rw [e _ hl, e _ rfl, delta_chunk prev xs _ _ (by omega)]
    congr 1
    by_cases h0 : a = 0
    · rw [if_pos h0, if_pos (by omega)]
    · rw [if_neg h0, if_neg (by omega)]
  · rw [List.drop_eq_nil_of_le (by rw [List.length_take, hl]; omega), List.drop_eq_nil_of_le (by rw [List.length_take]; omega)]
    rfl

end

/-- C87: any reader delivers the numbers of the groups from the piece. -/
theorem C87_read (f : Fn) {st r : Bytes} {m m' : Mem} {ys : List U32} {t : List Byte} {fresh : Block} {out : U32s}
    (hT : TablesLoaded m) (hc : st.len ≤ st.cap) (hf : st.blk ≠ fresh) (hh : fresh.isConst = false)
    (hb : bytesOf m st = encode ys ++ t) {a b : Nat} (hab : a ≤ b) (hn : b ≤ ctrlLen ys.length)
    (hr : run (extract fresh ys.length a b st) m = (.ok r, m')) (hv : Valid out) (ho : r.blk ≠ out.blk)
    (hroom : min ys.length (4 * b) - 4 * a ≤ out.len) :
    ∃ m'', run (f.read (min ys.length (4 * b) - 4 * a : Nat) r out) m' = (.ok (), m'') ∧
      wordsN m'' out (min ys.length (4 * b) - 4 * a) = (ys.take (4 * b)).drop (4 * a) := by
  obtain ⟨m1, r1, h1, h2, h2', h3, h4⟩ := C87_extract (fresh := fresh) hT hc hf hb hab hn
  rw [hr, Prod.mk.injEq, Outcome.ok.injEq] at h1
  obtain ⟨rfl, rfl⟩ := h1
  have hT' : TablesLoaded m' := hT.frame fun q hq => h4 q fun e => by rw [e, hh] at hq; cases hq
  have hcap : r.len ≤ r.cap := Nat.le_of_eq h2'
  have hl : ((ys.take (4 * b)).drop (4 * a)).length = min ys.length (4 * b) - 4 * a := by
    rw [List.length_drop, List.length_take]; omega
  have hd := decode_encode ((ys.take (4 * b)).drop (4 * a)) []
  rw [List.append_nil, ← h3, hl] at hd
  have := (read_result f (n := min ys.length (4 * b) - 4 * a) (st := r) (out := out) (m := m')
    ⟨hT', hcap, hv, .inl ho, hroom⟩).1
  rw [hd] at this
  exact this

/-- C87: any delta reader delivers the numbers from a piece of a delta stream, starting from the number before them. -/
theorem C87_read_delta (f : Fn) {st r : Bytes} {m m' : Mem} {xs : List U32} {prev : U32} {t : List Byte} {fresh : Block} {out : U32s}
    (hT : TablesLoaded m) (hc : st.len ≤ st.cap) (hf : st.blk ≠ fresh) (hh : fresh.isConst = false)
    (hb : bytesOf m st = encode (delta prev xs) ++ t) {a b : Nat} (hab : a ≤ b) (hn : b ≤ ctrlLen xs.length)
    (hr : run (extract fresh xs.length a b st) m = (.ok r, m')) (hv : Valid out) (ho : r.blk ≠ out.blk)
    (hroom : min xs.length (4 * b) - 4 * a ≤ out.len) :
    ∃ m'', run (f.readDelta (min xs.length (4 * b) - 4 * a : Nat) r out (if a = 0 then prev else xs.getD (4 * a - 1) 0)) m' =
        (.ok (), m'') ∧
      wordsN m'' out (min xs.length (4 * b) - 4 * a) = (xs.take (4 * b)).drop (4 * a) := by
  obtain ⟨m1, r1, h1, h2, h2', h3, h4⟩ := C87_extract_delta (fresh := fresh) hT hc hf hb hab hn
  rw [hr, Prod.mk.injEq, Outcome.ok.injEq] at h1
  obtain ⟨rfl, rfl⟩ := h1
  have hT' : TablesLoaded m' := hT.frame fun q hq => h4 q fun e => by rw [e, hh] at hq; cases hq
  have hl : ((xs.take (4 * b)).drop (4 * a)).length = min xs.length (4 * b) - 4 * a := by
    rw [List.length_drop, List.length_take]; omega
  have hd := decodeDelta_encode (if a = 0 then prev else xs.getD (4 * a - 1) 0) ((xs.take (4 * b)).drop (4 * a)) []
  rw [List.append_nil, ← h3, hl] at hd
  have := (readDelta_result f (if a = 0 then prev else xs.getD (4 * a - 1) 0) (n := min xs.length (4 * b) - 4 * a) (st := r)
    (out := out) (m := m') ⟨hT', Nat.le_of_eq h2', hv, .inl ho, hroom⟩).1
  rw [hd] at this
  exact this

/-- C87: cutting and joining gives the stream back. -/
theorem C87_rejoin {st : Bytes} {m : Mem} {ys : List U32} {t : List Byte} {f1 f2 f3 : Block} (hT : TablesLoaded m)
    (hc : st.len ≤ st.cap) (h1 : st.blk ≠ f1) (h2 : st.blk ≠ f2) (h12 : f1 ≠ f2) (h13 : f1 ≠ f3) (h23 : f2 ≠ f3)
    (hh : f1.isConst = false) (hb : bytesOf m st = encode ys ++ t) {k : Nat} (hk : k ≤ ctrlLen ys.length) :
    ∃ m' r, run (cutAndJoin f1 f2 f3 ys.length k st) m = (.ok r, m') ∧ bytesOf m' r = encode ys := by
  obtain ⟨ma, p, a1, a2, a2', a3, a4⟩ := C87_extract (fresh := f1) hT hc h1 hb (Nat.zero_le k) hk
  have hT' : TablesLoaded ma := hT.frame fun q hq => a4 q fun e => by rw [e, hh] at hq; cases hq
  have hb' : bytesOf ma st = encode ys ++ t := by rw [← hb]; exact Tests.Same.bytes (b := f1) a4 h1
  obtain ⟨mb, q, b1, b2, b2', b3, b4⟩ := C87_extract (fresh := f2) hT' hc h2 hb' hk (Nat.le_refl _)
  have hp : bytesOf mb p = bytesOf ma p := Tests.Same.bytes (b := f2) b4 (by rw [a2]; exact h12)
  have lp := congrArg List.length a3
  have lq := congrArg List.length b3
  rw [bytesOf_length, encode_length_sum] at lp lq
  have np : ((ys.take (4 * k)).drop (4 * 0)).length = min ys.length (4 * k) := by
    rw [List.length_drop, List.length_take]; omega
  have nq : ((ys.take (4 * ctrlLen ys.length)).drop (4 * k)).length = ys.length - 4 * k := by
    rw [List.length_drop, List.length_take]; unfold ctrlLen; omega
  rw [np] at lp
  rw [nq] at lq
  obtain ⟨m', N, e1, e2, e3⟩ := joinChunks_run (b := f3) (ps := [(min ys.length (4 * k), p), (ys.length - 4 * k, q)]) (m := mb) (by
    intro x hx
    simp only [List.mem_cons, List.not_mem_nil, or_false] at hx
    rcases hx with rfl | rfl
    · exact ⟨by rw [a2]; exact h13, by simp only; omega, Nat.le_of_eq a2'⟩
    · exact ⟨by rw [b2]; exact h23, by simp only; omega, Nat.le_of_eq b2'⟩)
  refine ⟨m', _, ?_, e3.trans ?_⟩
  · have e : cutAndJoin f1 f2 f3 ys.length k st = (extract f1 ys.length 0 k st).bind fun p =>
      (extract f2 ys.length k (ctrlLen ys.length) st).bind fun q =>
        joinChunks f3 [(min ys.length (4 * k), p), (ys.length - 4 * k, q)] := rfl
    rw [e, run_bind, a1]
    simp only
    rw [run_bind, b1]
    exact e1
  · have cp := ctrls_length ((ys.take (4 * k)).drop (4 * 0))
    have cq := ctrls_length ((ys.take (4 * ctrlLen ys.length)).drop (4 * k))
    rw [np] at cp
    rw [nq] at cq
    simp only [List.map_cons, List.map_nil, List.flatten_cons, List.flatten_nil, List.append_nil]
    rw [hp, a3, b3, encode, encode, ← cp, ← cq]
    simp only [List.take_left, List.drop_left]
    rw [Nat.mul_zero, List.drop_zero, List.take_of_length_le (l := ys) (i := 4 * ctrlLen ys.length) (by unfold ctrlLen; omega),
      ← ctrls_split, ← dataBytes_append, List.take_append_drop]
    rfl

/-! ## Examples -/

/-- Seven numbers, their stream, and three bytes more. -/
def exCutMem : Mem := memWith [] (encode [1, 300, 3, 4, 9, 7, 70000] ++ [8, 8, 8])

example : bytesOf exCutMem ⟨.heap 1, 0, 15, 20⟩ = encode [1, 300, 3, 4, 9, 7, 70000] ++ [8, 8, 8] := by decide +kernel
example := C87_extract (m := exCutMem) (st := ⟨.heap 1, 0, 15, 20⟩) (ys := [1, 300, 3, 4, 9, 7, 70000]) (t := [8, 8, 8])
  (fresh := .heap 5) (memWith_tables _ _) (by decide) (by decide) (by decide +kernel) (a := 1) (b := 2) (by decide) (by decide)
example := C87_rejoin (m := exCutMem) (st := ⟨.heap 1, 0, 15, 20⟩) (ys := [1, 300, 3, 4, 9, 7, 70000]) (t := [8, 8, 8])
  (f1 := .heap 5) (f2 := .heap 6) (f3 := .heap 7) (memWith_tables _ _) (by decide) (by decide) (by decide) (by decide) (by decide)
  (by decide) rfl (by decide +kernel) (k := 1) (by decide)

end SVB.Props
