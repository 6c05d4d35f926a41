import Verif.Props.SizeLaws
import Verif.Props.Access

/-! # C82: exchanging numbers changes a stream only at their places -/

set_option autoImplicit false

namespace SVB.Props
open Spec

/-! ## Vocabulary -/

/-- Where the data of number `k` begins: after the control bytes and the data of the numbers before it, whose lengths the
control bytes announce. -/
def dataPlace (n : Nat) (s : List Byte) (k : Nat) : Nat := ctrlLen n + ((lengths n s).take k).sum

/-- Two streams of `n` numbers that differ at most at the places of the numbers `i … j-1`: the other lengths in the control
bytes, the unused control bits, and the data before and after are the same. -/
structure SameOutside (n i j : Nat) (r s : List Byte) : Prop where
  codes : ∀ k < 4 * ctrlLen n, k < i ∨ j ≤ k → code (r.getD (k / 4) 0) (k % 4) = code (s.getD (k / 4) 0) (k % 4)
  places : ∀ k ≤ i, dataPlace n r k = dataPlace n s k
  before : ∀ q, ctrlLen n ≤ q → q < dataPlace n r i → r[q]? = s[q]?
  after : ∀ q, r[dataPlace n r j + q]? = s[dataPlace n s j + q]?

/-- A plain writer returns a stream with the bytes `r`. -/
def WroteBytes (f : Fn) (fresh : Block) (inn : U32s) (m : Mem) (r : List Byte) : Prop :=
  ∃ t m', run (f.write fresh inn) m = (.ok t, m') ∧ bytesOf m' t = r

/-- A delta writer returns a stream with the bytes `r`. -/
def WroteBytesDelta (f : Fn) (fresh : Block) (inn : U32s) (prev : U32) (m : Mem) (r : List Byte) : Prop :=
  ∃ t m', run (f.writeDelta fresh inn prev) m = (.ok t, m') ∧ bytesOf m' t = r

private theorem wrote {f : Fn} {fresh : Block} {inn : U32s} {m : Mem} {r : List Byte} (hw : WriterPre fresh inn m)
    (h : WroteBytes f fresh inn m r) : r = encode (wordsOf m inn) := by
  obtain ⟨t, m', e, rfl⟩ := h
  obtain ⟨m₁, e1, hb, -⟩ := (write_result f hw).ex
  rw [e1] at e
  cases e
  exact hb

private theorem wroteDelta {f : Fn} {fresh : Block} {inn : U32s} {prev : U32} {m : Mem} {r : List Byte}
    (hw : WriterPre fresh inn m) (h : WroteBytesDelta f fresh inn prev m r) : r = encode (delta prev (wordsOf m inn)) := by
  obtain ⟨t, m', e, rfl⟩ := h
  obtain ⟨m₁, e1, hb, -⟩ := (writeDelta_result f prev hw).ex
  rw [e1] at e
  cases e
  exact hb

/-! ## Lists -/

private theorem place_encode (xs : List U32) (k : Nat) :
    dataPlace xs.length (encode xs) k = (ctrls xs).length + (dataBytes (xs.take k)).length := by
  unfold dataPlace encode
  rw [lengths_encode, ctrls_length, dataBytes_length, List.map_take]

private theorem drop_place (xs : List U32) (k : Nat) :
    (encode xs).drop (dataPlace xs.length (encode xs) k) = dataBytes (xs.drop k) := by
  rw [place_encode]
  unfold encode
  rw [← List.drop_drop, List.drop_left]
  conv => lhs; rw [← List.take_append_drop k xs, dataBytes_append]
  rw [List.take_append_drop, List.drop_left]

private theorem encode_code (xs : List U32) {k : Nat} (hk : k < 4 * ctrlLen xs.length) :
    code ((encode xs).getD (k / 4) 0) (k % 4) + 1 = byteLen (xs[k]?.getD 0) := by
  unfold encode
  rw [getD_append_left _ (by rw [ctrls_length]; omega), ctrls_code xs (k / 4) (k % 4) (by omega) (by omega),
    show 4 * (k / 4) + k % 4 = k by omega, List.getD_eq_getElem?_getD]

private theorem sameOutside {xs ys : List U32} {n i j : Nat} (hx : xs.length = n) (hy : ys.length = n)
    (h : ∀ k, k < i ∨ j ≤ k → xs[k]? = ys[k]?) : SameOutside n i j (encode xs) (encode ys) := by
  have htake : ∀ k ≤ i, xs.take k = ys.take k := by
    intro k hk
    refine List.ext_getElem? fun q => ?_
    by_cases hq : q < k
    · rw [List.getElem?_take_of_lt hq, List.getElem?_take_of_lt hq, h q (.inl (by omega))]
    · rw [List.getElem?_take_eq_none (by omega), List.getElem?_take_eq_none (by omega)]
  have hdrop : xs.drop j = ys.drop j := by
    refine List.ext_getElem? fun q => ?_
    rw [List.getElem?_drop, List.getElem?_drop, h _ (.inr (by omega))]
  have hp : ∀ k ≤ i, dataPlace n (encode xs) k = dataPlace n (encode ys) k := by
    intro k hk
    have e1 := place_encode xs k
    have e2 := place_encode ys k
    rw [hx] at e1
    rw [hy] at e2
    rw [e1, e2, htake k hk, ctrls_length, ctrls_length, hx, hy]
  refine ⟨fun k hk hk' => ?_, hp, fun q h1 h2 => ?_, fun q => ?_⟩
  · have e1 := encode_code xs (k := k) (by rw [hx]; exact hk)
    have e2 := encode_code ys (k := k) (by rw [hy]; exact hk)
    rw [h k hk'] at e1
    omega
  · have e1 := place_encode xs i
    rw [hx] at e1
    rw [e1, ctrls_length, hx] at h2
    unfold encode
    rw [List.getElem?_append_right (by rw [ctrls_length, hx]; exact h1),
      List.getElem?_append_right (by rw [ctrls_length, hy]; exact h1), ctrls_length, ctrls_length, hx, hy]
    conv => lhs; rw [← List.take_append_drop i xs, dataBytes_append]
    conv => rhs; rw [← List.take_append_drop i ys, dataBytes_append]
    rw [List.getElem?_append_left (by omega), List.getElem?_append_left (by rw [← htake i (Nat.le_refl i)]; omega),
      htake i (Nat.le_refl i)]
  · have e1 := drop_place xs j
    have e2 := drop_place ys j
    rw [hx] at e1
    rw [hy] at e2
    rw [← List.getElem?_drop, ← List.getElem?_drop, e1, e2, hdrop]

private theorem delta_getElem? (prev : U32) (xs : List U32) : (delta prev xs)[0]? = xs[0]?.map (· - prev) ∧
    ∀ k, (delta prev xs)[k + 1]? = xs[k + 1]?.bind fun x => xs[k]?.map (x - ·) := by
  induction xs generalizing prev with
  | nil => simp [delta]
  | cons a xs ih =>
    refine ⟨by simp [delta], fun k => ?_⟩
    cases k with
    | zero =>
      simp only [delta, List.getElem?_cons_succ, (ih a).1, List.getElem?_cons_zero]
      cases xs[0]? <;> rfl
    | succ k => simp only [delta, List.getElem?_cons_succ, (ih a).2 k]

/-! ## Writing -/

section
variable {f g : Fn} {fa fb : Block} {a b : U32s} {m m₁ : Mem} {r s : List Byte}

/-- C82: in a stream that a writer returns, the data of number `k` are its shortest bytes, and lie where the control bytes
say. -/
theorem C82_place (ha : WriterPre fa a m) (hr : WroteBytes f fa a m r) {k : Nat} {x : U32} (hx : (wordsOf m a)[k]? = some x) :
    (r.drop (dataPlace a.len r k)).take (byteLen x) = leBytes x ∧ dataPlace a.len r (k + 1) = dataPlace a.len r k + byteLen x := by
  cases wrote ha hr
  have hl := wordsOf_length m a
  generalize wordsOf m a = xs at *
  obtain ⟨hk, rfl⟩ := List.getElem?_eq_some_iff.1 hx
  rw [← hl]
  refine ⟨?_, ?_⟩
  · rw [drop_place, List.drop_eq_getElem_cons hk, dataBytes_cons, ← leBytes_length, List.take_left]
  · rw [place_encode, place_encode, List.take_succ_eq_append_getElem hk, dataBytes_append, List.length_append, dataBytes_cons,
      List.length_append, leBytes_length, Nat.add_assoc]
    rfl

/-- C82: exchange the numbers `i … j-1` of an input for others: the stream changes only at their places. -/
theorem C82_exchange (ha : WriterPre fa a m) (hb : WriterPre fb b m₁) (hr : WroteBytes f fa a m r)
    (hs : WroteBytes g fb b m₁ s) (hl : a.len = b.len) {i j : Nat}
    (h : ∀ k, k < i ∨ j ≤ k → (wordsOf m a)[k]? = (wordsOf m₁ b)[k]?) : SameOutside a.len i j r s := by
  cases wrote ha hr
  cases wrote hb hs
  exact sameOutside (wordsOf_length m a) (by rw [wordsOf_length, hl]) h

/-- C82: with delta coding the place of the number after them changes too, and no other. -/
theorem C82_exchange_delta {prev : U32} (ha : WriterPre fa a m) (hb : WriterPre fb b m₁)
    (hr : WroteBytesDelta f fa a prev m r) (hs : WroteBytesDelta g fb b prev m₁ s) (hl : a.len = b.len) {i j : Nat}
    (h : ∀ k, k < i ∨ j ≤ k → (wordsOf m a)[k]? = (wordsOf m₁ b)[k]?) :
    SameOutside a.len i (j + 1) r s := by
  cases wroteDelta ha hr
  cases wroteDelta hb hs
  refine sameOutside (by rw [delta_length, wordsOf_length]) (by rw [delta_length, wordsOf_length, hl]) fun k hk => ?_
  cases k with
  | zero => rw [(delta_getElem? _ _).1, (delta_getElem? _ _).1, h 0 (by omega)]
  | succ k => rw [(delta_getElem? _ _).2, (delta_getElem? _ _).2, h (k + 1) (by omega), h k (by omega)]

/-- C82: exchange one number for another one of the same length: the stream of the new input is the old one with the bytes of
the new number in the place of those of the old one. -/
theorem C82_overwrite (ha : WriterPre fa a m) (hb : WriterPre fb b m₁) (hr : WroteBytes f fa a m r)
    (hs : WroteBytes g fb b m₁ s) {k : Nat} {x y : U32} (hx : (wordsOf m a)[k]? = some x)
    (h : wordsOf m₁ b = (wordsOf m a).set k y) (hxy : byteLen y = byteLen x) :
    s = r.take (dataPlace a.len r k) ++ leBytes y ++ r.drop (dataPlace a.len r k + byteLen x) := by
  cases wrote ha hr
  cases wrote hb hs
  have hl := wordsOf_length m a
  rw [h, ← hl]
  generalize wordsOf m a = xs at *
  obtain ⟨hk, rfl⟩ := List.getElem?_eq_some_iff.1 hx
  have hc : ctrls (xs.set k y) = ctrls xs := by
    refine List.ext_getElem (by simp only [ctrls_length, List.length_set]) fun g h1 h2 => ?_
    rw [ctrls_length] at h2
    have e : ∀ q < 4, code (ctrls (xs.set k y))[g] q = code (ctrls xs)[g] q := by
      intro q hq
      have e1 := ctrls_code (xs.set k y) g q (by rw [List.length_set]; exact h2) hq
      have e2 := ctrls_code xs g q h2 hq
      have : byteLen ((xs.set k y).getD (4 * g + q) 0) = byteLen (xs.getD (4 * g + q) 0) := by
        rw [List.getD_eq_getElem?_getD, List.getD_eq_getElem?_getD, List.getElem?_set]
        split
        · rename_i h
          subst h
          simp [hk, hxy]
        · rfl
      rw [getD_eq_getElem' _ h1] at e1
      rw [getD_eq_getElem' _ (by rw [ctrls_length]; exact h2)] at e2
      omega
    have e0 := e 0 (by omega)
    have e1 := e 1 (by omega)
    have e2 := e 2 (by omega)
    have e3 := e 3 (by omega)
    apply BitVec.eq_of_toNat_eq
    have b1 := (ctrls (xs.set k y))[g].isLt
    have b2 := (ctrls xs)[g].isLt
    simp only [code, Nat.reducePow] at e0 e1 e2 e3
    omega
  have hd : dataBytes xs = dataBytes (xs.take k) ++ (leBytes xs[k] ++ dataBytes (xs.drop (k + 1))) := by
    rw [← dataBytes_cons, ← List.drop_eq_getElem_cons hk, ← dataBytes_append, List.take_append_drop]
  have hd' : dataBytes (xs.set k y) = dataBytes (xs.take k) ++ (leBytes y ++ dataBytes (xs.drop (k + 1))) := by
    rw [List.set_eq_take_append_cons_drop, if_pos hk, dataBytes_append, dataBytes_cons]
  rw [← List.drop_drop, drop_place, place_encode, List.drop_eq_getElem_cons hk, dataBytes_cons, ← leBytes_length, List.drop_left]
  unfold encode
  rw [hc, hd, hd', List.take_append,
    List.take_of_length_le (show (ctrls xs).length ≤ (ctrls xs).length + (dataBytes (xs.take k)).length from Nat.le_add_right _ _),
    Nat.add_sub_cancel_left, List.take_left]
  simp only [List.append_assoc]

end

/-! ## Reading -/

/-- `m'` is `m` with the `l` bytes from position `p` of the slice overwritten by the `l` low bytes of `y`, lowest first. -/
def Overwritten (m m' : Mem) (st : Bytes) (p l y : Nat) : Prop :=
  ∀ i < st.len, m' ⟨st.blk, st.off + i⟩ =
    if p ≤ i ∧ i < p + l then BitVec.ofNat 8 (y / 256 ^ (i - p)) else m ⟨st.blk, st.off + i⟩

private theorem patched {n k : Nat} {st : Bytes} {m m' : Mem} {xs : List U32} {y l : Nat}
    (hd : decode n (bytesOf m st) = some xs) (hk : k < n) (hl : (lengths n (bytesOf m st))[k]? = some l) (hy : y < 256 ^ l)
    (ho : Overwritten m m' st (dataPlace n (bytesOf m st) k) l y) :
    decode n (bytesOf m' st) = some (xs.set k (BitVec.ofNat 32 y)) := by
  have hget : ∀ i < st.len, (bytesOf m' st)[i]? = some (if dataPlace n (bytesOf m st) k ≤ i ∧ i < dataPlace n (bytesOf m st) k + l
      then BitVec.ofNat 8 (y / 256 ^ (i - dataPlace n (bytesOf m st) k)) else m ⟨st.blk, st.off + i⟩) := by
    intro i hi
    simp only [bytesOf, List.getElem?_map, List.getElem?_range hi, Option.map_some, Option.some.injEq]
    exact ho i hi
  have hget0 : ∀ i < st.len, (bytesOf m st)[i]? = some (m ⟨st.blk, st.off + i⟩) := by
    intro i hi
    simp only [bytesOf, List.getElem?_map, List.getElem?_range hi, Option.map_some]
  have hsame : ∀ i, (i < dataPlace n (bytesOf m st) k ∨ dataPlace n (bytesOf m st) k + l ≤ i) →
      (bytesOf m' st)[i]? = (bytesOf m st)[i]? := by
    intro i hi
    by_cases hs : i < st.len
    · rw [hget i hs, hget0 i hs, if_neg (by omega)]
    · rw [List.getElem?_eq_none (by rw [bytesOf_length]; omega), List.getElem?_eq_none (by rw [bytesOf_length]; omega)]
  have hP : ctrlLen n ≤ dataPlace n (bytesOf m st) k := Nat.le_add_right _ _
  have hlen : lengths n (bytesOf m' st) = lengths n (bytesOf m st) := by
    refine lengths_congr fun g hg => ?_
    rw [List.getD_eq_getElem?_getD, List.getD_eq_getElem?_getD, hsame g (.inl (by omega))]
  have hnl := lengths_length n (bytesOf m st)
  have hkl : k < (lengths n (bytesOf m st)).length := by omega
  have hlk : (lengths n (bytesOf m st))[k] = l := by
    rw [List.getElem?_eq_getElem hkl] at hl; exact Option.some.inj hl
  have hfit := numPos_le hd k 1
  rw [List.drop_eq_getElem_cons hkl, List.take_succ_cons, List.take_zero, List.sum_cons, List.sum_nil, Nat.add_zero, hlk,
    bytesOf_length, show numPos n (bytesOf m st) k = dataPlace n (bytesOf m st) k from rfl] at hfit
  have hcl := decode_some_len hd
  have hxl := decode_length hd
  unfold decode at hd ⊢
  rw [bytesOf_length] at hd hcl ⊢
  rw [if_neg (by omega)] at hd
  rw [if_neg (by omega), hlen]
  obtain ⟨ys, hr, hly, hoth⟩ := readNums_local (bs := (bytesOf m' st).drop (ctrlLen n)) (bs0 := (bytesOf m st).drop (ctrlLen n))
    (by simp [bytesOf_length]) hd
  rw [hr, Option.some.injEq]
  refine List.ext_getElem? fun i => ?_
  rw [List.getElem?_set]
  split
  · rename_i h
    subst h
    rw [if_pos (by omega), readNums_get hr, hl, Option.map_some, List.drop_drop]
    have : ((bytesOf m' st).drop (ctrlLen n + ((lengths n (bytesOf m st)).take k).sum)).take l =
        (List.range l).map fun q => BitVec.ofNat 8 (y / 256 ^ q) := by
      refine List.ext_getElem? fun q => ?_
      by_cases hq : q < l
      · rw [List.getElem?_take_of_lt hq, List.getElem?_drop]
        show (bytesOf m' st)[dataPlace n (bytesOf m st) k + q]? = _
        rw [hget _ (by omega), if_pos (by omega), List.getElem?_map, List.getElem?_range hq, Nat.add_sub_cancel_left]
        rfl
      · rw [List.getElem?_take_eq_none (by omega), List.getElem?_eq_none (by simp; omega)]
    rw [this, leValue_range, Nat.mod_eq_of_lt hy]
  · rename_i hne
    by_cases hin : i < n
    · refine hoth i fun q hq => ?_
      rw [List.getElem?_drop, List.getElem?_drop]
      refine hsame _ ?_
      have hil : i < (lengths n (bytesOf m st)).length := by omega
      rw [List.getD_eq_getElem?_getD, List.getElem?_eq_getElem hil, Option.getD_some] at hq
      have hsum : ∀ u v, u < v → v ≤ n → ((lengths n (bytesOf m st)).take u).sum + ((lengths n (bytesOf m st)).getD u 0) ≤
          ((lengths n (bytesOf m st)).take v).sum := by
        intro u v huv hv
        have hu : u < (lengths n (bytesOf m st)).length := by omega
        have e : (lengths n (bytesOf m st)).take v = (lengths n (bytesOf m st)).take u ++
            ((lengths n (bytesOf m st)).drop u).take (v - u) := by
          rw [← List.take_add, show u + (v - u) = v by omega]
        rw [e, List.sum_append, List.drop_eq_getElem_cons hu, show v - u = (v - u - 1) + 1 by omega, List.take_succ_cons,
          List.sum_cons, List.getD_eq_getElem?_getD, List.getElem?_eq_getElem hu, Option.getD_some]
        omega
      unfold dataPlace
      rcases Nat.lt_or_gt_of_ne hne with h | h
      · have := hsum k i h (by omega)
        rw [List.getD_eq_getElem?_getD, hl, Option.getD_some] at this
        omega
      · have := hsum i k h (by omega)
        rw [List.getD_eq_getElem?_getD, List.getElem?_eq_getElem hil, Option.getD_some] at this
        omega
    · rw [List.getElem?_eq_none (by omega), List.getElem?_eq_none (by omega)]

section
variable {n k : Nat} {st : Bytes} {out out' : U32s} {m m' : Mem} {y l : Nat}

/-- C82: overwrite the data bytes of number `k` of any stream by those of another number that fits: all readers then
deliver that number, and the others as before. -/
theorem C82_patch (f g : Fn) (h : ReaderPre n st out m) (h' : ReaderPre n st out' m') (hlen : needed m st n ≤ st.len)
    (hk : k < n) (hl : (lengths n (bytesOf m st))[k]? = some l) (hy : y < 256 ^ l)
    (ho : Overwritten m m' st (dataPlace n (bytesOf m st) k) l y) :
    ∃ m₁ m₂, run (f.read n st out) m = (.ok (), m₁) ∧ run (g.read n st out') m' = (.ok (), m₂) ∧
      wordsN m₂ out' n = (wordsN m₁ out n).set k (BitVec.ofNat 32 y) := by
  obtain ⟨xs, hd⟩ := decode_isSome.2 (show ctrlLen n + (lengths n (bytesOf m st)).sum ≤ (bytesOf m st).length by
    rw [bytesOf_length]; exact hlen)
  have hd' := patched hd hk hl hy ho
  have h1 := (read_result f h).1
  have h2 := (read_result g h').1
  rw [hd] at h1
  rw [hd'] at h2
  obtain ⟨m₁, e1, w1⟩ := h1
  obtain ⟨m₂, e2, w2⟩ := h2
  exact ⟨m₁, m₂, e1, e2, by rw [w1, w2]⟩

private theorem undelta_add (prev c : U32) (ds : List U32) : undelta (prev + c) ds = (undelta prev ds).map (· + c) := by
  induction ds generalizing prev with
  | nil => rfl
  | cons d ds ih =>
    simp only [undelta, List.map_cons]
    rw [← BitVec.add_assoc, ih]

private theorem undelta_set (prev : U32) (ds : List U32) (k : Nat) (d e : U32) (h : ds[k]? = some d) :
    undelta prev (ds.set k e) = (undelta prev ds).take k ++ ((undelta prev ds).drop k).map (· + (e - d)) := by
  induction ds generalizing prev k with
  | nil => simp at h
  | cons a ds ih =>
    cases k with
    | zero =>
      simp only [List.getElem?_cons_zero, Option.some.injEq] at h
      subst h
      have e1 : e + prev = a + prev + (e - a) := by
        rw [BitVec.add_comm a prev, BitVec.add_assoc, BitVec.add_comm a, BitVec.sub_add_cancel, BitVec.add_comm]
      simp only [List.set_cons_zero, undelta, List.take_zero, List.nil_append, List.drop_zero, List.map_cons]
      rw [e1, undelta_add]
    | succ k =>
      simp only [List.set_cons_succ, undelta, List.take_succ_cons, List.drop_succ_cons, List.cons_append]
      rw [ih (a + prev) k (by simpa using h)]

/-- C82: the delta readers deliver the numbers before `k` as before, and from `k` on all shifted by the change of the
difference. -/
theorem C82_patch_delta (f g : Fn) (prev : U32) (h : ReaderPre n st out m) (h' : ReaderPre n st out' m')
    (hlen : needed m st n ≤ st.len) (hk : k < n) (hl : (lengths n (bytesOf m st))[k]? = some l) (hy : y < 256 ^ l)
    (ho : Overwritten m m' st (dataPlace n (bytesOf m st) k) l y) :
    ∃ m₁ m₂, run (f.readDelta n st out prev) m = (.ok (), m₁) ∧ run (g.readDelta n st out' prev) m' = (.ok (), m₂) ∧
      ∃ d : U32, (delta prev (wordsN m₁ out n))[k]? = some d ∧
        wordsN m₂ out' n = (wordsN m₁ out n).take k ++ ((wordsN m₁ out n).drop k).map (· + (BitVec.ofNat 32 y - d)) := by
  obtain ⟨xs, hd⟩ := decode_isSome.2 (show ctrlLen n + (lengths n (bytesOf m st)).sum ≤ (bytesOf m st).length by
    rw [bytesOf_length]; exact hlen)
  have hd' := patched hd hk hl hy ho
  have hxl := decode_length hd
  have h1 := (readDelta_result f prev h).1
  have h2 := (readDelta_result g prev h').1
  rw [decodeDelta, hd] at h1
  rw [decodeDelta, hd'] at h2
  obtain ⟨m₁, e1, w1⟩ := h1
  obtain ⟨m₂, e2, w2⟩ := h2
  have hx : xs[k]? = some xs[k] := List.getElem?_eq_getElem (by omega)
  exact ⟨m₁, m₂, e1, e2, xs[k], by rw [w1, delta_undelta, hx], by rw [w1, w2, undelta_set _ _ _ _ _ hx]⟩

end

/-! ## Examples -/

-- Two inputs that differ in numbers 2 and 3, of other lengths too.
theorem exPatch_wrote (f : Fn) (xs : List U32) {n : Nat} (h : n ≤ 100) :
    ∃ r, WroteBytes f (.heap 7) (exSizeIn n) (exSizeMem xs) r := by
  obtain ⟨m', e, hb, -⟩ := (write_result f (exSize_pre xs h)).ex
  exact ⟨_, _, m', e, hb⟩
example {r s : List Byte} (hr : WroteBytes .fast (.heap 7) (exSizeIn 6) (exSizeMem [1, 2, 3, 4, 500, 6]) r)
    (hs : WroteBytes .scalar (.heap 7) (exSizeIn 6) (exSizeMem [1, 2, 70000, 400, 500, 6]) s) : SameOutside 6 2 4 r s := by
  refine C82_exchange (exSize_pre _ (by decide)) (exSize_pre _ (by decide)) hr hs rfl fun k hk => ?_
  rw [show wordsOf (exSizeMem [1, 2, 3, 4, 500, 6]) (exSizeIn 6) = [1, 2, 3, 4, 500, 6] by decide +kernel,
    show wordsOf (exSizeMem [1, 2, 70000, 400, 500, 6]) (exSizeIn 6) = [1, 2, 70000, 400, 500, 6] by decide +kernel]
  match k, hk with
  | 0, _ => rfl
  | 1, _ => rfl
  | 2, h => omega
  | 3, h => omega
  | 4, _ => rfl
  | 5, _ => rfl
  | _ + 6, _ => rfl
example {r s : List Byte} (hr : WroteBytes .fast (.heap 7) (exSizeIn 3) (exSizeMem [1, 300, 3]) r)
    (hs : WroteBytes .fast (.heap 7) (exSizeIn 3) (exSizeMem [1, 400, 3]) s) :
    s = r.take (dataPlace 3 r 1) ++ leBytes 400 ++ r.drop (dataPlace 3 r 1 + 2) :=
  C82_overwrite (exSize_pre _ (by decide)) (exSize_pre _ (by decide)) hr hs (k := 1) (x := 300) (by decide +kernel)
    (by decide +kernel) rfl

-- The last number of the stream of C07 has three bytes, from position 31 on; here 513 is put there.
example : (lengths 19 (bytesOf exRMem exSt))[18]? = some 3 ∧ dataPlace 19 (bytesOf exRMem exSt) 18 = 31 := by decide +kernel
theorem exPatchReader : ReaderPre 19 exSt exOut (memWith [] (exStream.take 31 ++ [1, 2, 0] ++ exStream.drop 34)) :=
  ⟨memWith_tables _ _, by decide, ⟨by decide, rfl, by decide⟩, .inl (by decide), by decide⟩
example := C82_patch .fast .scalar (k := 18) (l := 3) (y := 513) exReader exPatchReader (by decide +kernel) (by decide)
  (by decide +kernel) (by decide) (by unfold Overwritten; decide +kernel)
example := C82_patch_delta .fast .scalar 7 (k := 18) (l := 3) (y := 513) exReader exPatchReader (by decide +kernel) (by decide)
  (by decide +kernel) (by decide) (by unfold Overwritten; decide +kernel)

end SVB.Props
