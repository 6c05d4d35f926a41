import Verif.Model.Replace
import Verif.Props.Blocks
import Verif.Props.Safety
import Verif.Props.Extract

/-! # C89: a group of a stream replaced in place -/

set_option autoImplicit false

namespace SVB.Props
open Spec

/-! ## Lists and memory -/

theorem ctrls_one {g : List U32} (h : g ≠ []) (h4 : g.length ≤ 4) : ctrls g = [ctrlByte g] := by
  cases g with
  | nil => exact absurd rfl h
  | cons x xs =>
    simp only [List.length_cons] at h4
    rw [ctrls_cons, List.take_of_length_le (by omega), List.drop_eq_nil_of_le (by omega), ctrls_nil]

/-- If `st` holds `P`, `G`, `Q` and the place of `G` is overwritten by as many bytes `W`, it holds `P`, `W`, `Q`. -/
theorem patch_bytes {m m' : Mem} {st : Bytes} {P G Q W : List Byte} (h : bytesOf m st = P ++ G ++ Q) (hl : W.length = G.length)
    (hw : ∀ (i : Nat) (h : i < W.length), m' ⟨st.blk, st.off + (P.length + i)⟩ = W[i])
    (hf : ∀ i, i < st.len → ¬ (P.length ≤ i ∧ i < P.length + G.length) → m' ⟨st.blk, st.off + i⟩ = m ⟨st.blk, st.off + i⟩) :
    bytesOf m' st = P ++ W ++ Q := by
  have hlen : st.len = P.length + G.length + Q.length := by
    rw [← bytesOf_length m st, h, List.length_append, List.length_append]
  refine List.ext_getElem (by rw [bytesOf_length]; simp only [List.length_append]; omega) fun i h1 h2 => ?_
  have h1' : i < st.len := by rwa [bytesOf_length] at h1
  have e : (bytesOf m' st)[i] = m' ⟨st.blk, st.off + i⟩ := by simp [bytesOf]
  rw [e]
  have hold : m ⟨st.blk, st.off + i⟩ = (P ++ G ++ Q)[i]'(by simp only [List.length_append]; omega) := by
    have : (bytesOf m st)[i]'(by rw [bytesOf_length]; exact h1') = m ⟨st.blk, st.off + i⟩ := by simp [bytesOf]
    rw [← this]
    exact List.getElem_of_eq h _
  by_cases hi : P.length ≤ i ∧ i < P.length + G.length
  · have := hw (i - P.length) (by omega)
    rw [show P.length + (i - P.length) = i by omega] at this
    rw [this, List.getElem_append_left (by rw [List.length_append]; omega), List.getElem_append_right (by omega)]
  · rw [hf i h1' hi, hold]
    by_cases hp : i < P.length
    · rw [List.getElem_append_left (by rw [List.length_append]; omega), List.getElem_append_left hp,
        List.getElem_append_left (by rw [List.length_append]; omega), List.getElem_append_left hp]
    · rw [List.getElem_append_right (by rw [List.length_append]; omega),
        List.getElem_append_right (by rw [List.length_append]; omega)]
      simp only [List.length_append, hl]

/-- What a group to be put into a plain stream (`none`) or into a delta stream after the number `prev` encodes to. -/
def groupVals (prev : Option U32) (xs : List U32) : List U32 :=
  match prev with
  | none => xs
  | some p => delta p xs

theorem groupVals_length (prev : Option U32) (xs : List U32) : (groupVals prev xs).length = xs.length := by
  cases prev with
  | none => rfl
  | some p => exact delta_length p xs

/-! ## One group -/

private theorem putGroup_res (prev : Option U32) {nums : U32s} {out : Bytes} {m : Mem} (h4 : nums.len ≤ 4) (hd : Disjoint nums out) :
    EncRes (putGroup prev nums out) (ctrlByte (groupVals prev (wordsOf m nums)))
      (nums.len ≤ nums.len ∧ (dataBytes (groupVals prev (wordsOf m nums))).length ≤ out.len)
      (groupVals prev (wordsOf m nums)) out (dataBytes (groupVals prev (wordsOf m nums))).length m := by
  have e : nums.len = min ((nums.len : Nat) : Int).toNat 4 := by rw [Int.toNat_natCast]; omega
  cases prev with
  | none => exact putUint32_res (m := m) (n := nums.len) e hd
  | some p => exact putUint32Delta_res (m := m) (n := nums.len) p e hd

variable {prev : Option U32} {st : Bytes} {nums : U32s} {m : Mem} {ys : List U32} {t : List Byte} {k : Nat}

/-- The stream `st` holds the encoding of `ys` and then `t`; `nums` has as many numbers as group `k`, and lies elsewhere. -/
structure ReplacePre (st : Bytes) (nums : U32s) (m : Mem) (ys : List U32) (t : List Byte) (k : Nat) : Prop where
  tables : TablesLoaded m
  cap : st.len ≤ st.cap
  blk : nums.blk ≠ st.blk
  bytes : bytesOf m st = encode ys ++ t
  group : 4 * k < ys.length
  count : nums.len = min 4 (ys.length - 4 * k)

/-- The place of the data of group `k` in the stream. -/
def groupPlace (ys : List U32) (k : Nat) : Nat := ctrlLen ys.length + (dataBytes (ys.take (4 * k))).length

/-- The numbers of group `k`. -/
def groupOf (ys : List U32) (k : Nat) : List U32 := (ys.drop (4 * k)).take 4

private theorem parts (ys : List U32) (k : Nat) : ys = ys.take (4 * k) ++ groupOf ys k ++ ys.drop (4 * k + 4) := by
  unfold groupOf
  rw [List.append_assoc, show ys.drop (4 * k + 4) = (ys.drop (4 * k)).drop 4 by rw [List.drop_drop], List.take_append_drop,
    List.take_append_drop]

private theorem take_next (ys : List U32) (k : Nat) : ys.take (4 * (k + 1)) = ys.take (4 * k) ++ groupOf ys k := by
  unfold groupOf
  rw [show 4 * (k + 1) = 4 * k + 4 by omega, List.take_add]

/-- The call up to the encoding of the group. -/
private theorem start (h : ReplacePre st nums m ys t k) :
    groupPlace ys k + (dataBytes (groupOf ys k)).length ≤ st.len ∧
    run (replaceGroup prev ys.length k st nums) m =
      run ((putGroup prev nums ⟨st.blk, st.off + 1 * groupPlace ys k, (dataBytes (groupOf ys k)).length,
        (dataBytes (groupOf ys k)).length⟩).bind fun c => setB st k c) m := by
  have hlen : st.len = (encode ys).length + t.length := by rw [← bytesOf_length m st, h.bytes, List.length_append]
  have hcl : (encode ys).length = ctrlLen ys.length + (dataBytes ys).length := by
    rw [encode, List.length_append, ctrls_length]
  have hg := h.group
  have hcap := h.cap
  have hk : k + 1 ≤ ctrlLen ys.length := by unfold ctrlLen; omega
  have hx := (dataBefore_run h.tables h.bytes k (by omega)).1
  have hy := (dataBefore_run h.tables h.bytes (k + 1) hk).1
  have d : dataBytes ys = dataBytes (ys.take (4 * k)) ++ dataBytes (groupOf ys k) ++ dataBytes (ys.drop (4 * k + 4)) := by
    conv => lhs; rw [parts ys k]
    rw [dataBytes_append, dataBytes_append]
  have dl := congrArg List.length d
  simp only [List.length_append] at dl
  rw [take_next, dataBytes_append, List.length_append] at hy
  unfold groupPlace
  generalize (dataBytes (ys.take (4 * k))).length = X at *
  generalize (dataBytes (groupOf ys k)).length = Y at *
  refine ⟨by omega, ?_⟩
  have hr : st.range (((ys.length + 3) / 4 : Nat) + (X : Int)) (((ys.length + 3) / 4 : Nat) + ((X + Y : Nat) : Int)) =
      .ret ⟨st.blk, st.off + 1 * (ctrlLen ys.length + X), Y, st.cap - (ctrlLen ys.length + X)⟩ := by
    have ec : ctrlLen ys.length = (ys.length + 3) / 4 := rfl
    rw [Slice.range, if_pos ⟨by omega, by omega, by omega⟩, ec]
    congr 2 <;> omega
  have e : replaceGroup prev ys.length k st nums = (dataBefore ys.length k st).bind fun x =>
    (dataBefore ys.length (k + 1) st).bind fun y => (st.range (((ys.length + 3) / 4 : Nat) + x) (((ys.length + 3) / 4 : Nat) + y)).bind
      fun d => (putGroup prev nums ⟨d.blk, d.off, d.len, d.len⟩).bind fun c => setB st k c := rfl
  rw [e, run_bind, hx]
  show run ((dataBefore ys.length (k + 1) st).bind _) m = _
  rw [run_bind, hy]
  show run ((st.range (((ys.length + 3) / 4 : Nat) + (X : Int)) (((ys.length + 3) / 4 : Nat) + ((X + Y : Nat) : Int))).bind _) m = _
  rw [hr]
  rfl

/-- C89: if the new numbers need as many bytes as those of the group, the stream becomes exactly the encoding with the new numbers in
place of the group; nothing changes but the data and the control byte of the group. -/
theorem C89_replace (h : ReplacePre st nums m ys t k)
    (hs : (dataBytes (groupVals prev (wordsOf m nums))).length = (dataBytes (groupOf ys k)).length) :
    ∃ m', run (replaceGroup prev ys.length k st nums) m = (.ok (), m') ∧
      bytesOf m' st = encode (ys.take (4 * k) ++ groupVals prev (wordsOf m nums) ++ ys.drop (4 * k + 4)) ++ t ∧
      ∀ q : Ptr, ¬ (q.blk = st.blk ∧ (q.off = st.off + k ∨
        st.off + groupPlace ys k ≤ q.off ∧ q.off < st.off + groupPlace ys k + (dataBytes (groupOf ys k)).length)) → m' q = m q := by
  obtain ⟨hle, hrun⟩ := start (prev := prev) h
  have hg := h.group
  have hcount := h.count
  have hblk := h.blk
  have hk : k < ctrlLen ys.length := by unfold ctrlLen; omega
  have hpl : k < groupPlace ys k := by unfold groupPlace; omega
  have hres := putGroup_res prev (m := m) (nums := nums) (out := ⟨st.blk, st.off + 1 * groupPlace ys k,
    (dataBytes (groupOf ys k)).length, (dataBytes (groupOf ys k)).length⟩) (by omega) (.inl hblk)
  have hvl : (groupVals prev (wordsOf m nums)).length = min 4 (ys.length - 4 * k) := by
    rw [groupVals_length, wordsOf_length, hcount]
  have hgl : (groupOf ys k).length = min 4 (ys.length - 4 * k) := by
    unfold groupOf
    rw [List.length_take, List.length_drop]
  generalize groupVals prev (wordsOf m nums) = vs at *
  obtain ⟨m1, r1, b1⟩ := hres.good ⟨Nat.le_refl _, Nat.le_of_eq hs⟩
  have f1 := hres.frame
  rw [r1, hs] at f1
  -- the data are there
  have hparts : bytesOf m st = (ctrls ys ++ dataBytes (ys.take (4 * k))) ++ dataBytes (groupOf ys k) ++
      (dataBytes (ys.drop (4 * k + 4)) ++ t) := by
    rw [h.bytes, encode]
    conv => lhs; arg 1; arg 2; rw [parts ys k]
    rw [dataBytes_append, dataBytes_append]
    simp only [List.append_assoc]
  have lP : (ctrls ys ++ dataBytes (ys.take (4 * k))).length = groupPlace ys k := by rw [List.length_append, ctrls_length]; rfl
  have p1 : bytesOf m1 st = (ctrls ys ++ dataBytes (ys.take (4 * k))) ++ dataBytes vs ++ (dataBytes (ys.drop (4 * k + 4)) ++ t) := by
    refine patch_bytes hparts hs (fun i hi => ?_) fun i hi hn => ?_
    · rw [lP]
      have e : (dataBytes vs)[i] = ((bytesOf m1 (⟨st.blk, st.off + 1 * groupPlace ys k, (dataBytes (groupOf ys k)).length,
          (dataBytes (groupOf ys k)).length⟩ : Bytes)).take (dataBytes vs).length)[i]'(by rw [b1]; exact hi) := List.getElem_of_eq b1.symm _
      rw [e]
      simp only [List.getElem_take, bytesOf, List.getElem_map, List.getElem_range]
      rw [Nat.one_mul, Nat.add_assoc]
    · rw [lP] at hn
      exact f1 _ fun hq => hn ⟨by have := hq.2.1; simp only [Nat.one_mul] at this; omega,
        by have := hq.2.2; simp only [Nat.one_mul] at this; omega⟩
  -- the control byte
  have hset : run (setB st k (ctrlByte vs)) m1 = (.ok (), m1.set ⟨st.blk, st.off + k⟩ (ctrlByte vs)) := by
    unfold setB
    rw [if_pos ⟨by omega, by omega⟩]
    rfl
  refine ⟨_, by rw [hrun, run_bind, r1]; exact hset, ?_, fun q hq => ?_⟩
  · have gne : ∀ {g : List U32}, g.length = min 4 (ys.length - 4 * k) → g ≠ [] := fun h e => by rw [e, List.length_nil] at h; omega
    have lA : (ctrls (ys.take (4 * k))).length = k := by
      rw [ctrls_length, List.length_take, Nat.min_eq_left (by omega)]; unfold ctrlLen; omega
    -- the control bytes when the group holds any numbers `g`
    have hc : ∀ g : List U32, g.length = min 4 (ys.length - 4 * k) →
        ctrls (ys.take (4 * k) ++ g ++ ys.drop (4 * k + 4)) = ctrls (ys.take (4 * k)) ++ [ctrlByte g] ++ ctrls (ys.drop (4 * k + 4)) := by
      intro g hl
      have h1 : ctrls (g ++ ys.drop (4 * k + 4)) = [ctrlByte g] ++ ctrls (ys.drop (4 * k + 4)) := by
        rw [← ctrls_one (gne hl) (by omega)]
        by_cases h4 : 4 ≤ ys.length - 4 * k
        · exact ctrls_append _ _ (by omega)
        · rw [List.drop_eq_nil_of_le (by omega), ctrls_nil, List.append_nil, List.append_nil]
      rw [List.append_assoc, ctrls_append _ _ (by rw [List.length_take]; omega), h1, List.append_assoc]
    have p2 := p1
    rw [show ctrls ys = ctrls (ys.take (4 * k)) ++ [ctrlByte (groupOf ys k)] ++ ctrls (ys.drop (4 * k + 4)) by
      rw [← hc _ hgl, ← parts]] at p2
    rw [encode, hc vs hvl, dataBytes_append, dataBytes_append]
    have p3 : bytesOf m1 st = ctrls (ys.take (4 * k)) ++ [ctrlByte (groupOf ys k)] ++
        (ctrls (ys.drop (4 * k + 4)) ++ (dataBytes (ys.take (4 * k)) ++ (dataBytes vs ++ (dataBytes (ys.drop (4 * k + 4)) ++ t)))) := by
      rw [p2]; simp only [List.append_assoc]
    have p4 := patch_bytes (m' := m1.set ⟨st.blk, st.off + k⟩ (ctrlByte vs)) (W := [ctrlByte vs]) p3 rfl (fun i hi => by
        rw [List.length_singleton] at hi
        obtain rfl : i = 0 := by omega
        rw [lA]
        exact if_pos rfl) fun i _ hn => by
        rw [lA, List.length_singleton] at hn
        refine if_neg fun e => hn ?_
        have := congrArg Ptr.off e
        simp only at this
        omega
    rw [p4]
    simp only [List.append_assoc]
  · have e : m1.set ⟨st.blk, st.off + k⟩ (ctrlByte vs) q = m1 q := if_neg fun e => hq (by rw [e]; exact ⟨rfl, .inl rfl⟩)
    rw [e]
    exact f1 q fun h => hq ⟨h.1, .inr ⟨by have := h.2.1; simp only [Nat.one_mul] at this; omega,
      by have := h.2.2; simp only [Nat.one_mul] at this; omega⟩⟩

/-- C89: if the new numbers need more bytes, the call panics; nothing changes but bytes of the data of the group. -/
theorem C89_larger (h : ReplacePre st nums m ys t k) (hn : nums.len ≤ nums.cap) (hh : st.blk.isConst = false)
    (hs : (dataBytes (groupOf ys k)).length < (dataBytes (groupVals prev (wordsOf m nums))).length) :
    ∃ e m', run (replaceGroup prev ys.length k st nums) m = (.panic e, m') ∧ BoundsPanic e ∧
      ∀ q : Ptr, ¬ (q.blk = st.blk ∧ st.off + groupPlace ys k ≤ q.off ∧
        q.off < st.off + groupPlace ys k + (dataBytes (groupOf ys k)).length) → m' q = m q := by
  obtain ⟨hle, hrun⟩ := start (prev := prev) h
  have hcount := h.count
  have hres := putGroup_res prev (m := m) (nums := nums) (out := ⟨st.blk, st.off + 1 * groupPlace ys k,
    (dataBytes (groupOf ys k)).length, (dataBytes (groupOf ys k)).length⟩) (by omega) (.inl h.blk)
  obtain ⟨e, m1, r1, b1⟩ := hres.bad fun c => by have := c.2; simp only at this; omega
  refine ⟨e, m1, by rw [hrun, run_bind, r1], b1, fun q hq => ?_⟩
  have ha : AnyArgs nums (⟨st.blk, st.off + 1 * groupPlace ys k, (dataBytes (groupOf ys k)).length,
    (dataBytes (groupOf ys k)).length⟩ : Bytes) m := ⟨h.tables, hn, Nat.le_refl _, hh⟩
  have hst : Stays (putGroup prev nums ⟨st.blk, st.off + 1 * groupPlace ys k, (dataBytes (groupOf ys k)).length,
      (dataBytes (groupOf ys k)).length⟩) m (fun q => inCap nums q ∨ inTables q) (inCap (⟨st.blk, st.off + 1 * groupPlace ys k,
      (dataBytes (groupOf ys k)).length, (dataBytes (groupOf ys k)).length⟩ : Bytes)) := by
    cases prev with
    | none => exact C12_putUint32 _ ha
    | some p => exact C12_putUint32Delta _ p ha
  have hm : m1 = (run (putGroup prev nums ⟨st.blk, st.off + 1 * groupPlace ys k, (dataBytes (groupOf ys k)).length,
      (dataBytes (groupOf ys k)).length⟩) m).2 := by rw [r1]
  rw [hm]
  refine run_frame _ _ _ fun hw => hq ?_
  have := hst.stores q hw
  simp only [inCap, Nat.one_mul] at this
  exact ⟨this.1, by omega, by omega⟩

/-- C89: in a delta stream the new numbers, whose last one is that of the old group, take the place of the group. -/
theorem C89_replace_delta {xs : List U32} {p : U32} (h : ReplacePre st nums m (delta p xs) t k)
    (hs : (dataBytes (delta (if k = 0 then p else xs.getD (4 * k - 1) 0) (wordsOf m nums))).length =
      (dataBytes (groupOf (delta p xs) k)).length)
    (hlast : (wordsOf m nums).getLast? = (groupOf xs k).getLast?) :
    ∃ m', run (replaceGroup (some (if k = 0 then p else xs.getD (4 * k - 1) 0)) xs.length k st nums) m = (.ok (), m') ∧
      bytesOf m' st = encode (delta p (xs.take (4 * k) ++ wordsOf m nums ++ xs.drop (4 * k + 4))) ++ t ∧
      ∀ q : Ptr, ¬ (q.blk = st.blk ∧ (q.off = st.off + k ∨ st.off + groupPlace (delta p xs) k ≤ q.off ∧
        q.off < st.off + groupPlace (delta p xs) k + (dataBytes (groupOf (delta p xs) k)).length)) → m' q = m q := by
  obtain ⟨m', r, b, f⟩ := C89_replace (prev := some (if k = 0 then p else xs.getD (4 * k - 1) 0)) h hs
  have hg := h.group
  have hc := h.count
  rw [delta_length] at r hg hc
  refine ⟨m', r, ?_, f⟩
  rw [b]
  have hA : (if k = 0 then p else xs.getD (4 * k - 1) 0) = (xs.take (4 * k)).getLast?.getD p := by
    split
    · subst k; simp
    · rw [List.getLast?_eq_getElem?, List.length_take, Nat.min_eq_left (by omega), List.getElem?_take_of_lt (by omega),
        List.getElem?_eq_getElem (by omega), Option.getD_some, List.getD_eq_getElem?_getD, List.getElem?_eq_getElem (by omega),
        Option.getD_some]
  have hx : delta p xs = delta p (xs.take (4 * k)) ++ delta ((xs.take (4 * k)).getLast?.getD p) (groupOf xs k) ++
      delta ((xs.take (4 * k) ++ groupOf xs k).getLast?.getD p) (xs.drop (4 * k + 4)) := by
    conv => lhs; rw [parts xs k]
    rw [delta_append, delta_append]
  have l1 : (delta p (xs.take (4 * k))).length = 4 * k := by rw [delta_length, List.length_take]; omega
  have e1 : (delta p xs).take (4 * k) = delta p (xs.take (4 * k)) := by
    rw [hx, List.append_assoc, List.take_left' l1]
  have e2 : (delta p xs).drop (4 * k + 4) = delta ((xs.take (4 * k) ++ groupOf xs k).getLast?.getD p) (xs.drop (4 * k + 4)) := by
    by_cases h4 : 4 * k + 4 ≤ xs.length
    · rw [hx, List.drop_left' (by rw [List.length_append, l1, delta_length, groupOf, List.length_take, List.length_drop]; omega)]
    · rw [List.drop_eq_nil_of_le (by rw [delta_length]; omega), List.drop_eq_nil_of_le (by omega)]
      rfl
  have e3 : (xs.take (4 * k) ++ groupOf xs k).getLast? = (xs.take (4 * k) ++ wordsOf m nums).getLast? := by
    rw [List.getLast?_append, List.getLast?_append, hlast]
  rw [e1, e2, e3, delta_append, delta_append, hA]
  rfl

/-! ## The vector encoders are no good for this -/

/-- C89: `Put8uint32Fast` sets the bytes after the encoding of the eight numbers to zero, up to 16 bytes after the data of the first
four. -/
theorem C89_fast_zeros {inn : U32s} {out : Bytes} {m : Mem} (hT : TablesLoaded m) :
    ∃ c m', run (put8uint32Fast inn out) m = (.ok c, m') ∧
      ∀ i, (dataBytes (wordsN m inn 8)).length ≤ i → i < (dataBytes (wordsN m inn 4)).length + 16 →
        m' ⟨out.blk, out.off + i⟩ = 0 := by
  have h := put8Fast_spec (fn (wordsN m inn 8)) 0 out.off inn out m hT rfl (fun k hk => word_wordsN m inn 8 k hk)
  obtain ⟨c, m', hr, ⟨-, -, hz⟩, -, -⟩ := run_of_wp h (fun _ _ h => h)
  refine ⟨c, m', hr, fun i h1 h2 => hz _ ?_ ?_⟩
  · have := offs_length (wordsN m inn 8)
    rw [wordsN_length] at this
    simp only [Nat.zero_add]
    omega
  · have h4 := offs_eq (wordsN m inn 8) 4 (by rw [wordsN_length]; omega)
    have e4 : (wordsN m inn 8).take 4 = wordsN m inn 4 := by
      unfold wordsN
      rw [← List.map_take, List.take_range]
      rfl
    rw [e4] at h4
    simp only [Nat.zero_add]
    omega

/-- C89: `Put8uint32DeltaFast` does the same. -/
theorem C89_fast_zeros_delta {inn : U32s} {out : Bytes} {m : Mem} (prev : U32) (hT : TablesLoaded m) :
    ∃ c m', run (put8uint32DeltaFast inn out prev) m = (.ok c, m') ∧
      ∀ i, (dataBytes (delta prev (wordsN m inn 8))).length ≤ i →
        i < (dataBytes (delta prev (wordsN m inn 4))).length + 16 → m' ⟨out.blk, out.off + i⟩ = 0 := by
  have hx : (delta prev (wordsN m inn 8)).length = 8 := by rw [delta_length, wordsN_length]
  have h := put8DeltaFast_spec (fn (delta prev (wordsN m inn 8))) (fn (wordsN m inn 8)) 0 out.off inn out prev
    m hT rfl (fun k hk => word_wordsN m inn 8 k hk)
    (by rw [← delta_wordsN_zero m inn 8 prev (by omega), wordsN_fn m inn 8 0 (by omega)]; rfl)
    (fun k hk => by
      rw [← delta_wordsN_succ m inn 8 k prev (by omega), ← word_wordsN m inn 8 _ (by omega),
        ← word_wordsN m inn 8 _ (by omega)])
  obtain ⟨c, m', hr, ⟨-, -, hz⟩, -, -⟩ := run_of_wp h (fun _ _ h => h)
  refine ⟨c, m', hr, fun i h1 h2 => hz _ ?_ ?_⟩
  · have := offs_length (delta prev (wordsN m inn 8))
    rw [hx] at this
    simp only [Nat.zero_add]
    omega
  · have h4 := offs_eq (delta prev (wordsN m inn 8)) 4 (by omega)
    have e4 : (delta prev (wordsN m inn 8)).take 4 = delta prev (wordsN m inn 4) := by
      have e : wordsN m inn 8 = wordsN m inn 4 ++ (wordsN m inn 8).drop 4 := by
        have : (wordsN m inn 8).take 4 = wordsN m inn 4 := by
          unfold wordsN
          rw [← List.map_take, List.take_range]
          rfl
        rw [← this, List.take_append_drop]
      rw [e, delta_append, List.take_left' (by rw [delta_length, wordsN_length])]
    rw [e4] at h4
    simp only [Nat.zero_add]
    omega

/-- C89: so `Put8uint32Fast`, given the very numbers that are there, spoils the stream: the first byte of the number after the two
groups becomes zero, when the second of the groups has less than 16 bytes. -/
theorem C89_fast_spoils {inn : U32s} {st : Bytes} {m : Mem} {ys : List U32} {t : List Byte} {k : Nat} (hT : TablesLoaded m)
    (hb : bytesOf m st = encode ys ++ t) (hk : 4 * k + 8 < ys.length) (hi : wordsN m inn 8 = (ys.drop (4 * k)).take 8)
    (h16 : (dataBytes (groupOf ys (k + 1))).length < 16) :
    ∃ d c m', st.from (groupPlace ys k) = .ret d ∧ run (put8uint32Fast inn d) m = (.ok c, m') ∧
      m ⟨st.blk, st.off + groupPlace ys (k + 2)⟩ = (ys.getD (4 * k + 8) 0).setWidth 8 ∧
      m' ⟨st.blk, st.off + groupPlace ys (k + 2)⟩ = 0 := by
  have hlen : st.len = (encode ys).length + t.length := by rw [← bytesOf_length m st, hb, List.length_append]
  have hcl : (encode ys).length = ctrlLen ys.length + (dataBytes ys).length := by
    rw [encode, List.length_append, ctrls_length]
  have t2 : ys.take (4 * (k + 2)) = ys.take (4 * k) ++ (ys.drop (4 * k)).take 8 := by
    rw [show 4 * (k + 2) = 4 * k + 8 by omega, List.take_add]
  have g8 : (ys.drop (4 * k)).take 8 = groupOf ys k ++ groupOf ys (k + 1) := by
    unfold groupOf
    rw [show (8 : Nat) = 4 + 4 from rfl, List.take_add, List.drop_drop, show 4 * (k + 1) = 4 * k + 4 by omega]
  have w4 : wordsN m inn 4 = groupOf ys k := by
    have : (wordsN m inn 8).take 4 = wordsN m inn 4 := by
      unfold wordsN
      rw [← List.map_take, List.take_range]
      rfl
    rw [← this, hi, List.take_take]
    rfl
  have hd : dataBytes ys = dataBytes (ys.take (4 * (k + 2))) ++ (leBytes (ys.getD (4 * k + 8) 0) ++ dataBytes (ys.drop (4 * k + 9))) := by
    have : ys = ys.take (4 * (k + 2)) ++ ys.getD (4 * k + 8) 0 :: ys.drop (4 * k + 9) := by
      have e := List.take_append_drop (4 * k + 8) ys
      rw [List.drop_eq_getElem_cons hk] at e
      rw [List.getD_eq_getElem?_getD, List.getElem?_eq_getElem hk]
      exact e.symm
    conv => lhs; rw [this]
    rw [dataBytes_append, dataBytes_cons]
  have p2 : groupPlace ys (k + 2) = groupPlace ys k + (dataBytes (groupOf ys k)).length + (dataBytes (groupOf ys (k + 1))).length := by
    unfold groupPlace
    rw [t2, g8, dataBytes_append, dataBytes_append]
    simp only [List.length_append]
    omega
  have l1 : 1 ≤ (leBytes (ys.getD (4 * k + 8) 0)).length := by rw [leBytes_length]; exact (byteLen_bounds _).1
  have hdl := congrArg List.length hd
  simp only [List.length_append] at hdl
  have hle : groupPlace ys (k + 2) < st.len := by unfold groupPlace; omega
  obtain ⟨c, m', hr, hz⟩ := C89_fast_zeros (inn := inn) (out := ⟨st.blk, st.off + 1 * groupPlace ys k, st.len - groupPlace ys k,
    st.cap - groupPlace ys k⟩) hT
  refine ⟨_, c, m', ?_, hr, ?_, ?_⟩
  · rw [Slice.from, if_pos ⟨by omega, by omega⟩, Int.toNat_natCast]
  · have e : m ⟨st.blk, st.off + groupPlace ys (k + 2)⟩ = (bytesOf m st)[groupPlace ys (k + 2)]'(by rw [bytesOf_length]; exact hle) := by
      simp [bytesOf]
    rw [e, ← Option.some_inj, ← List.getElem?_eq_getElem, hb, encode, hd]
    have l0 : (ctrls ys ++ dataBytes (ys.take (4 * (k + 2)))).length = groupPlace ys (k + 2) := by
      rw [List.length_append, ctrls_length]; rfl
    rw [show ctrls ys ++ (dataBytes (ys.take (4 * (k + 2))) ++ (leBytes (ys.getD (4 * k + 8) 0) ++ dataBytes (ys.drop (4 * k + 9)))) ++ t =
      (ctrls ys ++ dataBytes (ys.take (4 * (k + 2)))) ++ (leBytes (ys.getD (4 * k + 8) 0) ++ (dataBytes (ys.drop (4 * k + 9)) ++ t)) by
      simp only [List.append_assoc], List.getElem?_append_right (by omega), l0, Nat.sub_self, List.getElem?_append_left (by omega)]
    generalize ys.getD (4 * k + 8) 0 = y at l1 ⊢
    rw [leBytes_length] at l1
    rw [leBytes, List.getElem?_map, List.getElem?_range l1, Option.map_some, Nat.pow_zero, Nat.div_one]
    refine congrArg some (BitVec.eq_of_toNat_eq ?_)
    rw [BitVec.toNat_ofNat, BitVec.toNat_setWidth]
  · have := hz (groupPlace ys (k + 2) - groupPlace ys k) (by rw [hi, g8, dataBytes_append, List.length_append]; omega)
      (by rw [w4]; omega)
    simp only [Nat.one_mul] at this
    rw [Nat.add_assoc, show groupPlace ys k + (groupPlace ys (k + 2) - groupPlace ys k) = groupPlace ys (k + 2) by omega] at this
    exact this

/-! ## Instances -/

def exNew : U32s := ⟨.heap 0, 0, 3, 3⟩

def exRepMem : Mem := memWith [70001, 8, 10, 1, 2, 3, 4, 5] (encode [1, 300, 3, 4, 9, 7, 70000] ++ [8, 8, 8])

/-- The last group, of three numbers, is replaced by numbers whose sizes are those of the old ones in another order. -/
example : ReplacePre ⟨.heap 1, 0, 15, 20⟩ exNew exRepMem [1, 300, 3, 4, 9, 7, 70000] [8, 8, 8] 1 :=
  ⟨memWith_tables _ _, by decide, by decide, by decide +kernel, by decide, by decide⟩
example : (dataBytes (groupVals none (wordsOf exRepMem exNew))).length = (dataBytes (groupOf [1, 300, 3, 4, 9, 7, 70000] 1)).length := by
  decide +kernel

def exRepMem' : Mem := memWith [70001, 800, 10] (encode [1, 300, 3, 4, 9, 7, 70000] ++ [8, 8, 8])

example : ReplacePre ⟨.heap 1, 0, 15, 20⟩ exNew exRepMem' [1, 300, 3, 4, 9, 7, 70000] [8, 8, 8] 1 :=
  ⟨memWith_tables _ _, by decide, by decide, by decide +kernel, by decide, by decide⟩
example : (dataBytes (groupOf [1, 300, 3, 4, 9, 7, 70000] 1)).length < (dataBytes (groupVals none (wordsOf exRepMem' exNew))).length := by
  decide +kernel

def exRepMem'' : Mem := memWith [311, 70315, 70324] (encode (delta 0 [1, 301, 304, 308, 317, 324, 70324]) ++ [8, 8, 8])

example : ReplacePre ⟨.heap 1, 0, 15, 20⟩ exNew exRepMem'' (delta 0 [1, 301, 304, 308, 317, 324, 70324]) [8, 8, 8] 1 :=
  ⟨memWith_tables _ _, by decide, by decide, by decide +kernel, by decide, by decide⟩
example : (dataBytes (delta ([1, 301, 304, 308, 317, 324, 70324].getD 3 0) (wordsOf exRepMem'' exNew))).length =
    (dataBytes (groupOf (delta 0 [1, 301, 304, 308, 317, 324, 70324]) 1)).length := by decide +kernel
example : (wordsOf exRepMem'' exNew).getLast? = (groupOf [1, 301, 304, 308, 317, 324, 70324] 1).getLast? := by decide +kernel

/-- Nine numbers: writing the first eight where they are destroys the ninth. -/
example := C89_fast_spoils (inn := ⟨.heap 0, 0, 8, 8⟩) (st := ⟨.heap 1, 0, 12, 12⟩)
  (m := memWith [1, 2, 3, 4, 5, 6, 7, 8] (encode [1, 2, 3, 4, 5, 6, 7, 8, 9])) (ys := [1, 2, 3, 4, 5, 6, 7, 8, 9]) (t := []) (k := 0)
  (memWith_tables _ _) (by decide +kernel) (by decide) (by decide +kernel) (by decide +kernel)

end SVB.Props
