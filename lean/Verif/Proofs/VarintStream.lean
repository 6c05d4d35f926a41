import Verif.Proofs.Varint
import Verif.Proofs.Results

/-! # The varint helpers: sequences -/

set_option autoImplicit false

namespace SVB
open Spec

/-! ## Writing -/

theorem varintsOf_append (a b : List U32) : varintsOf (a ++ b) = varintsOf a ++ varintsOf b := by
  simp [varintsOf]

theorem varintsOf_take_succ {xs : List U32} {n : Nat} (h : n < xs.length) :
    varintsOf (xs.take (n + 1)) = varintsOf (xs.take n) ++ varint (fn xs n).toNat := by
  rw [take_succ_getD h, varintsOf_append]; simp [varintsOf]

theorem varintsOf_take_le (xs : List U32) (n : Nat) : (varintsOf (xs.take n)).length ≤ (varintsOf xs).length := by
  conv => rhs; rw [← List.take_append_drop n xs, varintsOf_append, List.length_append]
  omega

theorem toNat_setWidth64 (v : U32) : ((v.setWidth 64 : U64)).toNat = v.toNat := by
  rw [BitVec.toNat_setWidth]; have := v.isLt; exact Nat.mod_eq_of_lt (by omega)

/-- Context of the two varint writers. -/
def vctx (nums : U32s) (out : Bytes) (ys : List U32) : Ctx :=
  ⟨inSlice nums, Seg out.blk out.off (out.off + out.len), fun k _ => k = .index ∧ out.len < (varintsOf ys).length⟩

/-- Memory after the first `n` numbers. -/
structure VI (out : Bytes) (ys : List U32) (m0 : Mem) (n : Nat) (pos : Int) (m : Mem) : Prop where
  len : n ≤ ys.length
  hpos : pos = ((varintsOf (ys.take n)).length : Nat)
  room : (varintsOf (ys.take n)).length ≤ out.len
  bytes : seq m out.blk out.off (varintsOf (ys.take n)).length = varintsOf (ys.take n)
  frame : ∀ q, ¬ Seg out.blk out.off (out.off + (varintsOf (ys.take n)).length) q → m q = m0 q

theorem VI.nums {nums : U32s} {out : Bytes} {ys : List U32} {m0 m : Mem} {n : Nat} {pos : Int}
    (h : VI out ys m0 n pos m) (hd : Disjoint nums out) {t : Nat} (ht : t < nums.len) :
    wordAt m nums.blk (nums.off + 4 * t) = fn (wordsOf m0 nums) t := by
  rw [← words_of m0 nums t ht]
  refine wordAt_congr fun k hk => h.frame _ ?_
  rintro ⟨h1, h2, h3⟩
  have := h.room
  simp only at h1 h2 h3
  rcases hd with hd | hd | hd
  · exact hd h1
  · omega
  · omega

/-- One number. -/
theorem put_step {nums : U32s} {out : Bytes} {ys : List U32} {m0 m : Mem} {n : Nat} {pos : Int} {x : U32}
    (h : VI out ys m0 n pos m) (hn : n < ys.length) (hx : x = fn ys n) (ho : out.len < 2 ^ 62)
    {β : Type} {f : Int → Prog β} {Q : β → Mem → Prop}
    (hQ : ∀ size m', VI out ys m0 (n + 1) (int64 (pos + size)) m' → wp (vctx nums out ys) (f size) m' Q) :
    wp (vctx nums out ys)
      ((putUvarint ⟨out.blk, out.off + 1 * (varintsOf (ys.take n)).length,
        out.len - (varintsOf (ys.take n)).length, out.cap - (varintsOf (ys.take n)).length⟩
        (x.setWidth 64)).bind f) m Q := by
  have e := varintsOf_take_succ hn
  have hl := congrArg List.length e
  rw [List.length_append] at hl
  have hle := varintsOf_take_le ys (n + 1)
  refine wp_call (putUvarint_spec (R := fun _ => False)
    (E := fun k _ => k = .index ∧ out.len < (varintsOf ys).length) fun m' hlt => ⟨rfl, ?_⟩) ?_ ?_ ?_ ?_
  · rw [toNat_setWidth64, hx] at hlt
    simp only at hlt
    have := h.room
    omega
  · exact fun _ h => h.elim
  · rintro q ⟨h1, h2, h3⟩
    simp only [Nat.one_mul] at h1 h2 h3
    have := h.room
    exact ⟨h1, by omega, by omega⟩
  · exact fun _ _ _ h => h
  · rintro size m' - ⟨h1, rfl, h3, h4⟩
    rw [toNat_setWidth64, hx] at *
    simp only [Nat.one_mul] at h1 h3 h4
    refine hQ _ _ ⟨hn, ?_, by have := h.room; omega, ?_, ?_⟩
    · rw [h.hpos, hl, int64_eq (by omega) (by have := h.room; omega)]; omega
    · rw [hl, seq_add, h3, e]
      congr 1
      refine .trans (seq_congr fun k hk => h4 _ ?_) h.bytes
      rintro ⟨-, h2, -⟩
      simp only at h2; omega
    · intro q hq
      rw [h4 q, h.frame q]
      · exact fun h' => hq ⟨h'.1, h'.2.1, by have := h'.2.2; omega⟩
      · exact fun h' => hq ⟨h'.1, by have := h'.2.1; omega, by have := h'.2.2; omega⟩

theorem VI.init (out : Bytes) (ys : List U32) (m : Mem) : VI out ys m 0 0 m :=
  ⟨by omega, by simp [varintsOf], by simp [varintsOf], by simp [varintsOf, seq_zero], fun _ _ => rfl⟩

theorem putVarint_spec {nums : U32s} {out : Bytes} {m : Mem} (hd : Disjoint nums out) (ho : out.len < 2 ^ 62) :
    wp (vctx nums out (wordsOf m nums)) (putVarint nums out) m
      (fun r m' => VI out (wordsOf m nums) m nums.len r m') := by
  have hl := wordsOf_length m nums
  unfold putVarint
  simp only [Prog.bind_eq, Prog.pure_eq]
  rw [wp_bind]
  refine wp_loop (fun (s : Int × Int) (m' : Mem) => ∃ n : Nat, s.1 = (n : Int) ∧ n ≤ nums.len ∧
      VI out (wordsOf m nums) m n s.2 m')
    (fun s : Int × Int => nums.len - s.1.toNat) ?_ ?_ ?_ ⟨0, rfl, by omega, VI.init _ _ _⟩ (by omega)
  · rintro ⟨i, pos⟩ m' ⟨n, hi, hn, hI⟩ hc
    simp only at hi hI ⊢; subst hi
    replace hc : n < nums.len := by simpa using hc
    rw [wp_bind]
    refine wp_from_ok _ hI.hpos hI.room ?_
    rw [wp_bind]
    refine wp_getW_ok n rfl hc (fun k hk => ⟨rfl, by simp only; omega, by simp only; omega⟩) ?_
    refine put_step hI (by omega) (hI.nums hd hc) ho fun size m'' hI' => ?_
    exact ⟨⟨n + 1, by simp, by omega, hI'⟩, by simp only; omega⟩
  · rintro ⟨i, pos⟩ m' ⟨n, hi, hn, hI⟩ hc
    simp only at hi; subst hi
    replace hc : n < nums.len := by simpa using hc
    simp only; omega
  · rintro ⟨i, pos⟩ m' ⟨n, hi, hn, hI⟩ hc
    simp only at hi; subst hi
    replace hc : nums.len ≤ n := by simpa using hc
    have : n = nums.len := by omega
    subst this
    exact hI

theorem putDeltaVarint_spec {nums : U32s} {out : Bytes} {m : Mem} (prev : U32) (hd : Disjoint nums out)
    (ho : out.len < 2 ^ 62) :
    wp (vctx nums out (delta prev (wordsOf m nums))) (putDeltaVarint nums out prev) m
      (fun r m' => VI out (delta prev (wordsOf m nums)) m nums.len r m') := by
  have hl := wordsOf_length m nums
  have hl' : (delta prev (wordsOf m nums)).length = nums.len := by rw [delta_length, hl]
  unfold putDeltaVarint
  simp only [Prog.bind_eq, Prog.pure_eq]
  rw [wp_bind]
  refine wp_loop (fun (s : Int × Int × U32) (m' : Mem) => ∃ n : Nat, s.1 = (n : Int) ∧ n ≤ nums.len ∧
      VI out (delta prev (wordsOf m nums)) m n s.2.1 m' ∧ s.2.2 = pv (fn (wordsOf m nums)) prev n)
    (fun s : Int × Int × U32 => nums.len - s.1.toNat) ?_ ?_ ?_
    ⟨0, rfl, by omega, VI.init _ _ _, rfl⟩ (by omega)
  · rintro ⟨i, pos, p⟩ m' ⟨n, hi, hn, hI, hp⟩ hc
    simp only at hi hI hp ⊢; subst hi
    replace hc : n < nums.len := by simpa using hc
    rw [wp_bind]
    refine wp_from_ok _ hI.hpos hI.room ?_
    rw [wp_bind]
    refine wp_getW_ok n rfl hc (fun k hk => ⟨rfl, by simp only; omega, by simp only; omega⟩) ?_
    refine put_step hI (by omega) ?_ ho fun size m'' hI' => ?_
    · rw [hI.nums hd hc, hp, delta_fn _ _ _ (by omega)]
    · rw [wp_bind]
      refine wp_getW_ok n rfl hc (fun k hk => ⟨rfl, by simp only; omega, by simp only; omega⟩) ?_
      exact ⟨⟨n + 1, by simp, by omega, hI', by rw [hI'.nums hd hc, pv_succ]⟩, by simp only; omega⟩
  · rintro ⟨i, pos⟩ m' ⟨n, hi, hn, hI⟩ hc
    simp only at hi; subst hi
    replace hc : n < nums.len := by simpa using hc
    simp only; omega
  · rintro ⟨i, pos⟩ m' ⟨n, hi, hn, hI⟩ hc
    simp only at hi; subst hi
    replace hc : nums.len ≤ n := by simpa using hc
    have : n = nums.len := by omega
    subst this
    exact hI.1

/-! ## Reading -/

/-- The numbers written by a reader that combines each decoded number with the previous result. -/
def scan (upd : U32 → U32 → U32) (prev : U32) : List U32 → List U32
  | [] => []
  | d :: ds => upd d prev :: scan upd (upd d prev) ds

theorem scan_length (upd : U32 → U32 → U32) (prev : U32) (ds : List U32) :
    (scan upd prev ds).length = ds.length := by
  induction ds generalizing prev with
  | nil => rfl
  | cons d ds ih => simp [scan, ih]

theorem scan_plain (prev : U32) (ds : List U32) : scan (fun d _ => d) prev ds = ds := by
  induction ds generalizing prev with
  | nil => rfl
  | cons d ds ih => simp [scan, ih]

theorem scan_delta (prev : U32) (ds : List U32) : scan (fun d p => d + p) prev ds = undelta prev ds := by
  induction ds generalizing prev with
  | nil => rfl
  | cons d ds ih => simp [scan, undelta, ih]

theorem scan_snoc (upd : U32 → U32 → U32) (prev d : U32) (ds : List U32) :
    scan upd prev (ds ++ [d]) = scan upd prev ds ++ [upd d ((scan upd prev ds).getLast?.getD prev)] := by
  induction ds generalizing prev with
  | nil => rfl
  | cons x ds ih =>
    simp only [List.cons_append, scan, ih, List.cons.injEq, true_and]
    congr 2
    cases h : scan upd (upd x prev) ds with
    | nil => rfl
    | cons a l => simp [List.getLast?_cons]

/-- The loop of `GetDeltaVarint` for a general way to combine; `GetVarint` is the same with an unused
`prev`. -/
def getGen (upd : U32 → U32 → U32) (data : Bytes) (out : U32s) (s : Int × Int × U32) : Prog (Int × Int × U32) :=
  (data.from s.1).bind fun d => (uvarint d).bind fun r =>
    (setW out s.2.1 (upd (r.1.setWidth 32) s.2.2)).bind fun _ =>
      .ret (int64 (s.1 + r.2), s.2.1 + 1, upd (r.1.setWidth 32) s.2.2)

theorem loop_sim {σ τ : Type} (φ : σ → τ) {cond : σ → Bool} {cond' : τ → Bool} {body : σ → Prog σ}
    {body' : τ → Prog τ} (hc : ∀ s, cond' (φ s) = cond s)
    (hb : ∀ s, body' (φ s) = (body s).bind fun s' => .ret (φ s')) (fuel : Nat) (s : σ) :
    loop fuel cond' body' (φ s) = (loop fuel cond body s).bind fun s' => .ret (φ s') := by
  induction fuel generalizing s with
  | zero => unfold loop; rw [hc]; split <;> rfl
  | succ n ih =>
    rw [loop, hc, loop]
    split
    · simp only [Prog.bind_eq]
      rw [hb, Prog.bind_assoc, Prog.bind_assoc]
      congr 1
      funext s'
      exact ih s'
    · rfl

theorem getVarint_gen (data : Bytes) (out : U32s) :
    getVarint data out = (loop (out.len + 1) (fun s : Int × Int × U32 => decide (s.1 < data.len))
      (getGen (fun d _ => d) data out) (0, 0, 0)).bind fun s => .ret s.1 := by
  unfold getVarint
  simp only [Prog.bind_eq, Prog.pure_eq]
  rw [show ((0 : Int), (0 : Int)) = (fun s : Int × Int × U32 => (s.1, s.2.1)) (0, 0, 0) from rfl,
    loop_sim (fun s : Int × Int × U32 => (s.1, s.2.1))
      (cond := fun s : Int × Int × U32 => decide (s.1 < data.len))
      (body := getGen (fun d _ => d) data out) (fun _ => rfl)
      (fun s => by
        unfold getGen
        simp only [Prog.bind_assoc, Prog.ret_bind]), Prog.bind_assoc]
  rfl

theorem getDeltaVarint_gen (data : Bytes) (out : U32s) (prev : U32) :
    getDeltaVarint data out prev = (loop (out.len + 1) (fun s : Int × Int × U32 => decide (s.1 < data.len))
      (getGen (fun d p => d + p) data out) (0, 0, prev)).bind fun s => .ret s.1 := rfl

/-! ### Group boundaries -/

theorem firstGroup_le {bs g : List Byte} {k : Nat} (hk : k < bs.length) (hb : (bs.getD k 0).toNat < 128)
    (h : firstGroup bs = some g) : g.length ≤ k + 1 := by
  induction bs generalizing g k with
  | nil => simp at hk
  | cons b bs ih =>
    unfold firstGroup at h
    split at h
    · cases h; simp
    · rename_i hn
      cases k with
      | zero => simp at hb; omega
      | succ k =>
        cases hf : firstGroup bs with
        | none => simp [hf] at h
        | some g' =>
          simp [hf] at h; subst h
          have := ih (k := k) (by simpa using hk) (by simpa using hb) hf
          simp only [List.length_cons]; omega

theorem firstGroup_exists {bs : List Byte} {k : Nat} (hk : k < bs.length) (hb : (bs.getD k 0).toNat < 128) :
    ∃ g, firstGroup bs = some g := by
  induction bs generalizing k with
  | nil => simp at hk
  | cons b bs ih =>
    unfold firstGroup
    split
    · exact ⟨_, rfl⟩
    · rename_i hn
      cases k with
      | zero => simp at hb; omega
      | succ k =>
        obtain ⟨g, hg⟩ := ih (k := k) (by simpa using hk) (by simpa using hb)
        exact ⟨b :: g, by rw [hg]; rfl⟩

theorem firstGroup_last {bs g : List Byte} (h : firstGroup bs = some g) :
    (bs.getD (g.length - 1) 0).toNat < 128 := by
  induction bs generalizing g with
  | nil => simp [firstGroup] at h
  | cons b bs ih =>
    unfold firstGroup at h
    split at h
    · cases h; simpa using ‹_›
    · cases hf : firstGroup bs with
      | none => simp [hf] at h
      | some g' =>
        simp [hf] at h; subst h
        have := firstGroup_length hf
        obtain ⟨l, hl⟩ : ∃ l, g'.length = l + 1 := ⟨g'.length - 1, by omega⟩
        have := ih hf
        rw [hl] at this
        simpa [hl] using this

/-- Position `B` starts the string or follows a byte below 128. -/
def Boundary (D : List Byte) (B : Nat) : Prop := B = 0 ∨ (D.getD (B - 1) 0).toNat < 128

theorem getD_drop (D : List Byte) (p k : Nat) : (D.drop p).getD k 0 = D.getD (p + k) 0 := by
  simp [List.getD_eq_getElem?_getD, List.getElem?_drop]

/-- State of the reading loop. -/
structure GI (out : U32s) (m0 : Mem) (n : Nat) (m : Mem) : Prop where
  room : n ≤ out.len
  frame : ∀ q, ¬ inFirst out n q → m q = m0 q

inductive GS (upd : U32 → U32 → U32) (prev : U32) (D : List Byte) (out : U32s) (n : Nat) (pos : Int) (p : U32)
    (m : Mem) : Prop where
  | good (a : Nat) (ys : List Nat) (ha : pos = a) (hal : a ≤ D.length) (hy : ys.length = n)
    (hD : parseVarints D = (parseVarints (D.drop a)).map (ys ++ ·)) (hb : Boundary D a)
    (hw : wordsN m out n = scan upd prev (ys.map (BitVec.ofNat 32)))
    (hp : p = (scan upd prev (ys.map (BitVec.ofNat 32))).getLast?.getD prev)
  | bad (B : Nat) (hB : B < D.length) (hpos : pos ≤ B) (hlow : -11 ≤ pos) (hb : Boundary D B)
    (hf : ∀ g, firstGroup (D.drop B) = some g → ¬ GroupOk g) (hD : parseVarints D = none)

theorem wordsN_succ (m : Mem) (s : U32s) (n : Nat) :
    wordsN m s (n + 1) = wordsN m s n ++ [wordAt m s.blk (s.off + 4 * n)] := by
  simp [wordsN, List.range_succ, wordAt]

theorem wordsN_congr' {m m' : Mem} {out : U32s} {n : Nat} (h : ∀ q, inFirst out n q → m q = m' q) :
    wordsN m out n = wordsN m' out n := by
  unfold wordsN
  refine List.map_congr_left fun i hi => ?_
  have := List.mem_range.1 hi
  rw [h ⟨_, _⟩ ⟨rfl, by simp only; omega, by simp only; omega⟩,
    h ⟨_, _⟩ ⟨rfl, by simp only; omega, by simp only; omega⟩,
    h ⟨_, _⟩ ⟨rfl, by simp only; omega, by simp only; omega⟩,
    h ⟨_, _⟩ ⟨rfl, by simp only; omega, by simp only; omega⟩]

/-- Context of the two varint readers; `D` are the bytes. -/
def gctx (data : Bytes) (out : U32s) (D : List Byte) : Ctx :=
  ⟨inSlice data, inSlice out,
    fun k _ => BoundsPanic k ∧ ∀ xs, parseVarints D = some xs → out.len < xs.length⟩

theorem getGen_loop {upd : U32 → U32 → U32} {data : Bytes} {out : U32s} {m : Mem} (prev : U32)
    (hd : Disjoint data out) (hlen : data.len < 2 ^ 62) :
    wp (gctx data out (bytesOf m data))
      (loop (out.len + 1) (fun s : Int × Int × U32 => decide (s.1 < data.len)) (getGen upd data out)
        (0, 0, prev)) m
      (fun s m' => s.1 = data.len ∧ ∃ xs, parseVarints (bytesOf m data) = some xs ∧ xs.length ≤ out.len ∧
        wordsN m' out xs.length = scan upd prev (xs.map (BitVec.ofNat 32)) ∧
        ∀ q, ¬ inFirst out xs.length q → m' q = m q) := by
  have hDl : (bytesOf m data).length = data.len := by simp [bytesOf]
  generalize hD0 : bytesOf m data = D at *
  refine wp_loop (fun (s : Int × Int × U32) (m' : Mem) => ∃ n : Nat, s.2.1 = (n : Int) ∧ GI out m n m' ∧
      GS upd prev D out n s.1 s.2.2 m')
    (fun s : Int × Int × U32 => out.len + 1 - s.2.1.toNat) ?_ ?_ ?_
    ⟨0, rfl, ⟨by omega, fun _ _ => rfl⟩,
      .good 0 [] rfl (by omega) rfl (by simp [List.drop_zero]) (.inl rfl) rfl rfl⟩ (by simp)
  · rintro ⟨pos, i, p⟩ m' ⟨n, hi, hG, hS⟩ hc
    simp only at hi hS; subst hi
    replace hc : pos < data.len := by simpa using hc
    unfold getGen
    simp only
    rw [wp_bind]
    refine wp_from (fun a ha hal => ?_) fun hneg => ⟨.inr rfl, fun xs hx => ?_⟩
    · -- the slice is in range
      have hbytes : bytesOf m' ⟨data.blk, data.off + 1 * a, data.len - a, data.cap - a⟩ = D.drop a := by
        rw [← hD0, bytesOf_seq, bytesOf_seq, seq_drop m _ _ hal, Nat.one_mul]
        refine seq_congr fun k hk => hG.frame _ ?_
        rintro ⟨h1, h2, h3⟩
        have := hG.room
        simp only at h1 h2 h3 hk
        rcases hd with hd | hd | hd
        · exact hd h1
        · omega
        · omega
      have hmono : ∀ q, inSlice (⟨data.blk, data.off + 1 * a, data.len - a, data.cap - a⟩ : Bytes) q →
          inSlice data q := by
        rintro q ⟨h1, h2, h3⟩
        simp only at h1 h2 h3
        exact ⟨h1, by omega, by omega⟩
      refine wp_call (uvarint_spec _ m') hmono (fun _ h => h.elim) (fun _ _ _ h => h.elim) ?_
      rintro ⟨v, r⟩ m1 - ⟨rfl, hr⟩
      rw [hbytes] at hr
      simp only at hr ⊢
      rw [wp_bind]
      -- the store of one number
      have store : ∀ (w : U32), n < out.len →
          (∀ m2, GI out m (n + 1) m2 → wordsN m2 out (n + 1) = wordsN m1 out n ++ [w] →
            GS upd prev D out (n + 1) (int64 (pos + r)) w m2) →
          w = upd (v.setWidth 32) p →
          wp (gctx data out D) (setW out n (upd (v.setWidth 32) p)) m1 (fun _ m2 =>
            wp (gctx data out D) (Prog.ret (int64 (pos + r), (n : Int) + 1, upd (v.setWidth 32) p)) m2
              (fun s' m' => (∃ n : Nat, s'.2.1 = (n : Int) ∧ GI out m n m' ∧
                GS upd prev D out n s'.1 s'.2.2 m') ∧ out.len + 1 - s'.2.1.toNat < out.len + 1 - n)) := by
        intro w hn hk hw
        refine wp_setW_ok n rfl hn (fun k hk => ⟨rfl, by simp only; omega, by simp only; omega⟩) ?_
        have hGI : GI out m (n + 1) (m1.set32 out.blk (out.off + 4 * n) (upd (v.setWidth 32) p)) := by
          refine ⟨by omega, fun q hq => ?_⟩
          rw [set32_other, hG.frame]
          · exact fun h => hq ⟨h.1, h.2.1, by have := h.2.2; omega⟩
          · exact fun h => hq ⟨h.1, by have := h.2.1; omega, by have := h.2.2; omega⟩
        refine ⟨⟨n + 1, by simp, hGI, ?_⟩, by simp only; omega⟩
        have := hk _ hGI (by
          rw [wordsN_succ, wordAt_set32_self, hw]
          congr 1
          refine wordsN_congr' fun q hq => set32_other _ _ _ _ _ ?_
          have := hq.2.2
          omega)
        rw [hw] at this
        exact this
      have hi64 : -11 ≤ r → r ≤ data.len → int64 (pos + r) = pos + r := fun h1 h2 =>
        int64_eq (by omega) (by omega)
      cases hS with
      | good a' ys ha' hal' hy hD hb hw hp =>
        have : a' = a := by omega
        subst this
        rcases hr with ⟨g, hg, hok, hv, hr⟩ | ⟨hbad, hv, hr1, hr2⟩
        · -- a proper varint
          obtain ⟨t, ht⟩ := firstGroup_prefix hg
          have hgl : a' + g.length ≤ data.len := by
            have := congrArg List.length ht
            simp only [List.length_drop, List.length_append, hDl] at this
            omega
          have hpos := firstGroup_length hg
          have hD' : parseVarints D = (parseVarints (D.drop (a' + g.length))).map
              ((ys ++ [groupValue g]) ++ ·) := by
            rw [hD, parseVarints_some hg hok, List.drop_drop, Option.map_map]
            congr 1
            funext l; simp
          by_cases hn : n < out.len
          · refine store _ hn (fun m2 hG2 hw2 => ?_) rfl
            have hv32 : (v.setWidth 32 : U32) = BitVec.ofNat 32 (groupValue g) := by
              apply BitVec.eq_of_toNat_eq
              rw [BitVec.toNat_setWidth, hv, BitVec.toNat_ofNat]
            have hsc : scan upd prev ((ys ++ [groupValue g]).map (BitVec.ofNat 32)) =
                scan upd prev (ys.map (BitVec.ofNat 32)) ++ [upd (v.setWidth 32) p] := by
              rw [List.map_append, List.map_singleton, scan_snoc, hv32, hp]
            refine .good (a' + g.length) (ys ++ [groupValue g]) ?_ (by omega) (by simp [hy]) hD' (.inr ?_) ?_ ?_
            · rw [hi64 (by omega) (by omega)]; omega
            · have := firstGroup_last hg
              rw [getD_drop] at this
              rw [show a' + g.length - 1 = a' + (g.length - 1) by omega]
              exact this
            · rw [hw2, hw, hsc]
            · rw [hsc]; simp
          · refine wp_setW (fun b hb hbl => by omega) fun _ => ⟨.inl rfl, fun xs hx => ?_⟩
            rw [hx] at hD'
            cases hpt : parseVarints (D.drop (a' + g.length)) with
            | none => rw [hpt] at hD'; cases hD'
            | some l =>
              rw [hpt] at hD'
              simp only [Option.map_some, Option.some.injEq] at hD'
              have := hG.room
              rw [hD']; simp; omega
        · -- a bad one: from now on the loop cannot end normally
          have hne : D.drop a' ≠ [] := by
            intro h
            have := congrArg List.length h
            simp only [List.length_drop, hDl, List.length_nil] at this
            omega
          have hDn : parseVarints D = none := by rw [hD, parseVarints_none hne hbad]; rfl
          by_cases hn : n < out.len
          · refine store _ hn (fun m2 hG2 hw2 => ?_) rfl
            rw [hi64 (by omega) (by omega)]
            exact .bad a' (by omega) (by omega) (by omega) hb hbad hDn
          · refine wp_setW (fun b hb hbl => by omega) fun _ => ⟨.inl rfl, fun xs hx => ?_⟩
            rw [hDn] at hx; cases hx
      | bad B hB hpB hlow hb hf hDn =>
        by_cases hn : n < out.len
        · refine store _ hn (fun m2 hG2 hw2 => ?_) rfl
          rcases hr with ⟨g, hg, hok, hv, hr⟩ | ⟨hbad, hv, hr1, hr2⟩
          · have hlt : a < B := by
              rcases Nat.lt_or_ge a B with h | h
              · exact h
              · have : a = B := by omega
                subst this
                exact absurd hok (hf g hg)
            have hBb : (D.getD (B - 1) 0).toNat < 128 := by
              rcases hb with h | h
              · omega
              · exact h
            have hle := firstGroup_le (bs := D.drop a) (k := B - 1 - a) (by rw [List.length_drop]; omega)
              (by rw [getD_drop, show a + (B - 1 - a) = B - 1 by omega]; exact hBb) hg
            rw [hi64 (by omega) (by omega)]
            exact .bad B hB (by omega) (by omega) hb hf hDn
          · rw [hi64 (by omega) (by omega)]
            exact .bad B hB (by omega) (by omega) hb hf hDn
        · refine wp_setW (fun b hb hbl => by omega) fun _ => ⟨.inl rfl, fun xs hx => ?_⟩
          rw [hDn] at hx; cases hx
    · cases hS with
      | good a' ys ha' hal' hy hD hb hw hp => omega
      | bad B hB hpB hlow hb hf hDn => rw [hDn] at hx; cases hx
  · rintro ⟨pos, i, p⟩ m' ⟨n, hi, hG, hS⟩ hc
    simp only at hi; subst hi
    have := hG.room
    simp only; omega
  · rintro ⟨pos, i, p⟩ m' ⟨n, hi, hG, hS⟩ hc
    simp only at hi hS; subst hi
    replace hc : data.len ≤ pos := by simpa using hc
    cases hS with
    | good a ys ha hal hy hD hb hw hp =>
      have ha' : a = data.len := by omega
      rw [ha', List.drop_of_length_le (by omega), parseVarints_nil] at hD
      simp only [Option.map_some, List.append_nil] at hD
      refine ⟨by simp only; omega, ys, hD, ?_, ?_, ?_⟩
      · rw [hy]; exact hG.room
      · rw [hy]; exact hw
      · rw [hy]; exact hG.frame
    | bad B hB hpB hlow hb hf hDn => omega

theorem getVarint_spec {data : Bytes} {out : U32s} {m : Mem} (hd : Disjoint data out) (hlen : data.len < 2 ^ 62) :
    wp (gctx data out (bytesOf m data)) (getVarint data out) m
      (fun r m' => r = data.len ∧ ∃ xs, parseVarints (bytesOf m data) = some xs ∧ xs.length ≤ out.len ∧
        wordsN m' out xs.length = xs.map (BitVec.ofNat 32) ∧
        ∀ q, ¬ inFirst out xs.length q → m' q = m q) := by
  rw [getVarint_gen, wp_bind]
  refine wp_mono (getGen_loop 0 hd hlen) ?_
  rintro s m' ⟨h1, xs, h2, h3, h4, h5⟩
  rw [scan_plain] at h4
  exact ⟨h1, xs, h2, h3, h4, h5⟩

theorem getDeltaVarint_spec {data : Bytes} {out : U32s} {m : Mem} (prev : U32) (hd : Disjoint data out)
    (hlen : data.len < 2 ^ 62) :
    wp (gctx data out (bytesOf m data)) (getDeltaVarint data out prev) m
      (fun r m' => r = data.len ∧ ∃ xs, parseVarints (bytesOf m data) = some xs ∧ xs.length ≤ out.len ∧
        wordsN m' out xs.length = undelta prev (xs.map (BitVec.ofNat 32)) ∧
        ∀ q, ¬ inFirst out xs.length q → m' q = m q) := by
  rw [getDeltaVarint_gen, wp_bind]
  refine wp_mono (getGen_loop prev hd hlen) ?_
  rintro s m' ⟨h1, xs, h2, h3, h4, h5⟩
  rw [scan_delta] at h4
  exact ⟨h1, xs, h2, h3, h4, h5⟩

end SVB

/-! ## Termination without any assumption on the slices -/

namespace SVB
open Spec

theorem getGen_total (upd : U32 → U32 → U32) (data : Bytes) (out : U32s) (m : Mem) (prev : U32) :
    wp ⟨inSlice data, inSlice out, fun k _ => BoundsPanic k⟩
      (loop (out.len + 1) (fun s : Int × Int × U32 => decide (s.1 < data.len)) (getGen upd data out)
        (0, 0, prev)) m (fun _ _ => True) := by
  refine wp_loop (fun (s : Int × Int × U32) (_ : Mem) => ∃ n : Nat, s.2.1 = (n : Int) ∧ n ≤ out.len)
    (fun s : Int × Int × U32 => out.len + 1 - s.2.1.toNat) ?_ ?_ (fun _ _ _ _ => trivial)
    ⟨0, rfl, by omega⟩ (by simp)
  · rintro ⟨pos, i, p⟩ m' ⟨n, hi, hn⟩ -
    simp only at hi; subst hi
    unfold getGen
    simp only
    rw [wp_bind]
    refine wp_from (fun a ha hal => ?_) fun _ => .inr rfl
    refine wp_call (uvarint_spec _ m') ?_ (fun _ h => h.elim) (fun _ _ _ h => h.elim) ?_
    · rintro q ⟨h1, h2, h3⟩
      simp only at h1 h2 h3
      exact ⟨h1, by omega, by omega⟩
    · rintro ⟨v, r⟩ m1 - -
      rw [wp_bind]
      refine wp_setW (fun b hb hbl => ⟨fun k hk => ⟨rfl, by simp only; omega, by simp only; omega⟩, ?_⟩)
        fun _ => .inl rfl
      exact ⟨⟨n + 1, by simp, by omega⟩, by simp only; omega⟩
  · rintro ⟨pos, i, p⟩ m' ⟨n, hi, hn⟩ -
    simp only at hi; subst hi
    simp only; omega

theorem getVarint_total (data : Bytes) (out : U32s) (m : Mem) :
    wp ⟨inSlice data, inSlice out, fun k _ => BoundsPanic k⟩ (getVarint data out) m (fun _ _ => True) := by
  rw [getVarint_gen, wp_bind]
  exact wp_mono (getGen_total _ data out m 0) fun _ _ _ => trivial

theorem getDeltaVarint_total (data : Bytes) (out : U32s) (prev : U32) (m : Mem) :
    wp ⟨inSlice data, inSlice out, fun k _ => BoundsPanic k⟩ (getDeltaVarint data out prev) m
      (fun _ _ => True) := by
  rw [getDeltaVarint_gen, wp_bind]
  exact wp_mono (getGen_total _ data out m prev) fun _ _ _ => trivial

/-! ## `Delta` -/

theorem utilDelta_spec {inn out : U32s} {m : Mem} (hd : Disjoint inn out) :
    wp ⟨inSlice inn, inSlice out, fun k _ => k = .index ∧ out.len < inn.len⟩ (utilDelta inn out) m
      (fun _ m' => inn.len ≤ out.len ∧ wordsN m' out inn.len = delta 0 (wordsOf m inn) ∧
        ∀ q, ¬ inFirst out inn.len q → m' q = m q) := by
  have hl := wordsOf_length m inn
  have hl' : (delta 0 (wordsOf m inn)).length = inn.len := by rw [delta_length, hl]
  unfold utilDelta
  simp only [Prog.bind_eq, Prog.pure_eq]
  rw [wp_bind]
  refine wp_loop (fun (i : Int) (m' : Mem) => ∃ n : Nat, i = (n : Int) ∧ n ≤ inn.len ∧ n ≤ out.len ∧
      wordsN m' out n = (delta 0 (wordsOf m inn)).take n ∧ ∀ q, ¬ inFirst out n q → m' q = m q)
    (fun i => inn.len - i.toNat) ?_ ?_ ?_ ⟨0, rfl, by omega, by omega, rfl, fun _ _ => rfl⟩ (by omega)
  · rintro i m' ⟨n, rfl, hn, ho, hw, hf⟩ hc
    replace hc : n < inn.len := by simpa using hc
    have hin : ∀ t < inn.len, wordAt m' inn.blk (inn.off + 4 * t) = fn (wordsOf m inn) t := by
      intro t ht
      rw [← words_of m inn t ht]
      refine wordAt_congr fun k hk => hf _ ?_
      rintro ⟨h1, h2, h3⟩
      simp only at h1 h2 h3
      rcases hd with hd | hd | hd
      · exact hd h1
      · omega
      · omega
    have key : ∀ w : U32, w = fn (delta 0 (wordsOf m inn)) n →
        wp ⟨inSlice inn, inSlice out, fun k _ => k = .index ∧ out.len < inn.len⟩ (setW out n w) m'
        (fun _ m' => wp ⟨inSlice inn, inSlice out, fun k _ => k = .index ∧ out.len < inn.len⟩
          (.ret ((n : Int) + 1)) m' (fun s' m' => (∃ n : Nat, s' = (n : Int) ∧ n ≤ inn.len ∧ n ≤ out.len ∧
            wordsN m' out n = (delta 0 (wordsOf m inn)).take n ∧ ∀ q, ¬ inFirst out n q → m' q = m q) ∧
            inn.len - s'.toNat < inn.len - (n : Int).toNat)) := by
      intro w hw'
      refine wp_setW (fun a ha hal => ⟨fun k hk => ⟨rfl, by simp only; omega, by simp only; omega⟩, ?_⟩)
        fun _ => ⟨rfl, by omega⟩
      have : a = n := by omega
      subst this
      refine ⟨⟨a + 1, by simp, by omega, by omega, ?_, fun q hq => ?_⟩, by omega⟩
      · rw [wordsN_succ, wordAt_set32_self, take_succ_getD (by omega), hw', ← hw]
        congr 1
        refine wordsN_congr' fun q hq => set32_other _ _ _ _ _ ?_
        have := hq.2.2
        omega
      · rw [set32_other, hf]
        · exact fun h => hq ⟨h.1, h.2.1, by have := h.2.2; omega⟩
        · exact fun h => hq ⟨h.1, by have := h.2.1; omega, by have := h.2.2; omega⟩
    have hR : ∀ t < inn.len, ∀ k < 4, inSlice inn ⟨inn.blk, inn.off + 4 * t + k⟩ := fun t ht k hk =>
      ⟨rfl, by simp only; omega, by simp only; omega⟩
    split
    · rename_i hpos
      rw [wp_bind]
      refine wp_getW_ok n rfl hc (hR n hc) ?_
      rw [wp_bind]
      refine wp_getW_ok (n - 1) (by omega) (by omega) (hR (n - 1) (by omega)) ?_
      rw [wp_bind]
      refine key _ ?_
      rw [hin n hc, hin (n - 1) (by omega), delta_fn _ _ _ (by omega), pv, if_neg (by omega)]
    · rename_i hpos
      rw [wp_bind]
      refine wp_getW_ok n rfl hc (hR n hc) ?_
      rw [wp_bind]
      refine key _ ?_
      rw [hin n hc, delta_fn _ _ _ (by omega), pv, if_pos (by omega)]
      exact (BitVec.sub_zero _).symm
  · rintro i m' ⟨n, rfl, hn, ho, hw, hf⟩ hc
    replace hc : n < inn.len := by simpa using hc
    omega
  · rintro i m' ⟨n, rfl, hn, ho, hw, hf⟩ hc
    replace hc : inn.len ≤ n := by simpa using hc
    have : n = inn.len := by omega
    subst this
    refine ⟨ho, ?_, hf⟩
    rw [hw, List.take_of_length_le (by omega)]

end SVB
