import Verif.Model.Chunked
import Verif.Proofs.Conc
import Verif.Proofs.Results
import Verif.Proofs.FlatAcc
import Verif.Proofs.SortRun
import Verif.Proofs.TestSteps
import Verif.Props.Readers

/-! # C86: one slice encoded by several goroutines -/

set_option autoImplicit false

namespace SVB.Props
open Spec

/-! ## Terms of the property -/

/-- The chunks follow each other from `lo` on and end at `len`. -/
def Tiles (len : Nat) : Nat → List Chunk → Prop
  | lo, [] => lo = len
  | lo, c :: cs => c.lo = lo ∧ Tiles len (lo + c.n) cs

/-- What is to be encoded: the numbers, or the deltas. -/
def toEncode (prev : Option U32) (xs : List U32) : List U32 :=
  match prev with
  | none => xs
  | some p => delta p xs

/-! ## Copying -/

/-- Memory after copying `n` bytes from `⟨b, o⟩` to `⟨fresh, a⟩`. -/
def copied (m : Mem) (fresh : Block) (a : Nat) (b : Block) (o n : Nat) : Mem := fun q =>
  if q.blk = fresh ∧ a ≤ q.off ∧ q.off < a + n then m ⟨b, o + (q.off - a)⟩ else m q

theorem copyLoop_run {fresh b : Block} (hf : b ≠ fresh) (n : Nat) : ∀ (a o : Nat) (m : Mem),
    run (ReadmeCode.copyLoop ⟨fresh, a⟩ ⟨b, o⟩ n) m = (.ok (), copied m fresh a b o n) := by
  induction n with
  | zero =>
    intro a o m
    have e : copied m fresh a b o 0 = m := by
      funext q
      rw [copied, if_neg (by omega)]
    rw [e]
    rfl
  | succ n ih =>
    intro a o m
    have h := ih (a + 1) (o + 1) (m.set ⟨fresh, a⟩ (m ⟨b, o⟩))
    have e : copied (m.set ⟨fresh, a⟩ (m ⟨b, o⟩)) fresh (a + 1) b (o + 1) n = copied m fresh a b o (n + 1) := by
      funext q
      obtain ⟨qb, qo⟩ := q
      simp only [copied, Mem.set, Ptr.mk.injEq]
      by_cases hq : qb = fresh
      · subst hq
        by_cases h1 : a + 1 ≤ qo ∧ qo < a + 1 + n
        · rw [if_pos ⟨rfl, h1⟩, if_neg (fun e => hf e.1), if_pos ⟨rfl, by omega, by omega⟩]
          congr 2
          omega
        · rw [if_neg (fun e => h1 e.2)]
          by_cases h2 : qo = a
          · subst h2
            rw [if_pos ⟨rfl, rfl⟩, if_pos ⟨rfl, by omega, by omega⟩, Nat.sub_self, Nat.add_zero]
          · rw [if_neg (fun e => h2 e.2), if_neg (by omega)]
      · rw [if_neg (fun e => hq e.1), if_neg (fun e => hq e.1), if_neg (fun e => hq e.1)]
    rw [← e, ← h]
    rfl

private theorem bytesOf_copied {m : Mem} {fresh b : Block} {a o n N c : Nat} :
    bytesOf (copied m fresh a b o n) ⟨fresh, 0, a + n, N⟩ = bytesOf m ⟨fresh, 0, a, N⟩ ++ bytesOf m (⟨b, o, n, c⟩ : Bytes) := by
  refine List.ext_getElem (by simp [bytesOf]) fun i h1 h2 => ?_
  rw [List.getElem_append]
  simp only [bytesOf, List.getElem_map, List.getElem_range, List.length_map, List.length_range, copied, Nat.zero_add, true_and]
  have hi : i < a + n := by simpa [bytesOf] using h1
  by_cases h : i < a
  · rw [if_neg (by omega), dif_pos h]
  · rw [if_pos (by omega), dif_neg h]

/-- Parts of slices outside the buffer are appended in order. -/
theorem copyParts_run {part : Nat × Bytes → Prog Bytes} {g : Nat × Bytes → Bytes} {b : Block} {N : Nat} :
    ∀ (ps : List (Nat × Bytes)) (pos : Nat) (m : Mem), (∀ p ∈ ps, part p = .ret (g p) ∧ (g p).blk ≠ b) →
      pos + (ps.map fun p => (g p).len).sum ≤ N →
      ∃ m', run (copyParts part ⟨b, 0, N, N⟩ pos ps) m = (.ok (pos + (ps.map fun p => (g p).len).sum), m') ∧
        Tests.Same b m m' ∧
        bytesOf m' ⟨b, 0, pos + (ps.map fun p => (g p).len).sum, N⟩ =
          bytesOf m ⟨b, 0, pos, N⟩ ++ (ps.map fun p => bytesOf m (g p)).flatten
  | [], pos, m, _, _ => ⟨m, rfl, .refl _ _, by simp⟩
  | p :: ps, pos, m, hg, hN => by
    rw [List.map_cons, List.sum_cons] at hN
    obtain ⟨hp, hb⟩ := hg p (.head _)
    have hd : Slice.from (⟨b, 0, N, N⟩ : Bytes) (pos : Int) = .ret ⟨b, pos, N - pos, N - pos⟩ := by
      rw [Slice.from, if_pos ⟨by omega, by simp only; omega⟩]
      simp
    have hmin : min (N - pos) (g p).len = (g p).len := by omega
    have hs : Tests.Same b m (copied m b pos (g p).blk (g p).off (g p).len) := fun q hq => by
      rw [copied, if_neg (fun e => hq e.1)]
    obtain ⟨m', h1, h2, h3⟩ := copyParts_run (part := part) (g := g) (b := b) (N := N) ps (pos + (g p).len)
      (copied m b pos (g p).blk (g p).off (g p).len) (fun p' h => hg p' (.tail _ h)) (by omega)
    refine ⟨m', ?_, hs.trans h2, ?_⟩
    · have e : copyParts part ⟨b, 0, N, N⟩ pos (p :: ps) = (Slice.from (⟨b, 0, N, N⟩ : Bytes) (pos : Int)).bind fun d =>
        (part p).bind fun s => (ReadmeCode.copyBytes d s).bind fun _ => copyParts part ⟨b, 0, N, N⟩ (pos + min d.len s.len) ps := rfl
      rw [e, hd, Prog.ret_bind, hp, Prog.ret_bind, run_bind]
      unfold ReadmeCode.copyBytes
      simp only [Slice.ptr, hmin]
      rw [copyLoop_run hb]
      simp only
      rw [h1, List.map_cons, List.sum_cons, Nat.add_assoc]
    · rw [List.map_cons, List.sum_cons, ← Nat.add_assoc, h3, bytesOf_copied (c := (g p).cap), List.map_cons, List.flatten_cons,
        List.append_assoc]
      congr 3
      exact List.map_congr_left fun p' h => hs.bytes (hg p' (.tail _ h)).2

/-- Joining: the control bytes of all, then the data of all. -/
theorem joinChunks_run {b : Block} {ps : List (Nat × Bytes)} {m : Mem}
    (hb : ∀ p ∈ ps, p.2.blk ≠ b ∧ ctrlLen p.1 ≤ p.2.len ∧ p.2.len ≤ p.2.cap) :
    ∃ m' N, run (joinChunks b ps) m = (.ok ⟨b, 0, N, N⟩, m') ∧ Tests.Same b m m' ∧
      bytesOf m' ⟨b, 0, N, N⟩ = (ps.map fun p => (bytesOf m p.2).take (ctrlLen p.1)).flatten ++
        (ps.map fun p => (bytesOf m p.2).drop (ctrlLen p.1)).flatten := by
  have hsum : ∀ ps : List (Nat × Bytes), (∀ p ∈ ps, ctrlLen p.1 ≤ p.2.len) →
      (ps.map fun p => p.2.len).sum = (ps.map fun p => ctrlLen p.1).sum + (ps.map fun p => p.2.len - ctrlLen p.1).sum := by
    intro ps
    induction ps with
    | nil => intro _; rfl
    | cons p ps ih =>
      intro h
      have := ih fun p' h' => h p' (.tail _ h')
      have := h p (.head _)
      simp only [List.map_cons, List.sum_cons]
      omega
  have hsum := hsum ps fun p h => (hb p h).2.1
  obtain ⟨m0, r0, s0⟩ := Tests.makeBytes_run b m (i := ((ps.map fun p => p.2.len).sum : Nat)) _ rfl
  let g1 : Nat × Bytes → Bytes := fun p => ⟨p.2.blk, p.2.off, ctrlLen p.1, p.2.cap⟩
  let g2 : Nat × Bytes → Bytes := fun p => ⟨p.2.blk, p.2.off + 1 * ctrlLen p.1, p.2.len - ctrlLen p.1, p.2.cap - ctrlLen p.1⟩
  obtain ⟨m1, r1, s1, b1⟩ := copyParts_run (part := fun p => p.2.range 0 ((p.1 + 3) / 4 : Nat)) (g := g1) (b := b)
    (N := (ps.map fun p => p.2.len).sum) ps 0 m0 (fun p hp => ⟨by
      have := hb p hp
      have e : ctrlLen p.1 = (p.1 + 3) / 4 := rfl
      rw [Slice.range, if_pos ⟨Int.le_refl 0, by omega, by omega⟩]
      simp only [g1, e, Int.toNat_natCast, Int.toNat_zero, Nat.mul_zero, Nat.add_zero, Nat.sub_zero], (hb p hp).1⟩) (by simp only [g1]; omega)
  obtain ⟨m2, r2, s2, b2⟩ := copyParts_run (part := fun p => p.2.from ((p.1 + 3) / 4 : Nat)) (g := g2) (b := b)
    (N := (ps.map fun p => p.2.len).sum) ps (ps.map fun p => (g1 p).len).sum m1 (fun p hp => ⟨by
      have := hb p hp
      have e : ctrlLen p.1 = (p.1 + 3) / 4 := rfl
      rw [Slice.from, if_pos ⟨by omega, by omega⟩]
      simp only [g2, e, Int.toNat_natCast], (hb p hp).1⟩) (by simp only [g1, g2]; omega)
  have hS := s0.trans (s1.trans s2)
  refine ⟨m2, (ps.map fun p => p.2.len).sum, ?_, hS, ?_⟩
  · unfold joinChunks
    rw [Prog.bind_eq, run_bind, r0]
    simp only
    rw [Prog.bind_eq, run_bind, r1]
    simp only
    rw [Prog.bind_eq, run_bind, Nat.zero_add, r2]
    rfl
  · have e : (ps.map fun p => (g1 p).len).sum + (ps.map fun p => (g2 p).len).sum = (ps.map fun p => p.2.len).sum := by
      simp only [g1, g2]; omega
    rw [e] at b2
    rw [Nat.zero_add] at b1
    rw [b2, b1]
    simp only [bytesOf, List.range_zero, List.map_nil, List.nil_append]
    congr 2
    · refine List.map_congr_left fun p hp => ?_
      exact (s0.bytes (s := g1 p) (hb p hp).1).trans (bytesOf_take (m := m) (s := p.2) (hb p hp).2.1).symm
    · refine List.map_congr_left fun p hp => ?_
      have h1 := (s0.trans s1).bytes (s := g2 p) (hb p hp).1
      refine h1.trans ?_
      refine List.ext_getElem (by simp [bytesOf, g2]) fun i h1 h2 => ?_
      simp only [bytesOf, List.getElem_map, List.getElem_range, List.getElem_drop, g2]
      rw [Nat.one_mul, Nat.add_assoc]

/-! ## Chunks of a list -/

private theorem encode_chunks (ys : List U32) : ∀ (cs : List Chunk) (lo : Nat), Tiles ys.length lo cs → (∀ c ∈ cs, c.lo % 4 = 0) →
    ctrls (ys.drop lo) = (cs.map fun c => ctrls ((ys.drop c.lo).take c.n)).flatten ∧
    dataBytes (ys.drop lo) = (cs.map fun c => dataBytes ((ys.drop c.lo).take c.n)).flatten
  | [], lo, h, _ => by
    rw [show lo = ys.length from h, List.drop_length]
    exact ⟨by simp [ctrls_nil], rfl⟩
  | [c], lo, ⟨h, h'⟩, _ => by
    have h' : lo + c.n = ys.length := h'
    have e : (ys.drop lo).take c.n = ys.drop lo := List.take_of_length_le (by rw [List.length_drop]; omega)
    simp [h, e]
  | c :: c' :: cs, lo, ⟨h, h'⟩, h4 => by
    obtain ⟨i1, i2⟩ := encode_chunks ys (c' :: cs) (lo + c.n) h' fun d hd => h4 d (.tail _ hd)
    have h1 := h4 c (.head _)
    have h2 := h4 c' (.tail _ (.head _))
    have h3 : c'.lo = lo + c.n := h'.1
    have e : ys.drop lo = (ys.drop lo).take c.n ++ ys.drop (lo + c.n) := by
      rw [← List.drop_drop, List.take_append_drop]
    have hle : ∀ (cs : List Chunk) lo, Tiles ys.length lo cs → lo ≤ ys.length := by
      intro cs
      induction cs with
      | nil => intro lo h; exact Nat.le_of_eq h
      | cons c cs ih => intro lo h; have := ih _ h.2; omega
    have := hle _ _ h'
    have hl : ((ys.drop lo).take c.n).length = c.n := by rw [List.length_take, List.length_drop]; omega
    constructor
    · rw [List.map_cons, List.flatten_cons, ← i1, h]
      conv => lhs; rw [e]
      exact ctrls_append _ _ (by rw [hl]; omega)
    · rw [List.map_cons, List.flatten_cons, ← i2, h]
      conv => lhs; rw [e]
      exact dataBytes_append _ _

theorem delta_chunk (p : U32) (xs : List U32) (lo n : Nat) (h : lo + n ≤ xs.length) :
    ((delta p xs).drop lo).take n = delta (if lo = 0 then p else xs.getD (lo - 1) 0) ((xs.drop lo).take n) := by
  have e : xs = xs.take lo ++ ((xs.drop lo).take n ++ (xs.drop lo).drop n) := by
    rw [List.take_append_drop, List.take_append_drop]
  have hq : (xs.take lo).getLast?.getD p = if lo = 0 then p else xs.getD (lo - 1) 0 := by
    split
    · rename_i h0; subst h0; rfl
    · rename_i h0
      rw [List.getLast?_eq_getElem?, List.length_take, Nat.min_eq_left (by omega), List.getElem?_take, if_pos (by omega),
        List.getD_eq_getElem?_getD, List.getElem?_eq_getElem (by omega)]
      rfl
  conv => lhs; rw [e]
  rw [delta_append, hq, delta_append, List.drop_left' (by rw [delta_length, List.length_take]; omega),
    List.take_left' (by rw [delta_length, List.length_take, List.length_drop]; omega)]

/-! ## One goroutine -/

section
variable {inn : U32s} {m : Mem} {prev : Option U32}

private theorem wordsOf_part {a n c : Nat} (h : a + n ≤ inn.len) :
    wordsOf m ⟨inn.blk, inn.off + 4 * a, n, c⟩ = ((wordsOf m inn).drop a).take n := by
  refine List.ext_getElem (by simp [wordsOf, wordsN]; omega) fun i h1 h2 => ?_
  simp only [wordsOf, wordsN, List.getElem_map, List.getElem_range, List.getElem_drop, List.getElem_take]
  rw [show inn.off + 4 * a + 4 * i = inn.off + 4 * (a + i) by omega]

/-- What the goroutine returns. -/
private def chunkRes (c : Chunk) (ys : List U32) : Bytes :=
  ⟨c.fresh, 0, (encode ((ys.drop c.lo).take c.n)).length, ctrlLen c.n + 4 * c.n⟩

private theorem chunk_result (c : Chunk) (hp : WriterPre c.fresh inn m) (hn : c.lo + c.n ≤ inn.len) :
    (∃ m', run (c.prog inn prev) m = (.ok (chunkRes c (toEncode prev (wordsOf m inn))), m') ∧
      bytesOf m' (chunkRes c (toEncode prev (wordsOf m inn))) =
        encode (((toEncode prev (wordsOf m inn)).drop c.lo).take c.n)) ∧
    ∀ e ∈ trace (c.prog inn prev) m, (Ctx.mk (fun q => inSlice inn q ∨ inTables q)
      (fun q => q.blk = c.fresh ∧ q.off < ctrlLen c.n + 4 * c.n) fun _ _ => True).allows e := by
  have hv := hp.valid
  have hle := hv.len_le
  have hr : inn.range (c.lo : Int) ((c.lo : Int) + c.n) = .ret ⟨inn.blk, inn.off + 4 * c.lo, c.n, inn.cap - c.lo⟩ := by
    rw [Slice.range, if_pos ⟨by omega, by omega, by omega⟩]
    congr 2
    omega
  have hpre : WriterPre c.fresh ⟨inn.blk, inn.off + 4 * c.lo, c.n, inn.cap - c.lo⟩ m :=
    ⟨hp.tables, ⟨by simp only; omega, hv.heap, by have := hv.small; simp only; omega⟩, hp.fresh_heap, hp.fresh_ne⟩
  have hw := wordsOf_part (m := m) (inn := inn) (a := c.lo) (n := c.n) (c := inn.cap - c.lo) hn
  have hfoot : ∀ e, (wctx c.fresh ⟨inn.blk, inn.off + 4 * c.lo, c.n, inn.cap - c.lo⟩).allows e →
      (Ctx.mk (fun q => inSlice inn q ∨ inTables q)
        (fun q => q.blk = c.fresh ∧ q.off < ctrlLen c.n + 4 * c.n) fun _ _ => True).allows e := by
    intro e h
    refine allows_mono (c' := Ctx.mk (fun q => inSlice inn q ∨ inTables q)
        (fun q => q.blk = c.fresh ∧ q.off < ctrlLen c.n + 4 * c.n) fun _ _ => True) ?_ ?_ h
    · rintro q (⟨h1, h2, h3⟩ | h)
      · exact .inl ⟨h1, by simp only at h2; omega, by simp only at h3; omega⟩
      · exact .inr h
    · rintro q ⟨h1, h2, h3⟩
      exact ⟨h1, by simp only at h3; omega⟩
  cases prev with
  | none =>
    have e : c.prog inn none = (inn.range (c.lo : Int) ((c.lo : Int) + c.n)).bind fun part => c.f.write c.fresh part := rfl
    rw [e, hr, Prog.ret_bind]
    have hres := write_result c.f hpre
    rw [hw] at hres
    obtain ⟨m', h1, h2, -⟩ := hres.ex
    exact ⟨⟨m', h1, h2⟩, fun e he => hfoot e (hres.foot e he)⟩
  | some p =>
    have e : c.prog inn (some p) = (inn.range (c.lo : Int) ((c.lo : Int) + c.n)).bind fun part =>
      (c.before inn p).bind fun q => c.f.writeDelta c.fresh part q := rfl
    rw [e, hr, Prog.ret_bind]
    have hq : run (c.before inn p) m =
        (.ok (if c.lo = 0 then p else (wordsOf m inn).getD (c.lo - 1) 0), m) ∧
        ∀ e ∈ trace (c.before inn p) m, (Ctx.mk (fun q => inSlice inn q ∨ inTables q)
          (fun q => q.blk = c.fresh ∧ q.off < ctrlLen c.n + 4 * c.n) fun _ _ => True).allows e := by
      unfold Chunk.before
      split
      · exact ⟨rfl, by intro e he; cases he⟩
      · rename_i h0
        refine ⟨?_, ?_⟩
        · rw [Tests.getW_run inn m (c.lo - 1) (by omega) (by omega), List.getD_eq_getElem?_getD,
            _root_.SVB.Tests.wordsOf_get (m := m) (s := inn) (i := c.lo - 1) (by omega)]
          rfl
        · refine ((wp_iff (Ctx.mk (fun q => inSlice inn q ∨ inTables q)
            (fun q => q.blk = c.fresh ∧ q.off < ctrlLen c.n + 4 * c.n) fun _ _ => True) _ m fun _ _ => True).1 ?_).1
          exact wp_getW_ok (c.lo - 1) (by omega) (by omega)
            (fun k hk => .inl ⟨rfl, by simp only; omega, by simp only; omega⟩) trivial
    rw [run_bind, _root_.SVB.Flat.trace_bind, hq.1]
    have hres := writeDelta_result c.f (if c.lo = 0 then p else (wordsOf m inn).getD (c.lo - 1) 0) hpre
    rw [hw, ← delta_chunk p _ _ _ (by rw [wordsOf_length]; exact hn)] at hres
    obtain ⟨m', h1, h2, -⟩ := hres.ex
    refine ⟨⟨m', h1, h2⟩, fun e he => ?_⟩
    rcases List.mem_append.1 he with he | he
    · exact hq.2 e he
    · exact hfoot e (hres.foot e he)

/-! ## The property -/

/-- Chunks that begin anywhere. -/
private theorem chunks_run {cs : List Chunk} {fresh : Block} (hpre : ∀ c ∈ cs, WriterPre c.fresh inn m) (ht : Tiles inn.len 0 cs)
    (hown : cs.Pairwise fun c d => c.fresh ≠ d.fresh) (hnew : ∀ c ∈ cs, c.fresh ≠ fresh)
    (sched : List (_root_.Fin cs.length))
    (hfair : ∀ i, (trace (cs[i].prog inn prev) m).length ≤ sched.count i) :
    ∃ rs : List Bytes, rs.length = cs.length ∧
      (∀ (i : _root_.Fin cs.length) r, rs[i.val]? = some r →
        (Conf.exec ⟨fun i : _root_.Fin cs.length => cs[i].prog inn prev, m⟩ sched).prog i = .ret r) ∧
      ∃ m' r, run (joinChunks fresh ((cs.map (·.n)).zip rs))
          (Conf.exec ⟨fun i : _root_.Fin cs.length => cs[i].prog inn prev, m⟩ sched).mem = (.ok r, m') ∧
        bytesOf m' r = (cs.map fun c => ctrls (((toEncode prev (wordsOf m inn)).drop c.lo).take c.n)).flatten ++
          (cs.map fun c => dataBytes (((toEncode prev (wordsOf m inn)).drop c.lo).take c.n)).flatten ∧
        ∀ q : Ptr, q.blk ≠ fresh → (∀ c ∈ cs, q.blk ≠ c.fresh) → m' q = m q := by
  have hle : ∀ (cs : List Chunk) lo, Tiles inn.len lo cs → lo ≤ inn.len := by
    intro cs
    induction cs with
    | nil => intro lo h; exact Nat.le_of_eq h
    | cons c cs ih => intro lo h; have := ih _ h.2; omega
  have hn : ∀ (cs : List Chunk) lo, Tiles inn.len lo cs → ∀ c ∈ cs, c.lo + c.n ≤ inn.len := by
    intro cs
    induction cs with
    | nil => intro lo _ c hc; cases hc
    | cons c cs ih =>
      intro lo h d hd
      rcases List.mem_cons.1 hd with rfl | hd
      · have := hle _ _ h.2
        rw [h.1]; exact this
      · exact ih _ h.2 d hd
  have hn := hn cs 0 ht
  have hmem : ∀ i : _root_.Fin cs.length, cs[i] ∈ cs := fun i => List.getElem_mem i.isLt
  have hres := fun i : _root_.Fin cs.length => chunk_result (prev := prev) cs[i] (hpre _ (hmem i)) (hn _ (hmem i))
  have hne : ∀ i j : _root_.Fin cs.length, i ≠ j → cs[i].fresh ≠ cs[j].fresh := by
    intro i j hij
    have := List.pairwise_iff_getElem.1 hown
    rcases Nat.lt_or_gt_of_ne (fun e => hij (Fin.ext e)) with h | h
    · exact this i j i.isLt j.isLt h
    · exact (this j i j.isLt i.isLt h).symm
  have hsep : Separate (fun (_ : _root_.Fin cs.length) q => inSlice inn q ∨ inTables q)
      (fun i q => q.blk = cs[i].fresh ∧ q.off < ctrlLen cs[i].n + 4 * cs[i].n) := by
    refine ⟨fun i j q hij hw => ?_, fun i j q hij hw h => hne i j hij (hw.1.symm.trans h.1)⟩
    rintro (h | h)
    · exact (hpre _ (hmem i)).fresh_ne (hw.1.symm.trans h.1)
    · have h1 := (hpre _ (hmem i)).fresh_heap
      rw [← hw.1] at h1
      unfold inTables at h
      cases hb : q.blk <;> simp [hb, Block.isConst] at h1 h
  have hni := noninterference hsep (p := fun i : _root_.Fin cs.length => cs[i].prog inn prev) (m := m)
    (fun i => (hres i).2) sched hfair
  generalize Conf.exec ⟨fun i : _root_.Fin cs.length => cs[i].prog inn prev, m⟩ sched = C at hni
  generalize hys : toEncode prev (wordsOf m inn) = ys at hres
  have hlen : ys.length = inn.len := by
    rw [← hys]
    cases prev with
    | none => exact wordsOf_length m inn
    | some p => exact (delta_length _ _).trans (wordsOf_length m inn)
  have hbytes : ∀ c ∈ cs, bytesOf C.mem (chunkRes c ys) = encode ((ys.drop c.lo).take c.n) := by
    intro c hc
    obtain ⟨i, hi, rfl⟩ := List.mem_iff_getElem.1 hc
    obtain ⟨m', h1, h2⟩ := (hres ⟨i, hi⟩).1
    have h3 := (hni.1 ⟨i, hi⟩).2
    rw [h1] at h3
    refine .trans ?_ h2
    unfold bytesOf
    refine List.map_congr_left fun t ht => h3 _ (.inr ⟨rfl, ?_⟩)
    have ht := List.mem_range.1 ht
    have hb := encode_length_sum ((ys.drop cs[i].lo).take cs[i].n)
    have hb' := (sum_bounds ((ys.drop cs[i].lo).take cs[i].n)).2
    have hl : ((ys.drop cs[i].lo).take cs[i].n).length = cs[i].n := by
      have := hn _ hc
      rw [List.length_take, List.length_drop]; omega
    rw [hl] at hb hb'
    simp only [chunkRes] at ht ⊢
    show 0 + t < ctrlLen cs[i].n + 4 * cs[i].n
    omega
  have hzip : (cs.map (·.n)).zip (cs.map fun c => chunkRes c ys) = cs.map fun c => (c.n, chunkRes c ys) := by
    rw [List.zip_map']
  refine ⟨cs.map fun c => chunkRes c ys, List.length_map _, fun i r hr => ?_, ?_⟩
  · rw [List.getElem?_map, List.getElem?_eq_getElem i.isLt] at hr
    cases hr
    obtain ⟨m', h1, -⟩ := (hres i).1
    rw [(hni.1 i).1, h1]
    rfl
  · have hl : ∀ c ∈ cs, ((ys.drop c.lo).take c.n).length = c.n := by
      intro c hc
      have := hn _ hc
      rw [List.length_take, List.length_drop]; omega
    obtain ⟨m', N, h1, h2, h3⟩ := joinChunks_run (b := fresh) (ps := cs.map fun c => (c.n, chunkRes c ys)) (m := C.mem) (by
      intro p hp
      obtain ⟨c, hc, rfl⟩ := List.mem_map.1 hp
      have hb := encode_length_sum ((ys.drop c.lo).take c.n)
      have hb' := (sum_bounds ((ys.drop c.lo).take c.n)).2
      rw [hl c hc] at hb hb'
      exact ⟨hnew c hc, by simp only [chunkRes]; omega, by simp only [chunkRes]; omega⟩)
    refine ⟨m', ⟨fresh, 0, N, N⟩, by rw [hzip]; exact h1, ?_, fun q hq hq' => ?_⟩
    · rw [h3, List.map_map, List.map_map]
      have key : ∀ c ∈ cs, (bytesOf C.mem (chunkRes c ys)).take (ctrlLen c.n) = ctrls ((ys.drop c.lo).take c.n) ∧
          (bytesOf C.mem (chunkRes c ys)).drop (ctrlLen c.n) = dataBytes ((ys.drop c.lo).take c.n) := by
        intro c hc
        have := ctrls_length ((ys.drop c.lo).take c.n)
        rw [hl c hc] at this
        rw [hbytes c hc, encode, ← this, List.take_left, List.drop_left]
        exact ⟨rfl, rfl⟩
      congr 2
      · exact List.map_congr_left fun c hc => (key c hc).1
      · exact List.map_congr_left fun c hc => (key c hc).2
    · rw [h2 q hq, hni.2 q fun i hi => hq' _ (hmem i) hi.1]

/-- C86: `inn` is cut into chunks that begin at multiples of four, each with an allocation of its own.  Goroutines encode the
chunks at the same time, with any writers; deltas go on from the number before the chunk.  Under every schedule that gives each
enough turns all of them return; the caller then joins what they returned, in a new buffer, and this is the stream of all the
numbers. -/
theorem C86_chunks {cs : List Chunk} {fresh : Block} (hpre : ∀ c ∈ cs, WriterPre c.fresh inn m) (ht : Tiles inn.len 0 cs)
    (h4 : ∀ c ∈ cs, c.lo % 4 = 0) (hown : cs.Pairwise fun c d => c.fresh ≠ d.fresh) (hnew : ∀ c ∈ cs, c.fresh ≠ fresh)
    (sched : List (_root_.Fin cs.length))
    (hfair : ∀ i, (trace (cs[i].prog inn prev) m).length ≤ sched.count i) :
    ∃ rs : List Bytes, rs.length = cs.length ∧
      (∀ (i : _root_.Fin cs.length) r, rs[i.val]? = some r →
        (Conf.exec ⟨fun i : _root_.Fin cs.length => cs[i].prog inn prev, m⟩ sched).prog i = .ret r) ∧
      ∃ m' r, run (joinChunks fresh ((cs.map (·.n)).zip rs))
          (Conf.exec ⟨fun i : _root_.Fin cs.length => cs[i].prog inn prev, m⟩ sched).mem = (.ok r, m') ∧
        bytesOf m' r = encode (toEncode prev (wordsOf m inn)) ∧
        ∀ q : Ptr, q.blk ≠ fresh → (∀ c ∈ cs, q.blk ≠ c.fresh) → m' q = m q := by
  obtain ⟨rs, h1, h2, m', r, h3, h5, h6⟩ := chunks_run (prev := prev) hpre ht hown hnew sched hfair
  refine ⟨rs, h1, h2, m', r, h3, ?_, h6⟩
  have hlen : (toEncode prev (wordsOf m inn)).length = inn.len := by
    cases prev with
    | none => exact wordsOf_length m inn
    | some p => exact (delta_length _ _).trans (wordsOf_length m inn)
  obtain ⟨e1, e2⟩ := encode_chunks _ cs 0 (by rw [hlen]; exact ht) h4
  rw [List.drop_zero] at e1 e2
  rw [h5, encode, e1, e2]

/-- The same, next to any writer that encodes all the numbers at once. -/
theorem C86_as_one {cs : List Chunk} {fresh one : Block} (f : Fn) (hpre : ∀ c ∈ cs, WriterPre c.fresh inn m)
    (hone : WriterPre one inn m) (ht : Tiles inn.len 0 cs) (h4 : ∀ c ∈ cs, c.lo % 4 = 0)
    (hown : cs.Pairwise fun c d => c.fresh ≠ d.fresh) (hnew : ∀ c ∈ cs, c.fresh ≠ fresh)
    (sched : List (_root_.Fin cs.length)) (hfair : ∀ i, (trace (cs[i].prog inn prev) m).length ≤ sched.count i) :
    ∃ rs : List Bytes, (∀ (i : _root_.Fin cs.length) r, rs[i.val]? = some r →
        (Conf.exec ⟨fun i : _root_.Fin cs.length => cs[i].prog inn prev, m⟩ sched).prog i = .ret r) ∧ rs.length = cs.length ∧
      ∃ m' r m1 r1, run (joinChunks fresh ((cs.map (·.n)).zip rs))
          (Conf.exec ⟨fun i : _root_.Fin cs.length => cs[i].prog inn prev, m⟩ sched).mem = (.ok r, m') ∧
        run (match prev with
          | none => f.write one inn
          | some p => f.writeDelta one inn p) m = (.ok r1, m1) ∧
        bytesOf m' r = bytesOf m1 r1 := by
  obtain ⟨rs, h1, h2, m', r, h3, h4, -⟩ := C86_chunks (prev := prev) hpre ht h4 hown hnew sched hfair
  refine ⟨rs, h2, h1, m', r, ?_⟩
  cases prev with
  | none =>
    obtain ⟨m1, e1, e2, -⟩ := (write_result f hone).ex
    exact ⟨m1, _, h3, e1, h4.trans e2.symm⟩
  | some p =>
    obtain ⟨m1, e1, e2, -⟩ := (writeDelta_result f p hone).ex
    exact ⟨m1, _, h3, e1, h4.trans e2.symm⟩

end

/-! ## Examples -/

/-- Seven numbers in three chunks, one of them empty. -/
def exChunks : List Chunk := [⟨.fast, .heap 7, 0, 4⟩, ⟨.scalar, .heap 8, 4, 0⟩, ⟨.auto ⟨true, true, true⟩, .heap 9, 4, 3⟩]

example (prev : Option U32) := C86_chunks (prev := prev) (m := memWith [1, 300, 3, 4, 9, 7, 70000] []) (inn := ⟨.heap 0, 0, 7, 7⟩)
  (cs := exChunks) (fresh := .heap 5)
  (by
    intro c hc
    simp only [exChunks, List.mem_cons, List.not_mem_nil, or_false] at hc
    rcases hc with rfl | rfl | rfl <;> exact ⟨memWith_tables _ _, ⟨by decide, rfl, by decide⟩, rfl, by decide⟩)
  ⟨rfl, rfl, rfl, rfl⟩ (by decide) (by decide) (by decide)

/-- Five numbers in a chunk of two and one of three. -/
def exBadCut : List Chunk := [⟨.scalar, .heap 7, 0, 2⟩, ⟨.fast, .heap 8, 2, 3⟩]

/-- C86, why chunks must begin at multiples of four: all other conditions hold, whatever the schedule, but what the caller gets
is not the stream and does not decode to the numbers. -/
theorem C86_bad_cut : let m := memWith [1, 1, 300, 1, 1] []
    let inn : U32s := ⟨.heap 0, 0, 5, 5⟩
    (∀ c ∈ exBadCut, WriterPre c.fresh inn m) ∧ Tiles inn.len 0 exBadCut ∧
    (exBadCut.Pairwise fun c d => c.fresh ≠ d.fresh) ∧ (∀ c ∈ exBadCut, c.fresh ≠ .heap 5) ∧
    ∀ sched : List (_root_.Fin exBadCut.length),
      (∀ i : _root_.Fin exBadCut.length, (trace (exBadCut[i].prog inn none) m).length ≤ sched.count i) →
      ∃ rs : List Bytes, rs.length = 2 ∧ (∀ (i : _root_.Fin exBadCut.length) r, rs[i.val]? = some r →
          (Conf.exec ⟨fun i : _root_.Fin exBadCut.length => exBadCut[i].prog inn none, m⟩ sched).prog i = .ret r) ∧
        ∃ m' r, run (joinChunks (.heap 5) ((exBadCut.map (·.n)).zip rs))
            (Conf.exec ⟨fun i : _root_.Fin exBadCut.length => exBadCut[i].prog inn none, m⟩ sched).mem = (.ok r, m') ∧
          bytesOf m' r ≠ encode (wordsOf m inn) ∧ decode 5 (bytesOf m' r) ≠ some (wordsOf m inn) := by
  have h1 : ∀ c ∈ exBadCut, WriterPre c.fresh ⟨.heap 0, 0, 5, 5⟩ (memWith [1, 1, 300, 1, 1] []) := by
    intro c hc
    simp only [exBadCut, List.mem_cons, List.not_mem_nil, or_false] at hc
    rcases hc with rfl | rfl <;> exact ⟨memWith_tables _ _, ⟨by decide, rfl, by decide⟩, rfl, by decide⟩
  have h2 : Tiles 5 0 exBadCut := ⟨rfl, rfl, rfl⟩
  have h3 : exBadCut.Pairwise fun c d => c.fresh ≠ d.fresh := by decide
  have h4 : ∀ c ∈ exBadCut, c.fresh ≠ .heap 5 := by decide
  refine ⟨h1, h2, h3, h4, fun sched hfair => ?_⟩
  obtain ⟨rs, l, e1, m', r, e2, e3, -⟩ := chunks_run (prev := none) h1 h2 h3 h4 sched hfair
  refine ⟨rs, l, e1, m', r, e2, ?_⟩
  rw [e3]
  decide +kernel

end SVB.Props
