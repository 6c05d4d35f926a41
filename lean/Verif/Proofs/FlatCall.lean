import Verif.Proofs.Flat
import Verif.Proofs.Blocks

/-! # Calls on the flat machine -/

set_option autoImplicit false

namespace SVB.Flat
open Asm Spec

/-! ## The layout that goes with a machine -/

/-- What is read is heap block 0, what is written heap block 1. -/
def lay (t : Mach) (a b : Addr) : Layout where
  base
    | .heap 0 => a
    | .heap _ => b
    | k => t.sb k
  R p := inTables p ∨ (p.blk = .heap 0 ∧ p.off < 32)
  W p := p.blk = .heap 1 ∧ p.off < 32

/-- Model memory that goes with a machine. -/
def view (t : Mach) (a b : Addr) : Mem := fun p => t.mem ((lay t a b).addr p)

theorem pairwise_get {α : Type} {R : α → α → Prop} {l : List α} (h : l.Pairwise R) {i j : Nat} {x y : α} (hi : l[i]? = some x)
    (hj : l[j]? = some y) (hij : i < j) : R x y := by
  obtain ⟨h1, rfl⟩ := List.getElem?_eq_some_iff.1 hi
  obtain ⟨h2, rfl⟩ := List.getElem?_eq_some_iff.1 hj
  exact List.pairwise_iff_getElem.1 h i j h1 h2 hij

def idx : Block → Nat
  | .heap 0 => 1
  | .heap 1 => 2
  | .encShuf => 3
  | .decShuf => 4
  | .ctrlLen => 5
  | .numLen => 6
  | .mask0101 => 7
  | .mask7F00 => 8
  | .heap _ => 9

def size : Block → Nat
  | .heap _ => 32
  | .encShuf => 4096
  | .decShuf => 4096
  | .ctrlLen => 256
  | .numLen => 1024
  | .mask0101 => 2
  | .mask7F00 => 2

/-- The piece a byte belongs to. -/
theorem region_of {t : Mach} {a b : Addr} (n : Nat) {p : Ptr} (h : (lay t a b).dom p) :
    0 < idx p.blk ∧ idx p.blk < 9 ∧ (regions t n a b)[idx p.blk]? = some ((lay t a b).base p.blk, size p.blk) ∧ p.off < size p.blk := by
  obtain ⟨k, o⟩ := p
  rcases h with (h | ⟨h, h'⟩) | ⟨h, h'⟩
  · cases k <;> simp only [inTables] at h <;> exact ⟨by simp [idx], by simp [idx], rfl, h⟩
  · simp only at h h'; subst h; exact ⟨by simp [idx], by simp [idx], rfl, h'⟩
  · simp only at h h'; subst h; exact ⟨by simp [idx], by simp [idx], rfl, h'⟩

theorem idx_inj {j k : Block} (hj : idx j < 9) (h : idx j = idx k) : j = k := by
  have heap : ∀ n, idx (.heap n) < 9 → n = 0 ∨ n = 1 := fun n h => by
    match n with
    | 0 => exact .inl rfl
    | 1 => exact .inr rfl
    | n + 2 => simp [idx] at h
  cases j <;> cases k <;> first
    | rfl
    | (simp only [idx] at h; omega)
    | (rcases heap _ hj with rfl | rfl <;> first
        | (simp only [idx] at h; omega)
        | (rcases heap _ (h ▸ hj) with rfl | rfl <;> first | rfl | (simp only [idx] at h; omega)))
    | (rcases heap _ (h ▸ hj) with rfl | rfl <;> (simp only [idx] at h; omega))

theorem placed {t : Mach} {a b : Addr} {fr : Frame} {ro rs : Nat} (hr : ro + rs < 2 ^ 64)
    (hs : ∀ off sl, fr.get off = some sl → off + slotSize sl ≤ ro) (ha : Apart (regions t (ro + rs) a b)) :
    Placed (lay t a b) fr ro rs t.fp where
  inj p q hp hq he := by
    obtain ⟨-, p9, pr, po⟩ := region_of (ro + rs) hp
    obtain ⟨-, q9, qr, qo⟩ := region_of (ro + rs) hq
    rcases Nat.lt_trichotomy (idx p.blk) (idx q.blk) with h | h | h
    · exact absurd he (pairwise_get ha pr qr h _ po _ qo)
    · have e := idx_inj p9 h
      obtain ⟨k, o⟩ := p
      obtain ⟨k', o'⟩ := q
      simp only at e; subst e
      have small : size k < 2 ^ 64 := by cases k <;> simp [size]
      have := congrArg (fun z => (z - (lay t a b).base k).toNat) he
      simp only [Layout.addr] at this
      rw [sub_ofNat _ (by simp only at po; omega), sub_ofNat _ (by simp only at qo; omega)] at this
      rw [this]
    · exact absurd he.symm (pairwise_get ha qr pr h _ qo _ po)
  slots := hs
  small := hr
  stack p hp k hk := by
    obtain ⟨p0, -, pr, po⟩ := region_of (ro + rs) hp
    exact (pairwise_get ha (show (regions t (ro + rs) a b)[0]? = some (t.fp, ro + rs) from rfl) pr p0 k hk _ po).symm

theorem tables_view {t : Mach} (h : Loaded t) (a b : Addr) : TablesLoaded (view t a b) :=
  ⟨h.encShuf, h.decShuf, h.numLen, h.ctrlLen, h.mask0101, h.mask7F00⟩

theorem lookup_mem {α : Type} {k : Nat} {v : α} : ∀ {l : List (Nat × α)}, l.lookup k = some v → (k, v) ∈ l
  | [], h => by simp at h
  | (k', v') :: l, h => by
    rw [List.lookup] at h
    split at h
    · rename_i e; rw [eq_of_beq e]; cases h; exact List.mem_cons_self
    · exact List.mem_cons_of_mem _ (lookup_mem h)

theorem called {t : Mach} {a b : Addr} {fr : Frame} (h : ∀ e ∈ fr, (lay t a b).holds t.mem (t.arg e.1) e.2) :
    Called (lay t a b) fr (view t a b) t := ⟨fun _ _ => rfl, fun _ _ hs => h _ (lookup_mem hs), fun k hk => by cases k <;> first | rfl | simp [Block.isConst] at hk⟩

theorem slots_of {fr : Frame} {ro : Nat} (h : ∀ e ∈ fr, e.1 + slotSize e.2 ≤ ro) (off : Nat) (sl : Slot)
    (hs : fr.get off = some sl) : off + slotSize sl ≤ ro := h _ (lookup_mem hs)

/-! ## Views -/

theorem readLE_four (m : FMem) (a : Addr) : readLE m a 4 =
    m (a + BitVec.ofNat 64 3) ++ m (a + BitVec.ofNat 64 2) ++ m (a + BitVec.ofNat 64 1) ++ m a := by
  have e1 : a + 1 + 1 = a + BitVec.ofNat 64 2 := add_assoc64 a 1 1
  have e2 : a + BitVec.ofNat 64 2 + 1 = a + BitVec.ofNat 64 3 := add_assoc64 a 2 1
  show (((0#0 ++ m (a + 1 + 1 + 1)) ++ m (a + 1 + 1)) ++ m (a + 1)) ++ m a = _
  rw [e1, e2]
  have z : ∀ b : Byte, (0#0 ++ b : BitVec (0 + 8)) = b := fun b => by
    apply BitVec.eq_of_getLsbD_eq
    intro i hi
    rw [BitVec.getLsbD_append, if_pos (by omega)]
  rw [z]; rfl

theorem view_addr (t : Mach) (a b : Addr) (p : Ptr) : view t a b p = t.mem ((lay t a b).addr p) := rfl

theorem addr_heap0 (t : Mach) (a b : Addr) (o : Nat) : (lay t a b).addr ⟨.heap 0, o⟩ = a + BitVec.ofNat 64 o := rfl
theorem addr_heap1 (t : Mach) (a b : Addr) (o : Nat) : (lay t a b).addr ⟨.heap 1, o⟩ = b + BitVec.ofNat 64 o := rfl

theorem words_of {mem : FMem} {a : Addr} {m : Mem} {s : U32s} (hs : s.off = 0) {n : Nat}
    (h : ∀ i < 4 * n, mem (a + BitVec.ofNat 64 i) = m ⟨s.blk, i⟩) : words mem a n = wordsN m s n := by
  refine List.map_congr_left fun k hk => ?_
  have hk := List.mem_range.1 hk
  rw [readLE_four, add_assoc64, add_assoc64, add_assoc64, h _ (by omega), h _ (by omega), h _ (by omega), h _ (by omega), hs,
    Nat.zero_add]

theorem bytes_of {mem : FMem} {a : Addr} {m : Mem} {s : Bytes} (hs : s.off = 0) {n : Nat} (hn : s.len = n)
    (h : ∀ i < n, mem (a + BitVec.ofNat 64 i) = m ⟨s.blk, i⟩) : bytes mem a n = bytesOf m s := by
  rw [bytes, bytesOf, hn]
  refine List.map_congr_left fun k hk => ?_
  rw [h k (List.mem_range.1 hk), hs, Nat.zero_add]

theorem bytes_take (m : FMem) (a : Addr) {n k : Nat} (h : k ≤ n) : bytes m a k = (bytes m a n).take k := by
  rw [bytes, bytes, ← List.map_take, List.take_range, Nat.min_eq_left h]

/-- A run with its result known. -/
theorem wp_known {α : Type} {c : Ctx} {p : Prog α} {m m' : Mem} {r : α} {Q : α → Mem → Prop} (h : wp c p m Q)
    (hr : run p m = (.ok r, m')) : wp c p m fun a m'' => a = r ∧ m'' = m' := by
  rw [wp_iff] at h ⊢
  exact ⟨h.1, by rw [hr]; exact ⟨rfl, rfl⟩⟩

theorem encW_lay {t : Mach} {a b : Addr} {v : Nat → U32} {q : Ptr} (h : encW (.heap 1) 0 v 0 q) : (lay t a b).W q := by
  have b4 := offs_bounds v (show 0 ≤ 4 by omega)
  have z : offs v 0 = 0 := rfl
  rcases h with ⟨h1, h2, h3⟩ | ⟨h1, h2, h3⟩
  · exact ⟨h1, by omega⟩
  · rw [Nat.zero_add, Nat.zero_add] at h3; exact ⟨h1, by omega⟩

/-- What an encoder has done. -/
theorem enc_done {t t' : Mach} {a b : Addr} {m' : Mem} {ro : Nat} {c : U16} {xs : List U32} (hx : (dataBytes xs).length ≤ 32)
    {out : Bytes} (hb : out.blk = .heap 1) (ho : out.off = 0) (hl : out.len = 32)
    (hc : c = ctrl16 xs) (hm : (bytesOf m' out).take (dataBytes xs).length = dataBytes xs)
    (h : readLE t'.mem (t.arg ro) 2 = c ∧ (∀ p, (lay t a b).dom p → t'.mem ((lay t a b).addr p) = m' p) ∧
      Kept (lay t a b) ro 2 t t') :
    readLE t'.mem (t.arg ro) 2 = ctrl16 xs ∧ bytes t'.mem b (dataBytes xs).length = dataBytes xs ∧
      ∀ q, (∀ i < 32, q ≠ b + BitVec.ofNat 64 i) → (∀ k < 2, q ≠ t.arg ro + BitVec.ofNat 64 k) → t'.mem q = t.mem q := by
  obtain ⟨h1, h2, -, h3⟩ := h
  refine ⟨h1.trans hc, ?_, fun q hq hk => h3 q (fun p hp he => ?_) fun k hk' => (hk k hk').symm⟩
  · rw [bytes_take _ _ hx, bytes_of (m := m') (s := out) ho hl fun i hi => ?_, hm]
    rw [← addr_heap1 t a b, h2 _ (.inr ⟨rfl, hi⟩), hb]
  · obtain ⟨k, o⟩ := p
    obtain ⟨hp1, hp2⟩ := hp
    simp only at hp1 hp2
    subst hp1
    exact hq o hp2 he.symm

/-- What a decoder has done. -/
theorem dec_done {t t' : Mach} {a b : Addr} {m' : Mem} {ro : Nat} {out : U32s} (hb : out.blk = .heap 1) (ho : out.off = 0)
    (h : (∀ p, (lay t a b).dom p → t'.mem ((lay t a b).addr p) = m' p) ∧ Kept (lay t a b) ro 0 t t') :
    words t'.mem b 8 = wordsN m' out 8 ∧ ∀ q, (∀ i < 32, q ≠ b + BitVec.ofNat 64 i) → t'.mem q = t.mem q := by
  obtain ⟨h2, -, h3⟩ := h
  refine ⟨words_of ho fun i hi => ?_, fun q hq => h3 q (fun p hp he => ?_) fun k hk' => by omega⟩
  · rw [← addr_heap1 t a b, h2 _ (.inr ⟨rfl, by omega⟩), hb]
  · obtain ⟨k, o⟩ := p
    obtain ⟨hp1, hp2⟩ := hp
    simp only at hp1 hp2
    subst hp1
    exact hq o hp2 he.symm

/-! ## The model on such a layout -/

variable {t : Mach} {a b : Addr}

theorem put8_wp {inn : U32s} {out : Bytes} {m : Mem} (hT : TablesLoaded m) (hi : inn.blk = .heap 0) (hio : inn.off = 0)
    (ho : out.blk = .heap 1) (hoo : out.off = 0) :
    ∃ m', wp (lay t a b).ctx (put8uint32Fast inn out) m (fun c m'' => c = ctrl16 (wordsN m inn 8) ∧ m'' = m') ∧
      (bytesOf m' ⟨.heap 1, 0, 32, 32⟩).take (dataBytes (wordsN m inn 8)).length = dataBytes (wordsN m inn 8) := by
  obtain ⟨bo, oo, lo, co⟩ := out
  simp only at ho hoo; subst ho hoo
  have heq : put8uint32Fast inn ⟨.heap 1, 0, lo, co⟩ = put8uint32Fast inn ⟨.heap 1, 0, 32, 32⟩ := by
    rw [put8uint32Fast, put8uint32Fast, put8Fast_shape, put8Fast_shape]; rfl
  rw [heq]
  obtain ⟨⟨m', hr, hb⟩, -⟩ := (put8Fast_res (inn := inn) (out := ⟨.heap 1, 0, 32, 32⟩) hT (Nat.le_refl _)).imp1
  refine ⟨m', wp_known (Q := fun _ _ => True) ?_ hr, hb⟩
  refine wp_conseq (put8Fast_spec (fn (wordsN m inn 8)) 0 0 inn ⟨.heap 1, 0, 32, 32⟩ m hT rfl fun k hk => word_wordsN m inn 8 k hk)
    (fun q hq => ?_) (fun q hq => encW_lay (t := t) (a := a) (b := b) hq) (fun _ _ _ h => h) fun _ _ _ _ => trivial
  rcases hq with ⟨h1, -, h3⟩ | h
  · exact .inr ⟨h1.trans hi, by rw [hio] at h3; omega⟩
  · exact .inl h

theorem put8Delta_wp {inn : U32s} {out : Bytes} {m : Mem} (prev : U32) (hT : TablesLoaded m) (hi : inn.blk = .heap 0)
    (hio : inn.off = 0) (ho : out.blk = .heap 1) (hoo : out.off = 0) :
    ∃ m', wp (lay t a b).ctx (put8uint32DeltaFast inn out prev) m
        (fun c m'' => c = ctrl16 (delta prev (wordsN m inn 8)) ∧ m'' = m') ∧
      (bytesOf m' ⟨.heap 1, 0, 32, 32⟩).take (dataBytes (delta prev (wordsN m inn 8))).length =
        dataBytes (delta prev (wordsN m inn 8)) := by
  obtain ⟨bo, oo, lo, co⟩ := out
  simp only at ho hoo; subst ho hoo
  have heq : put8uint32DeltaFast inn ⟨.heap 1, 0, lo, co⟩ prev = put8uint32DeltaFast inn ⟨.heap 1, 0, 32, 32⟩ prev := by
    rw [put8uint32DeltaFast, put8uint32DeltaFast, put8DeltaFast_shape, put8DeltaFast_shape]; rfl
  rw [heq]
  obtain ⟨⟨m', hr, hb⟩, -⟩ := (put8DeltaFast_res (inn := inn) (out := ⟨.heap 1, 0, 32, 32⟩) prev hT (Nat.le_refl _)).imp1
  refine ⟨m', wp_known (Q := fun _ _ => True) ?_ hr, hb⟩
  refine wp_conseq (put8DeltaFast_spec (fn (delta prev (wordsN m inn 8))) (fn (wordsN m inn 8)) 0 0 inn ⟨.heap 1, 0, 32, 32⟩
      prev m hT rfl (fun k hk => word_wordsN m inn 8 k hk) ?_ ?_)
    (fun q hq => ?_) (fun q hq => encW_lay (t := t) (a := a) (b := b) hq) (fun _ _ _ h => h) fun _ _ _ _ => trivial
  · rw [← delta_wordsN_zero m inn 8 prev (by omega), wordsN_fn m inn 8 0 (by omega)]; rfl
  · intro k hk
    rw [← delta_wordsN_succ m inn 8 k prev (by omega), ← word_wordsN m inn 8 _ (by omega),
      ← word_wordsN m inn 8 _ (by omega)]
  rcases hq with ⟨h1, -, h3⟩ | h
  · exact .inr ⟨h1.trans hi, by rw [hio] at h3; omega⟩
  · exact .inl h

theorem dec_R {inn : Bytes} {c : U16} (hi : inn.blk = .heap 0) (hio : inn.off = 0) (q : Ptr)
    (hq : Seg inn.blk (inn.off + psum (csz c.toNat) 0) (inn.off + psum (csz c.toNat) 0 + 16) q ∨
      Seg inn.blk (inn.off + psum (csz c.toNat) (0 + 4)) (inn.off + psum (csz c.toNat) (0 + 4) + 16) q ∨ inTables q) :
    (lay t a b).R q := by
  have b4 := psum_bounds (csz_bounds c.toNat) (Nat.zero_le 4)
  have z : psum (csz c.toNat) 0 = 0 := rfl
  rw [hio, Nat.zero_add, Nat.zero_add, Nat.zero_add] at hq
  rcases hq with ⟨h1, -, h3⟩ | ⟨h1, -, h3⟩ | h
  · exact .inr ⟨h1.trans hi, by omega⟩
  · exact .inr ⟨h1.trans hi, by omega⟩
  · exact .inl h

theorem dec_W {out : U32s} (ho : out.blk = .heap 1) (hoo : out.off = 0) (q : Ptr)
    (hq : Seg out.blk out.off (out.off + 32) q) : (lay t a b).W q :=
  ⟨hq.1.trans ho, by have := hq.2.2; omega⟩

/-- The bytes a decoder is given, in terms of the model. -/
theorem bd_len (m : Mem) (inn : Bytes) (c n : Nat) : bd inn c m n = bd { inn with len := 32 } c m n := rfl

theorem get8_wp {inn : Bytes} {out : U32s} {m : Mem} (c : U16) (hT : TablesLoaded m) (hi : inn.blk = .heap 0) (hio : inn.off = 0)
    (ho : out.blk = .heap 1) (hoo : out.off = 0) :
    ∃ m', wp (lay t a b).ctx (get8uint32Fast inn out c) m (fun _ m'' => m'' = m') ∧
      some (wordsN m' out 8) = readNums (codeLens 8 c.toNat) (bytesOf m { inn with len := 32 }) := by
  obtain ⟨⟨m', hr, hb⟩, -⟩ := (get8Fast_res (inn := inn) (out := out) c hT).imp1
  have hs := csz_sum_le c.toNat 8
  refine ⟨m', wp_mono (wp_known (Q := fun _ _ => True) ?_ hr) fun _ _ h => h.2, ?_⟩
  · exact wp_conseq (get8Fast_spec (csz c.toNat) (bd inn c.toNat m) 0 inn.off 0 inn out c m hT
      (fun k _ => by rw [Nat.zero_add]; rfl) rfl (fun t _ _ _ => bd_dec _ _ _ t))
      (dec_R (t := t) (a := a) (b := b) hi hio) (dec_W (t := t) (a := a) (b := b) ho hoo) (fun _ _ _ h => h) fun _ _ _ _ => trivial
  · rw [readNums_block, codeLens_sum, if_pos (by simp only; omega), hb]; rfl

theorem get8Delta_wp {inn : Bytes} {out : U32s} {m : Mem} (c : U16) (prev : U32) (hT : TablesLoaded m) (hi : inn.blk = .heap 0)
    (hio : inn.off = 0) (ho : out.blk = .heap 1) (hoo : out.off = 0) :
    ∃ m', wp (lay t a b).ctx (get8uint32DeltaFast inn out c prev) m (fun _ m'' => m'' = m') ∧
      some (wordsN m' out 8) =
        (readNums (codeLens 8 c.toNat) (bytesOf m { inn with len := 32 })).map (undelta prev) := by
  obtain ⟨⟨m', hr, hb⟩, -⟩ := (get8DeltaFast_res (inn := inn) (out := out) c prev hT).imp1
  have hs := csz_sum_le c.toNat 8
  refine ⟨m', wp_mono (wp_known (Q := fun _ _ => True) ?_ hr) fun _ _ h => h.2, ?_⟩
  · exact wp_conseq (get8DeltaFast_spec (csz c.toNat) (bd inn c.toNat m) (ysum (bd inn c.toNat m) prev) 0 inn.off 0 inn out c prev
      m hT (fun k _ => by rw [Nat.zero_add]; rfl) rfl (fun t _ _ _ => bd_dec _ _ _ t)
      (fun _ => ysum_zero' _ _) (fun k _ => ysum_succ' _ _ k))
      (dec_R (t := t) (a := a) (b := b) hi hio) (dec_W (t := t) (a := a) (b := b) ho hoo) (fun _ _ _ h => h) fun _ _ _ _ => trivial
  · rw [readNums_block, codeLens_sum, if_pos (by simp only; omega), hb, Option.map_some, ← undelta_range]; rfl

theorem data_le {xs : List U32} (h : xs.length = 8) : (dataBytes xs).length ≤ 32 := by
  have := (dataBytes_bounds xs).2; omega

theorem ofNat_toNat64 (x : U64) : BitVec.ofNat 64 x.toNat = x := by rw [BitVec.ofNat_toNat, BitVec.setWidth_eq]

end SVB.Flat
