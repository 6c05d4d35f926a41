import Verif.Model.Parallel
import Verif.Proofs.Parallel
import Verif.Proofs.Conc
import Verif.Props.Archive
import Verif.Props.Access

/-! # C85: one stream decoded piece by piece in several goroutines -/

set_option autoImplicit false

namespace SVB.Props
open Spec

/-- The numbers of a stream, or of a delta stream. -/
def streamNums (prev : Option U32) (n : Nat) (s : List Byte) : Option (List U32) :=
  match prev with
  | none => decode n s
  | some v => decodeDelta v n s

/-- A piece of a stream with the numbers `xs`: it has at least one number, two groups are complete, and for a delta stream it
knows the number before it. -/
structure PieceOk (p : Piece) (prev : Option U32) (n : Nat) (xs : List U32) : Prop where
  inside : 4 * p.k < n
  whole : p.two.isSome → 4 * p.k + 8 ≤ n
  before : p.prev = prev.map fun v => (xs.take (4 * p.k)).getLast?.getD v

/-- Address in the part of `out` that belongs to the piece. -/
def inPiece (p : Piece) (n : Nat) (out : U32s) (q : Ptr) : Prop :=
  q.blk = out.blk ∧ out.off + 4 * (4 * p.k) ≤ q.off ∧ q.off < out.off + 4 * (4 * p.k + p.size n)

/-- The pieces have no number in common. -/
def PiecesApart {ι : Type} (ps : ι → Piece) (n : Nat) : Prop :=
  ∀ i j, i ≠ j → 4 * (ps i).k + (ps i).size n ≤ 4 * (ps j).k ∨ 4 * (ps j).k + (ps j).size n ≤ 4 * (ps i).k

private theorem head_run {α : Type} {st : Bytes} {m : Mem} (hT : TablesLoaded m) {k : Nat} (hk : k < st.len)
    (F : Int → Byte → Prog α) :
    run (ctrlSizes st k >>= fun a => getB st k >>= fun c => F a c) m = run (F (psum (rsz st m) (4 * k) : Int) (ctrlOf m st k)) m ∧
    ∀ e ∈ trace (ctrlSizes st k >>= fun a => getB st k >>= fun c => F a c) m, (∃ q, e = .rd q ∧ (inSlice st q ∨ inTables q)) ∨
      e ∈ trace (F (psum (rsz st m) (4 * k) : Int) (ctrlOf m st k)) m := by
  obtain ⟨h1, h2⟩ := ctrlSizes_run (st := st) hT k (by omega)
  have hb := Tests.getB_run st m k hk
  have ht : trace (getB st k) m = [.rd ⟨st.blk, st.off + k⟩] := by
    unfold getB
    rw [if_pos (by omega)]
    simp only [load8, trace, Int.toNat_natCast]
  refine ⟨?_, fun e he => ?_⟩
  · rw [Prog.bind_eq, run_bind, h1]
    show run ((getB st k).bind _) m = _
    rw [run_bind, hb]
    rfl
  · rw [Prog.bind_eq, _root_.SVB.Flat.trace_bind, h1] at he
    rcases List.mem_append.1 he with he | he
    · exact .inl (h2 e he)
    · change e ∈ trace ((getB st k).bind _) m at he
      rw [_root_.SVB.Flat.trace_bind, hb, ht] at he
      rcases List.mem_append.1 he with he | he
      · cases List.mem_singleton.1 he
        exact .inl ⟨_, rfl, .inl ⟨rfl, by simp, by simp; omega⟩⟩
      · exact .inr he

private theorem getB_head {α : Type} {st : Bytes} {m : Mem} {k : Nat} (hk : k < st.len) (F : Byte → Prog α) :
    run (getB st k >>= F) m = run (F (ctrlOf m st k)) m ∧
    ∀ e ∈ trace (getB st k >>= F) m, (∃ q, e = .rd q ∧ (inSlice st q ∨ inTables q)) ∨ e ∈ trace (F (ctrlOf m st k)) m := by
  have hb := Tests.getB_run st m k hk
  have ht : trace (getB st k) m = [.rd ⟨st.blk, st.off + k⟩] := by
    unfold getB
    rw [if_pos (by omega)]
    simp only [load8, trace, Int.toNat_natCast]
  refine ⟨by rw [Prog.bind_eq, run_bind, hb]; rfl, fun e he => ?_⟩
  rw [Prog.bind_eq, _root_.SVB.Flat.trace_bind, hb, ht] at he
  rcases List.mem_append.1 he with he | he
  · cases List.mem_singleton.1 he
    exact .inl ⟨_, rfl, .inl ⟨rfl, by simp, by simp; omega⟩⟩
  · exact .inr he

private theorem from_eq {e : Nat} {s : Slice e} {p : Nat} (h : p ≤ s.len) {z : Int} (hz : z = p) :
    s.from z = .ret ⟨s.blk, s.off + e * p, s.len - p, s.cap - p⟩ := by
  subst hz
  rw [Slice.from, if_pos ⟨by omega, by omega⟩]
  rfl

private theorem numPos_psum {n j : Nat} {st : Bytes} {m : Mem} (hj : j ≤ n) (hs : ctrlLen j ≤ st.len) :
    numPos n (bytesOf m st) j = ctrlLen n + psum (rsz st m) j := by
  unfold numPos
  rw [← lengths_sum m st j hs]
  unfold lengths
  rw [← List.map_take, List.take_range, Nat.min_eq_left hj]

/-- The part of `out` from number `j` on. -/
private abbrev outFrom (out : U32s) (j : Nat) : U32s := ⟨out.blk, out.off + 4 * j, out.len - j, out.cap - j⟩
private abbrev stFrom (st : Bytes) (j : Nat) : Bytes := ⟨st.blk, st.off + 1 * j, st.len - j, st.cap - j⟩

private theorem room_disj {st : Bytes} {out : U32s} {i j : Nat} (hi : i ≤ st.len) (hj : j ≤ out.len)
    (h : Disjoint (⟨st.blk, st.off, st.len + 12, st.cap⟩ : Bytes) out) : Disjoint st (outFrom out j) ∧
      Disjoint (stFrom st i) (outFrom out j) := by
  unfold Disjoint at h ⊢
  simp only at h ⊢
  rcases h with h | h | h
  · exact ⟨.inl h, .inl h⟩
  · exact ⟨.inr (.inl (by omega)), .inr (.inl (by omega))⟩
  · exact ⟨.inr (.inr (by omega)), .inr (.inr (by omega))⟩

/-- What one goroutine reads and writes. -/
private abbrev pieceCtx (p : Piece) (n : Nat) (st : Bytes) (out : U32s) : Ctx :=
  ⟨fun q => inSlice (⟨st.blk, st.off, st.len + 12, st.cap⟩ : Bytes) q ∨ inTables q ∨ inPiece p n out q, inPiece p n out,
    fun _ _ => True⟩

private theorem head_ok {p : Piece} {n : Nat} {st : Bytes} {out : U32s} {e : Event}
    (h : ∃ q, e = .rd q ∧ (inSlice st q ∨ inTables q)) : (pieceCtx p n st out).allows e := by
  obtain ⟨q, rfl, h | h⟩ := h
  · exact .inl ⟨h.1, h.2.1, by have := h.2.2; simp only; omega⟩
  · exact .inr (.inl h)

private theorem st_ok {st : Bytes} {j : Nat} {q : Ptr} (hj : j ≤ st.len) (h : inSlice (stFrom st j) q) :
    inSlice (⟨st.blk, st.off, st.len + 12, st.cap⟩ : Bytes) q := by
  obtain ⟨h1, h2, h3⟩ := h
  simp only at h2 h3
  exact ⟨h1, by simp only; omega, by simp only; omega⟩

private theorem win_ok {st : Bytes} {j : Nat} {c : U16} {q : Ptr} {P : Prop} (hj : j + psum (csz c.toNat) 8 ≤ st.len)
    (h : get8R (stFrom st j) c q) : inSlice (⟨st.blk, st.off, st.len + 12, st.cap⟩ : Bytes) q ∨ inTables q ∨ P := by
  rcases h with h | h | ⟨h1, h2, h3⟩
  · exact .inl (st_ok (by omega) h)
  · exact .inr (.inl h)
  · simp only at h2 h3
    exact .inl ⟨h1, by simp only; omega, by simp only; omega⟩

private theorem inPiece_of {p : Piece} {n : Nat} {out : U32s} {q : Ptr} {c : Nat} (hc : p.size n = c)
    (h : inFirst (outFrom out (4 * p.k)) c q) : inPiece p n out q := by
  obtain ⟨h1, h2, h3⟩ := h
  refine ⟨h1, h2, ?_⟩
  simp only at h3
  omega

private theorem prev_none {p : Piece} {prev : Option U32} {n : Nat} {s : List Byte} {xs : List U32}
    (h : PieceOk p prev n xs) (hx : streamNums prev n s = some xs) :
    (p.prev = none ∧ decode n s = some xs) ∨
    ∃ v, p.prev = some ((xs.take (4 * p.k)).getLast?.getD v) ∧ decodeDelta v n s = some xs := by
  cases prev with
  | none => exact .inl ⟨h.before, hx⟩
  | some v => exact .inr ⟨v, h.before, hx⟩

private theorem streamNums_decode {prev : Option U32} {n : Nat} {s : List Byte} {xs : List U32}
    (hx : streamNums prev n s = some xs) : ∃ ys, decode n s = some ys := by
  cases prev with
  | none => exact ⟨xs, hx⟩
  | some v =>
    unfold streamNums decodeDelta at hx
    cases h : decode n s with
    | none => simp only [h] at hx; cases hx
    | some ys => exact ⟨ys, rfl⟩

private theorem piece_run {p : Piece} {prev : Option U32} {n : Nat} {st : Bytes} {out : U32s} {m : Mem} {xs : List U32}
    (hT : TablesLoaded m) (hh : out.blk.isConst = false)
    (hroom : Disjoint (⟨st.blk, st.off, st.len + 12, st.cap⟩ : Bytes) out) (ho : n ≤ out.len)
    (hx : streamNums prev n (bytesOf m st) = some xs) (h : PieceOk p prev n xs) :
    (∃ m', run (p.prog n st out) m = (.ok (), m') ∧
      wordsN m' (outFrom out (4 * p.k)) (p.size n) = (xs.drop (4 * p.k)).take (p.size n)) ∧
    ∀ e ∈ trace (p.prog n st out) m, (pieceCtx p n st out).allows e := by
  obtain ⟨ys, hy⟩ := streamNums_decode hx
  have hcl := decode_some_len hy
  rw [bytesOf_length] at hcl
  have hcl' := hcl
  simp only [ctrlLen] at hcl'
  have hin := h.inside
  have hp := prev_none h hx
  have hw := h.whole
  clear h hx
  obtain ⟨k, two, pv⟩ := p
  simp only at hin hp hw ⊢
  have hpos := numPos_psum (n := n) (j := 4 * k) (st := st) (m := m) (by omega) (by simp only [ctrlLen]; omega)
  have ho' := from_eq (s := out) (p := 4 * k) (z := 4 * (k : Int)) (by omega) (by omega)
  have hz : (((n + 3) / 4 : Nat) : Int) + (psum (rsz st m) (4 * k) : Int) = (numPos n (bytesOf m st) (4 * k) : Nat) := by
    rw [hpos]; simp only [ctrlLen]; omega
  cases two with
  | none =>
    have hc4 : min 4 (n - 4 * k) ≤ 4 := by omega
    have hck : 4 * k + min 4 (n - 4 * k) ≤ n := by omega
    have hl := numPos_le hy (4 * k) (min 4 (n - 4 * k))
    rw [bytesOf_length] at hl
    have hd := from_eq (s := st) (p := numPos n (bytesOf m st) (4 * k)) (by omega) hz
    have hd0 := from_eq (s := st) (p := numPos n (bytesOf m st) (4 * k)) (by omega) rfl
    obtain ⟨dj, dj'⟩ := room_disj (i := numPos n (bytesOf m st) (4 * k)) (j := 4 * k) (by omega) (by omega) hroom
    rcases hp with ⟨rfl, hp⟩ | ⟨v, rfl, hp⟩
    · obtain ⟨h1, h2⟩ := head_run hT (st := st) (k := k) (by omega) fun a c => out.from (4 * (k : Int)) >>= fun o =>
        st.from (((n + 3) / 4 : Nat) + a) >>= fun d =>
          getUint32Scalar d o c (min 4 (n - 4 * k) : Nat) >>= fun _ => .ret ()
      obtain ⟨m', g1, g2, -⟩ := C52_group (k := k) dj hp hc4 hck hin (show _ ≤ out.len - 4 * k by omega)
      have hf := getUint32_foot (by omega) (ctrlOf m st k) dj' (m := m) (count := (min 4 (n - 4 * k) : Nat)) (n := min 4 (n - 4 * k))
      rw [hd0] at g1
      change run (getUint32Scalar (stFrom st _) (outFrom out _) _ (min 4 (n - 4 * k) : Nat)) m = _ at g1
      have e : (out.from (4 * (k : Int)) >>= fun o => st.from (((n + 3) / 4 : Nat) + (psum (rsz st m) (4 * k) : Int)) >>= fun d =>
          getUint32Scalar d o (ctrlOf m st k) (min 4 (n - 4 * k) : Nat) >>= fun _ => (.ret () : Prog Unit)) =
          (getUint32Scalar (stFrom st (numPos n (bytesOf m st) (4 * k))) (outFrom out (4 * k)) (ctrlOf m st k) (min 4 (n - 4 * k) : Nat)).bind
            fun _ => .ret () := by
        rw [ho']
        show (st.from _ >>= _) = _
        rw [hd]
        rfl
      simp only [e] at h1 h2
      refine ⟨⟨m', ?_, g2⟩, fun ev he => ?_⟩
      · refine Eq.trans (show _ = _ from h1) ?_
        rw [run_bind, g1]
        rfl
      · rcases h2 ev he with h | h
        · exact head_ok h
        · rw [_root_.SVB.Flat.trace_bind, g1] at h
          rcases List.mem_append.1 h with h | h
          · exact allows_mono (c' := pieceCtx _ n st out) (fun q hq => .inl (st_ok (by omega) hq)) (fun q hq => inPiece_of rfl hq) (hf ev h)
          · cases h
    · obtain ⟨h1, h2⟩ := head_run hT (st := st) (k := k) (by omega) fun a c => out.from (4 * (k : Int)) >>= fun o =>
        st.from (((n + 3) / 4 : Nat) + a) >>= fun d =>
          getUint32DeltaScalar d o c (min 4 (n - 4 * k) : Nat) ((xs.take (4 * k)).getLast?.getD v) >>= fun _ => .ret ()
      obtain ⟨m', g1, g2, -⟩ := C52_groupDelta (k := k) v dj hp hc4 hck hin (show _ ≤ out.len - 4 * k by omega)
      have hf := getUint32Delta_foot (by omega) (ctrlOf m st k) ((xs.take (4 * k)).getLast?.getD v) dj' (m := m) (count := (min 4 (n - 4 * k) : Nat)) (n := min 4 (n - 4 * k))
      rw [hd0] at g1
      change run (getUint32DeltaScalar (stFrom st _) (outFrom out _) _ (min 4 (n - 4 * k) : Nat) ((xs.take (4 * k)).getLast?.getD v)) m = _ at g1
      have e : (out.from (4 * (k : Int)) >>= fun o => st.from (((n + 3) / 4 : Nat) + (psum (rsz st m) (4 * k) : Int)) >>= fun d =>
          getUint32DeltaScalar d o (ctrlOf m st k) (min 4 (n - 4 * k) : Nat) ((xs.take (4 * k)).getLast?.getD v) >>= fun _ => (.ret () : Prog Unit)) =
          (getUint32DeltaScalar (stFrom st (numPos n (bytesOf m st) (4 * k))) (outFrom out (4 * k)) (ctrlOf m st k) (min 4 (n - 4 * k) : Nat) ((xs.take (4 * k)).getLast?.getD v)).bind
            fun _ => .ret () := by
        rw [ho']
        show (st.from _ >>= _) = _
        rw [hd]
        rfl
      simp only [e] at h1 h2
      refine ⟨⟨m', ?_, g2⟩, fun ev he => ?_⟩
      · refine Eq.trans (show _ = _ from h1) ?_
        rw [run_bind, g1]
        rfl
      · rcases h2 ev he with h | h
        · exact head_ok h
        · rw [_root_.SVB.Flat.trace_bind, g1] at h
          rcases List.mem_append.1 h with h | h
          · exact allows_mono (c' := pieceCtx _ n st out) (fun q hq => .inl (st_ok (by omega) hq)) (fun q hq => inPiece_of rfl hq) (hf ev h)
          · cases h
  | some f =>
    have hw' : 4 * k + 8 ≤ n := hw rfl
    have hl := numPos_le hy (4 * k) 8
    rw [lengths_group8 hw', bytesOf_getD _ _ _ (by omega), bytesOf_getD _ _ _ (by omega), bytesOf_length, codeLens_sum] at hl
    have hl' : numPos n (bytesOf m st) (4 * k) + psum (csz (mk16 (ctrlOf m st k) (ctrlOf m st (k + 1))).toNat) 8 ≤ st.len := by
      rw [mk16_append]; exact hl
    have hd := from_eq (s := st) (p := numPos n (bytesOf m st) (4 * k)) (by omega) hz
    have hd0 := from_eq (s := st) (p := numPos n (bytesOf m st) (4 * k)) (by omega) rfl
    obtain ⟨dj, dj'⟩ := room_disj (i := numPos n (bytesOf m st) (4 * k)) (j := 4 * k) (by omega) (by omega) hroom
    rcases hp with ⟨rfl, hp⟩ | ⟨v, rfl, hp⟩
    · obtain ⟨h1, h2⟩ := head_run hT (st := st) (k := k) (by omega) fun a c => getB st (k + 1 : Nat) >>= fun c' =>
        out.from (4 * (k : Int)) >>= fun o => st.from (((n + 3) / 4 : Nat) + a) >>= fun d => f.get8 d o (mk16 c c')
      obtain ⟨h3, h4⟩ := getB_head (st := st) (m := m) (k := k + 1) (by omega) fun c' =>
        out.from (4 * (k : Int)) >>= fun o => st.from (((n + 3) / 4 : Nat) + (psum (rsz st m) (4 * k) : Int)) >>= fun d =>
          f.get8 d o (mk16 (ctrlOf m st k) c')
      obtain ⟨m', g1, g2, -⟩ := C52_two_groups f (k := k) (out := outFrom out (4 * k)) ⟨hT, hh, dj⟩ hp hw' (show 8 ≤ out.len - 4 * k by omega)
      have hf := get8_foot f (out := outFrom out (4 * k)) (mk16 (ctrlOf m st k) (ctrlOf m st (k + 1))) ⟨hT, hh, dj'⟩
      rw [hd0, ← mk16_append] at g1
      change run (f.get8 (stFrom st _) (outFrom out _) _) m = _ at g1
      have e : (out.from (4 * (k : Int)) >>= fun o => st.from (((n + 3) / 4 : Nat) + (psum (rsz st m) (4 * k) : Int)) >>= fun d =>
          f.get8 d o (mk16 (ctrlOf m st k) (ctrlOf m st (k + 1)))) =
          f.get8 (stFrom st (numPos n (bytesOf m st) (4 * k))) (outFrom out (4 * k)) (mk16 (ctrlOf m st k) (ctrlOf m st (k + 1))) := by
        rw [ho']
        show (st.from _ >>= _) = _
        rw [hd]
        rfl
      simp only [e] at h3 h4
      refine ⟨⟨m', ?_, g2⟩, fun ev he => ?_⟩
      · exact (show _ = _ from h1).trans (h3.trans g1)
      · rcases h2 ev he with h | h
        · exact head_ok h
        rcases h4 ev h with h | h
        · exact head_ok h
        · exact allows_mono (c' := pieceCtx _ n st out) (fun q hq => win_ok hl' hq) (fun q hq => inPiece_of rfl hq) (hf ev h)
    · obtain ⟨h1, h2⟩ := head_run hT (st := st) (k := k) (by omega) fun a c => getB st (k + 1 : Nat) >>= fun c' =>
        out.from (4 * (k : Int)) >>= fun o => st.from (((n + 3) / 4 : Nat) + a) >>= fun d => f.get8Delta d o (mk16 c c') ((xs.take (4 * k)).getLast?.getD v)
      obtain ⟨h3, h4⟩ := getB_head (st := st) (m := m) (k := k + 1) (by omega) fun c' =>
        out.from (4 * (k : Int)) >>= fun o => st.from (((n + 3) / 4 : Nat) + (psum (rsz st m) (4 * k) : Int)) >>= fun d =>
          f.get8Delta d o (mk16 (ctrlOf m st k) c') ((xs.take (4 * k)).getLast?.getD v)
      obtain ⟨m', g1, g2, -⟩ := C52_two_groupsDelta f v (k := k) (out := outFrom out (4 * k)) ⟨hT, hh, dj⟩ hp hw' (show 8 ≤ out.len - 4 * k by omega)
      have hf := get8Delta_foot f (out := outFrom out (4 * k)) (mk16 (ctrlOf m st k) (ctrlOf m st (k + 1))) ((xs.take (4 * k)).getLast?.getD v) ⟨hT, hh, dj'⟩
      rw [hd0, ← mk16_append] at g1
      change run (f.get8Delta (stFrom st _) (outFrom out _) _ ((xs.take (4 * k)).getLast?.getD v)) m = _ at g1
      have e : (out.from (4 * (k : Int)) >>= fun o => st.from (((n + 3) / 4 : Nat) + (psum (rsz st m) (4 * k) : Int)) >>= fun d =>
          f.get8Delta d o (mk16 (ctrlOf m st k) (ctrlOf m st (k + 1))) ((xs.take (4 * k)).getLast?.getD v)) =
          f.get8Delta (stFrom st (numPos n (bytesOf m st) (4 * k))) (outFrom out (4 * k)) (mk16 (ctrlOf m st k) (ctrlOf m st (k + 1))) ((xs.take (4 * k)).getLast?.getD v) := by
        rw [ho']
        show (st.from _ >>= _) = _
        rw [hd]
        rfl
      simp only [e] at h3 h4
      refine ⟨⟨m', ?_, g2⟩, fun ev he => ?_⟩
      · exact (show _ = _ from h1).trans (h3.trans g1)
      · rcases h2 ev he with h | h
        · exact head_ok h
        rcases h4 ev h with h | h
        · exact head_ok h
        · exact allows_mono (c' := pieceCtx _ n st out) (fun q => by
            rintro (hq | hq)
            · exact win_ok hl' hq
            · exact .inr (.inr (inPiece_of rfl hq))) (fun q hq => inPiece_of rfl hq) (hf ev h)

private theorem wordsN_at {m : Mem} {out : U32s} {n t : Nat} (h : t < n) : (wordsN m out n)[t]? =
    some (m ⟨out.blk, out.off + 4 * t + 3⟩ ++ m ⟨out.blk, out.off + 4 * t + 2⟩ ++
      m ⟨out.blk, out.off + 4 * t + 1⟩ ++ m ⟨out.blk, out.off + 4 * t⟩) := by
  unfold wordsN
  rw [List.getElem?_map, List.getElem?_range h]
  rfl

private theorem piece_word {p : Piece} {n t : Nat} {out : U32s} {m m' : Mem} {xs : List U32}
    (hw : wordsN m' (outFrom out (4 * p.k)) (p.size n) = (xs.drop (4 * p.k)).take (p.size n))
    (hm : ∀ q, inPiece p n out q → m q = m' q) (h1 : 4 * p.k ≤ t) (h2 : t < 4 * p.k + p.size n) (h3 : t < n) :
    (wordsN m out n)[t]? = xs[t]? := by
  have e : (wordsN m' (outFrom out (4 * p.k)) (p.size n))[t - 4 * p.k]? = ((xs.drop (4 * p.k)).take (p.size n))[t - 4 * p.k]? := by
    rw [hw]
  rw [wordsN_at (by omega), List.getElem?_take, if_pos (by omega), List.getElem?_drop,
    show 4 * p.k + (t - 4 * p.k) = t by omega] at e
  rw [wordsN_at h3, ← e]
  have k : out.off + 4 * (4 * p.k) + 4 * (t - 4 * p.k) = out.off + 4 * t := by omega
  simp only [k]
  have hq : ∀ j < 4, inPiece p n out ⟨out.blk, out.off + 4 * t + j⟩ := fun j hj =>
    ⟨rfl, by simp only; omega, by simp only; omega⟩
  have h0 := hm _ (hq 0 (by omega))
  simp only [Nat.add_zero] at h0
  rw [hm _ (hq 3 (by omega)), hm _ (hq 2 (by omega)), hm _ (hq 1 (by omega)), h0]

/-- C85: goroutines decode pieces of one stream at the same time, each into its own part of `out`, each by a block function in any
variant.  Under every schedule that gives each enough turns all of them return; every number of a piece is then the number
`ReadAll` would have put there; all memory outside the pieces is as before.  The twelve bytes after the stream must not belong to
`out`, because the vector loads may reach them. -/
theorem C85_pieces {ι : Type} [DecidableEq ι] (ps : ι → Piece) {prev : Option U32} {n : Nat} {st : Bytes} {out : U32s} {m : Mem}
    {xs : List U32} (hT : TablesLoaded m) (hh : out.blk.isConst = false)
    (hroom : Disjoint (⟨st.blk, st.off, st.len + 12, st.cap⟩ : Bytes) out) (ho : n ≤ out.len)
    (hx : streamNums prev n (bytesOf m st) = some xs) (hok : ∀ i, PieceOk (ps i) prev n xs) (hap : PiecesApart ps n)
    (sched : List ι) (hfair : ∀ i, (trace ((ps i).prog n st out) m).length ≤ sched.count i) :
    (∀ i, (Conf.exec ⟨fun i => (ps i).prog n st out, m⟩ sched).prog i = .ret ()) ∧
    (∀ i t, 4 * (ps i).k ≤ t → t < 4 * (ps i).k + (ps i).size n →
      (wordsN (Conf.exec ⟨fun i => (ps i).prog n st out, m⟩ sched).mem out n)[t]? = xs[t]?) ∧
    ∀ q, (∀ i, ¬ inPiece (ps i) n out q) → (Conf.exec ⟨fun i => (ps i).prog n st out, m⟩ sched).mem q = m q := by
  have hr := fun i => piece_run hT hh hroom ho hx (hok i)
  have size_le : ∀ i, 4 * (ps i).k + (ps i).size n ≤ n := by
    intro i
    have h1 := (hok i).inside
    have h2 := (hok i).whole
    unfold Piece.size
    split
    · omega
    · rename_i he
      exact h2 (by rw [he]; rfl)
  have hs : Separate (fun i => (pieceCtx (ps i) n st out).R) (fun i => (pieceCtx (ps i) n st out).W) := by
    have ww : ∀ i j q, i ≠ j → inPiece (ps i) n out q → ¬ inPiece (ps j) n out q := by
      rintro i j q hij ⟨a1, a2, a3⟩ ⟨b1, b2, b3⟩
      rcases hap i j hij with h | h <;> omega
    refine ⟨fun i j q hij hw => ?_, ww⟩
    rintro (h | h | h)
    · refine disjoint_segs hroom q h ⟨hw.1, by have := hw.2.1; omega, ?_⟩
      have := hw.2.2
      have := size_le i
      omega
    · have h1 : q.blk.isConst = false := by rw [hw.1]; exact hh
      unfold inTables at h
      cases hb : q.blk <;> simp [hb, Block.isConst] at h1 h
    · exact ww i j q hij hw h
  have := noninterference hs (p := fun i => (ps i).prog n st out) (m := m) (fun i => (hr i).2) sched hfair
  refine ⟨fun i => ?_, fun i t h1 h2 => ?_, this.2⟩
  · obtain ⟨m', e, -⟩ := (hr i).1
    rw [(this.1 i).1, e]
    rfl
  · obtain ⟨m', e, hw⟩ := (hr i).1
    refine piece_word hw (fun q hq => ?_) h1 h2 (by have := size_le i; omega)
    rw [(this.1 i).2 q (.inr hq), e]

/-- C85: if every number belongs to a piece, `out` holds afterwards what `ReadAll` or `ReadAllDelta` would have put there. -/
theorem C85_whole {ι : Type} [DecidableEq ι] (ps : ι → Piece) {prev : Option U32} {n : Nat} {st : Bytes} {out : U32s} {m : Mem}
    {xs : List U32} (hT : TablesLoaded m) (hh : out.blk.isConst = false)
    (hroom : Disjoint (⟨st.blk, st.off, st.len + 12, st.cap⟩ : Bytes) out) (ho : n ≤ out.len)
    (hx : streamNums prev n (bytesOf m st) = some xs) (hok : ∀ i, PieceOk (ps i) prev n xs) (hap : PiecesApart ps n)
    (hall : ∀ t < n, ∃ i, 4 * (ps i).k ≤ t ∧ t < 4 * (ps i).k + (ps i).size n)
    (sched : List ι) (hfair : ∀ i, (trace ((ps i).prog n st out) m).length ≤ sched.count i) :
    wordsN (Conf.exec ⟨fun i => (ps i).prog n st out, m⟩ sched).mem out n = xs ∧
    ∀ q, ¬ inFirst out n q → (Conf.exec ⟨fun i => (ps i).prog n st out, m⟩ sched).mem q = m q := by
  obtain ⟨-, h2, h3⟩ := C85_pieces ps hT hh hroom ho hx hok hap sched hfair
  have hlen : xs.length = n := by
    cases prev with
    | none => exact decode_length hx
    | some v =>
      obtain ⟨ys, hy⟩ := streamNums_decode hx
      have := decode_length hy
      unfold streamNums decodeDelta at hx
      simp only [hy, Option.map_some, Option.some.injEq] at hx
      rw [← hx, undelta_length, this]
  refine ⟨List.ext_getElem? fun t => ?_, fun q hq => h3 q fun i hi => hq ?_⟩
  · by_cases ht : t < n
    · obtain ⟨i, a, b⟩ := hall t ht
      exact h2 i t a b
    · rw [List.getElem?_eq_none (by rw [wordsN_length]; omega), List.getElem?_eq_none (by omega)]
  · have h1 := (hok i).inside
    have h4 := (hok i).whole
    have h5 := hi.2.2
    refine ⟨hi.1, by have := hi.2.1; omega, ?_⟩
    unfold Piece.size at h5
    split at h5
    · omega
    · rename_i he
      have := h4 (by rw [he]; rfl)
      omega

/-! Concrete instance: the five groups of `exStream` in four goroutines, two groups in one of them by vector instructions; taking
turns, and as a delta stream after the number 7. -/

def exPieceNums : List U32 := [5, 9, 1, 2, 3, 4, 5, 6, 7, 8, 9, 0x0d0c0b0a, 14, 15, 16, 17, 18, 0x1413, 0x171615]

def exPieces : _root_.Fin 4 → Piece
  | 0 => ⟨3, none, none⟩
  | 1 => ⟨1, some .fast, none⟩
  | 2 => ⟨4, none, none⟩
  | 3 => ⟨0, none, none⟩

theorem exPieces_ok : streamNums none 19 (bytesOf exRMem exSt) = some exPieceNums ∧
    (∀ i, PieceOk (exPieces i) none 19 exPieceNums) ∧ PiecesApart exPieces 19 ∧
    (∀ t < 19, ∃ i, 4 * (exPieces i).k ≤ t ∧ t < 4 * (exPieces i).k + (exPieces i).size 19) ∧
    ∀ i, (trace ((exPieces i).prog 19 exSt exOut) exRMem).length ≤ ((List.replicate 200 [0, 1, 2, 3]).flatten : List (_root_.Fin 4)).count i := by
  refine ⟨by decide +kernel, fun i => ?_, ?_, by decide +kernel, by decide +kernel⟩
  · match i with
    | 0 | 1 | 2 | 3 => exact ⟨by decide, by decide, rfl⟩
  · intro i j hij
    match i, j with
    | 0, 1 | 0, 2 | 0, 3 | 1, 0 | 1, 2 | 1, 3 | 2, 0 | 2, 1 | 2, 3 | 3, 0 | 3, 1 | 3, 2 => decide
    | 0, 0 | 1, 1 | 2, 2 | 3, 3 => exact absurd rfl hij

example := C85_whole exPieces (n := 19) (st := exSt) (out := exOut) (m := exRMem) exReader.tables rfl (.inl (by decide)) (by decide)
  exPieces_ok.1 exPieces_ok.2.1 exPieces_ok.2.2.1 exPieces_ok.2.2.2.1 _ exPieces_ok.2.2.2.2

example : PieceOk ⟨1, some .fast, some 24⟩ (some 7) 19 (undelta 7 exPieceNums) ∧
    streamNums (some 7) 19 (bytesOf exRMem exSt) = some (undelta 7 exPieceNums) :=
  ⟨⟨by decide, by decide, by decide +kernel⟩, by decide +kernel⟩

end SVB.Props
