import Verif.Model.Archive
import Verif.Proofs.Results
import Verif.Proofs.FlatAcc
import Verif.Proofs.VarintStream
import Verif.Proofs.TestSteps
import Verif.Props.Readers

/-! # C84: streams kept one after another in one buffer -/

set_option autoImplicit false

namespace SVB.Props
open Spec

/-! ## Where a stream ends -/

theorem psum_spare (f : Nat → Nat) (hf : ∀ i, 1 ≤ f i) (n : Nat) : ∀ d, psum f n + d ≤ psum f (n + d) ∧
    (psum f (n + d) = psum f n + d ↔ ∀ i, n ≤ i → i < n + d → f i = 1)
  | 0 => ⟨Nat.le_refl _, by simp; intro i h1 h2; omega⟩
  | d + 1 => by
    obtain ⟨h1, h2⟩ := psum_spare f hf n d
    have h3 := hf (n + d)
    rw [show n + (d + 1) = n + d + 1 from rfl, psum_succ]
    refine ⟨by omega, fun h => ?_, fun h => ?_⟩
    · have h4 := h2.1 (by omega)
      intro i hi hi'
      by_cases hd : i < n + d
      · exact h4 i hi hd
      · rw [show i = n + d by omega]; omega
    · have := h2.2 fun i hi hi' => h i hi (by omega)
      have := h (n + d) (by omega) (by omega)
      omega

theorem ctrlSizes_run {st : Bytes} {m : Mem} (hT : TablesLoaded m) : ∀ k ≤ st.len,
    run (ctrlSizes st k) m = (.ok (psum (rsz st m) (4 * k) : Int), m) ∧
    ∀ e ∈ trace (ctrlSizes st k) m, ∃ q, e = .rd q ∧ (inSlice st q ∨ inTables q)
  | 0, _ => ⟨rfl, by intro e he; cases he⟩
  | k + 1, hk => by
    obtain ⟨h1, h2⟩ := ctrlSizes_run (st := st) hT k (by omega)
    have hb := Tests.getB_run st m k (by omega)
    have hz := controlByteToSize_run (m ⟨st.blk, st.off + k⟩) hT
    have ht : trace (getB st k) m = [.rd ⟨st.blk, st.off + k⟩] := by
      unfold getB
      rw [if_pos (by omega)]
      simp only [load8, trace, Int.toNat_natCast]
    have hsum : (codeLens 4 (m ⟨st.blk, st.off + k⟩).toNat).sum + psum (rsz st m) (4 * k) = psum (rsz st m) (4 * (k + 1)) := by
      rw [codeLens_sum, show 4 * (k + 1) = 4 * k + 1 + 1 + 1 + 1 by omega]
      simp only [psum, rsz, csz, code, show (4 * k) / 4 = k by omega, show (4 * k + 1) / 4 = k by omega,
        show (4 * k + 1 + 1) / 4 = k by omega, show (4 * k + 1 + 1 + 1) / 4 = k by omega, show (4 * k) % 4 = 0 by omega,
        show (4 * k + 1) % 4 = 1 by omega, show (4 * k + 1 + 1) % 4 = 2 by omega, show (4 * k + 1 + 1 + 1) % 4 = 3 by omega]
      omega
    have e : ctrlSizes st (k + 1) = (ctrlSizes st k).bind fun a => (getB st k).bind fun c => (controlByteToSize c).bind fun z =>
      .ret (a + z) := rfl
    rw [e]
    refine ⟨?_, ?_⟩
    · rw [run_bind, h1]
      show run ((getB st k).bind _) m = _
      rw [run_bind, hb]
      show run ((controlByteToSize _).bind _) m = _
      rw [run_bind, hz]
      show (Outcome.ok _, m) = _
      rw [← hsum]
      refine congrArg (fun (z : Int) => (Outcome.ok z, m)) ?_
      omega
    · intro e he
      rw [_root_.SVB.Flat.trace_bind, h1] at he
      rcases List.mem_append.1 he with he | he
      · exact h2 e he
      · change e ∈ trace ((getB st k).bind _) m at he
        rw [_root_.SVB.Flat.trace_bind, hb, ht] at he
        rcases List.mem_append.1 he with he | he
        · cases List.mem_singleton.1 he
          exact ⟨_, rfl, .inl ⟨rfl, by simp, by simp; omega⟩⟩
        · change e ∈ trace ((controlByteToSize _).bind _) m at he
          rw [_root_.SVB.Flat.trace_bind, hz] at he
          rcases List.mem_append.1 he with he | he
          · cases List.mem_singleton.1 he
            exact ⟨_, rfl, .inr (BitVec.isLt _)⟩
          · cases he

private theorem streamSize_run {n : Nat} {st : Bytes} {m : Mem} (hT : TablesLoaded m) (hs : ctrlLen n ≤ st.len) :
    run (streamSize n st) m = (.ok ((ctrlLen n : Int) + psum (rsz st m) (4 * ctrlLen n) - (4 * ctrlLen n - n : Int)), m) ∧
    ∀ e ∈ trace (streamSize n st) m, ∃ q, e = .rd q ∧ (inSlice st q ∨ inTables q) := by
  obtain ⟨h1, h2⟩ := ctrlSizes_run (st := st) hT (ctrlLen n) hs
  have e : streamSize n st = (ctrlSizes st (ctrlLen n)).bind fun a =>
    .ret (((n + 3) / 4 : Nat) + a - (4 * ((n + 3) / 4 : Nat) - n : Int)) := rfl
  rw [e]
  refine ⟨?_, fun e he => ?_⟩
  · rw [run_bind, h1]; rfl
  · rw [_root_.SVB.Flat.trace_bind, h1] at he
    rcases List.mem_append.1 he with he | he
    · exact h2 e he
    · cases he

/-- C84: the computed size of a stream is where its data ends, or more; it is right exactly when the unused control bits are
zero, as all writers leave them. -/
theorem C84_size {n : Nat} {st : Bytes} {m : Mem} (hT : TablesLoaded m) (hs : ctrlLen n ≤ st.len) :
    ∃ z : Nat, run (streamSize n st) m = (.ok (z : Int), m) ∧ needed m st n ≤ z ∧
      (z = needed m st n ↔ SpareZero n (bytesOf m st)) := by
  have hd : n + (4 * ctrlLen n - n) = 4 * ctrlLen n := by unfold ctrlLen; omega
  obtain ⟨h1, h2⟩ := psum_spare (rsz st m) (fun i => by unfold rsz; omega) n (4 * ctrlLen n - n)
  rw [hd] at h1 h2
  have hn : needed m st n = ctrlLen n + psum (rsz st m) n := by unfold needed; rw [lengths_sum m st n hs]
  refine ⟨ctrlLen n + psum (rsz st m) (4 * ctrlLen n) - (4 * ctrlLen n - n), ?_, by omega, ?_⟩
  · rw [(streamSize_run hT hs).1]
    refine congrArg (fun (z : Int) => (Outcome.ok z, m)) ?_
    have : n ≤ 4 * ctrlLen n := by omega
    omega
  · rw [hn]
    have e : SpareZero n (bytesOf m st) ↔ ∀ i, n ≤ i → i < 4 * ctrlLen n → rsz st m i = 1 := by
      unfold SpareZero rsz
      refine ⟨fun h i hi hi' => ?_, fun h i hi hi' => ?_⟩
      · have := h i hi hi'
        rw [bytesOf_getD _ _ _ (by omega)] at this
        omega
      · have := h i hi hi'
        rw [bytesOf_getD _ _ _ (by omega)]
        omega
    rw [e, ← h2]
    omega

/-! ## Reading them -/

/-- The bytes of the stream that holds the numbers `xs`. -/
def itemStream (i : Item) (xs : List U32) : List Byte :=
  match i.prev with
  | none => encode xs
  | some p => encode (delta p xs)

/-- The streams of the items, one after another. -/
def streams (ps : List (Item × List U32)) : List Byte := ps.flatMap fun p => itemStream p.1 p.2

/-- The outputs have room, and share no memory with the buffer or with each other. -/
structure ItemsOk (buf : Bytes) (ps : List (Item × List U32)) : Prop where
  valid : ∀ p ∈ ps, Valid p.1.out
  apart : ∀ p ∈ ps, Disjoint buf p.1.out
  room : ∀ p ∈ ps, p.1.count ≤ p.1.out.len
  count : ∀ p ∈ ps, p.2.length = p.1.count
  each : ps.Pairwise fun p q => Disjoint p.1.out q.1.out

private theorem stream_length (i : Item) (xs : List U32) (t : List Byte) :
    (itemStream i xs).length = ctrlLen xs.length + (lengths xs.length (itemStream i xs ++ t)).sum ∧
    SpareZero xs.length (itemStream i xs ++ t) := by
  have key : ∀ ys : List U32, (encode ys).length = ctrlLen ys.length + (lengths ys.length (encode ys ++ t)).sum ∧
      SpareZero ys.length (encode ys ++ t) := by
    intro ys
    refine ⟨?_, encode_spareZero ys t⟩
    rw [show encode ys ++ t = ctrls ys ++ (dataBytes ys ++ t) by simp [encode], lengths_encode, encode, List.length_append,
      ctrls_length, dataBytes_length]
  unfold itemStream
  cases i.prev with
  | none => exact key xs
  | some p => have := key (delta p xs); rwa [delta_length] at this

private theorem item_result (i : Item) {st : Bytes} {m : Mem} {xs : List U32} {t : List Byte}
    (h : ReaderPre i.count st i.out m) (hn : xs.length = i.count) (hb : bytesOf m st = itemStream i xs ++ t) :
    ReadResult (i.read st) m i.out i.count (some xs) ∧
    ∀ e ∈ trace (i.read st) m,
      (rctx st i.out i.count m (fun q => inFirst i.out i.count q ∨ overR st i.count m q)).allows e := by
  unfold Item.read
  unfold itemStream at hb
  cases hp : i.prev with
  | none =>
    rw [hp] at hb
    have h1 := read_result i.f h
    rw [hb, ← hn, decode_encode] at h1
    rw [← hn]
    refine ⟨h1, fun e he => ?_⟩
    have h2 := read_foot i.f h e (by rw [← hn]; exact he)
    rw [← hn] at h2
    revert h2
    cases e with
    | rd q =>
      rintro (h2 | h2 | h2)
      · exact .inl h2
      · exact .inr (.inl h2)
      · exact .inr (.inr (.inr h2))
    | wr q => exact id
  | some p =>
    rw [hp] at hb
    have h1 := readDelta_result i.f p h
    have hl := delta_length p xs
    rw [hb, ← hn, decodeDelta, ← hl, decode_encode] at h1
    rw [hl, Option.map_some, undelta_delta] at h1
    rw [← hn]
    refine ⟨h1, fun e he => ?_⟩
    have h2 := readDelta_foot i.f p h e (by rw [← hn]; exact he)
    rw [← hn] at h2
    exact h2

private theorem bytesOf_drop {st : Bytes} {m : Mem} {p : Nat} :
    bytesOf m ⟨st.blk, st.off + 1 * p, st.len - p, st.cap - p⟩ = (bytesOf m st).drop p := by
  refine List.ext_getElem (by simp [bytesOf]) fun i h1 h2 => ?_
  simp only [bytesOf, List.getElem_map, List.getElem_range, List.getElem_drop]
  rw [Nat.one_mul, Nat.add_assoc]

private theorem bytesOf_same {m m' : Mem} {s : Bytes} (h : ∀ q, inSlice s q → m q = m' q) : bytesOf m s = bytesOf m' s := by
  unfold bytesOf
  refine List.map_congr_left fun i hi => ?_
  have := List.mem_range.1 hi
  exact h _ ⟨rfl, by simp, by simp; omega⟩

private theorem disj_rest {st : Bytes} {out : U32s} (p : Nat) (hp : p ≤ st.len) (h : Disjoint st out) :
    Disjoint (⟨st.blk, st.off + 1 * p, st.len - p, st.cap - p⟩ : Bytes) out := by
  rcases h with h | h | h
  · exact .inl h
  · exact .inr (.inl (by simp only at h ⊢; omega))
  · exact .inr (.inr (by simp only at h ⊢; omega))

private theorem disj_first {e : Nat} {s : Slice e} {out : U32s} {n : Nat} (h : Disjoint s out) (hn : n ≤ out.len) {q : Ptr}
    (hq : inSlice s q) : ¬ inFirst out n q := by
  rintro ⟨h1, h2, h3⟩
  obtain ⟨g1, g2, g3⟩ := hq
  rcases h with h | h | h
  · exact h (g1.symm.trans h1)
  · omega
  · omega

/-- What reading the streams may touch: it loads from the buffer, the tables, the outputs, and at most 3 bytes past the last stream;
it stores into the outputs. -/
def archiveAllows (buf : Bytes) (ps : List (Item × List U32)) : Event → Prop
  | .rd q => inSlice buf q ∨ inTables q ∨ (∃ p ∈ ps, inFirst p.1.out p.1.count q) ∨
      (q.blk = buf.blk ∧ buf.off ≤ q.off ∧ q.off < buf.off + (streams ps).length + 3)
  | .wr q => ∃ p ∈ ps, inFirst p.1.out p.1.count q

private theorem archive : ∀ (ps : List (Item × List U32)) (buf : Bytes) (m : Mem) (rest : List Byte), TablesLoaded m →
    buf.len ≤ buf.cap → ItemsOk buf ps → bytesOf m buf = streams ps ++ rest →
    (∃ m', run (readItems (ps.map (·.1)) buf) m =
        (.ok ⟨buf.blk, buf.off + (streams ps).length, buf.len - (streams ps).length, buf.cap - (streams ps).length⟩, m') ∧
      (∀ p ∈ ps, wordsN m' p.1.out p.1.count = p.2) ∧
      ∀ q, (∀ p ∈ ps, ¬ inFirst p.1.out p.1.count q) → m' q = m q) ∧
    ∀ e ∈ trace (readItems (ps.map (·.1)) buf) m, archiveAllows buf ps e
  | [], buf, m, rest, _, _, _, _ => by
    refine ⟨⟨m, ?_, fun p hp => (by cases hp), fun q _ => rfl⟩, fun e he => by cases he⟩
    simp only [List.map_nil, readItems, streams, List.flatMap_nil, List.length_nil, Nat.add_zero, Nat.sub_zero]
    rfl
  | (i, xs) :: ps, buf, m, rest, hT, hcap, hok, hb => by
    have hst : streams ((i, xs) :: ps) = itemStream i xs ++ streams ps := rfl
    rw [hst, List.append_assoc] at hb
    have hlen : buf.len = (itemStream i xs).length + ((streams ps).length + rest.length) := by
      rw [← bytesOf_length m buf, hb, List.length_append, List.length_append]
    have hn : xs.length = i.count := hok.count _ (List.mem_cons_self ..)
    have hroom : i.count ≤ i.out.len := hok.room _ (List.mem_cons_self ..)
    have hap : Disjoint buf i.out := hok.apart _ (List.mem_cons_self ..)
    obtain ⟨hL, hS⟩ := stream_length i xs (streams ps ++ rest)
    rw [hn] at hL hS
    rw [← hb] at hL hS
    obtain ⟨⟨⟨m1, hr, hw⟩, hfr⟩, htr⟩ := item_result i ⟨hT, hcap, hok.valid _ (List.mem_cons_self ..), hap, hroom⟩ hn hb
    rw [hr] at hfr
    have hT1 : TablesLoaded m1 := hT.frame fun q hq => hfr q fun h => by
      have := (hok.valid _ (List.mem_cons_self ..)).heap
      rw [h.1, this] at hq; cases hq
    have hb1 : bytesOf m1 buf = bytesOf m buf := bytesOf_same fun q hq => hfr q (disj_first hap hroom hq)
    have hcl : ctrlLen i.count ≤ buf.len := by omega
    obtain ⟨z, hz, -, hz'⟩ := C84_size hT1 hcl
    have hneed : needed m1 buf i.count = (itemStream i xs).length := by unfold needed; rw [hb1]; exact hL.symm
    have hzl : z = (itemStream i xs).length := by rw [← hneed]; exact hz'.2 (by rw [hb1]; exact hS)
    subst hzl
    have hsz := (streamSize_run hT1 hcl).2
    -- the rest of the buffer
    generalize hL' : (itemStream i xs).length = L at *
    have hb2 : bytesOf m1 ⟨buf.blk, buf.off + 1 * L, buf.len - L, buf.cap - L⟩ = streams ps ++ rest := by
      rw [bytesOf_drop, hb1, hb, ← hL', List.drop_left]
    have hok2 : ItemsOk ⟨buf.blk, buf.off + 1 * L, buf.len - L, buf.cap - L⟩ ps :=
      { valid := fun p hp => hok.valid p (List.mem_cons_of_mem _ hp)
        apart := fun p hp => disj_rest L (by omega) (hok.apart p (List.mem_cons_of_mem _ hp))
        room := fun p hp => hok.room p (List.mem_cons_of_mem _ hp)
        count := fun p hp => hok.count p (List.mem_cons_of_mem _ hp)
        each := (List.pairwise_cons.1 hok.each).2 }
    obtain ⟨⟨m2, hr2, hw2, hfr2⟩, htr2⟩ := archive ps _ m1 rest hT1 (by simp only; omega) hok2 hb2
    have hfrom : (buf.from (L : Int) : Prog Bytes) = .ret ⟨buf.blk, buf.off + 1 * L, buf.len - L, buf.cap - L⟩ := by
      rw [Slice.from, if_pos ⟨by omega, by omega⟩]; rfl
    have e : readItems (((i, xs) :: ps).map (·.1)) buf = (i.read buf).bind fun _ => (streamSize i.count buf).bind fun k =>
      (buf.from k : Prog Bytes).bind fun r => readItems (ps.map (·.1)) r := rfl
    have hstl : (streams ((i, xs) :: ps)).length = L + (streams ps).length := by rw [hst, List.length_append, hL']
    rw [e]
    refine ⟨⟨m2, ?_, fun p hp => ?_, fun q hq => ?_⟩, fun ev hev => ?_⟩
    · rw [run_bind, hr]
      show run ((streamSize i.count buf).bind _) m1 = _
      rw [run_bind, hz]
      show run ((buf.from (L : Int) : Prog Bytes).bind _) m1 = _
      rw [hfrom]
      show run (readItems _ _) m1 = _
      rw [hr2, hstl]
      simp only [Nat.one_mul, Nat.add_assoc, Nat.sub_sub]
    · rcases List.mem_cons.1 hp with rfl | hp
      · show wordsN m2 i.out i.count = xs
        rw [← hw]
        refine wordsN_congr' fun q hq => hfr2 q fun p hp => ?_
        have := (List.pairwise_cons.1 hok.each).1 p hp
        exact disj_first this (hok.room p (List.mem_cons_of_mem _ hp)) ⟨hq.1, hq.2.1, by have := hq.2.2; simp only at this ⊢; omega⟩
      · exact hw2 p hp
    · rw [hfr2 q fun p hp => hq p (List.mem_cons_of_mem _ hp)]
      exact hfr q (hq _ (List.mem_cons_self ..))
    · rw [_root_.SVB.Flat.trace_bind, hr] at hev
      rcases List.mem_append.1 hev with hev | hev
      · have h1 := htr ev hev
        cases ev with
        | wr q => exact ⟨_, List.mem_cons_self .., h1.1, h1.2.1, h1.2.2⟩
        | rd q =>
          rcases h1 with h1 | h1 | h1 | h1
          · exact .inl h1
          · exact .inr (.inl h1)
          · exact .inr (.inr (.inl ⟨_, List.mem_cons_self .., h1⟩))
          · refine .inr (.inr (.inr ⟨h1.1, by have := h1.2.1; omega, ?_⟩))
            have h2 := h1.2.2.2.1
            rw [lengths_sum m buf i.count hcl] at hL
            unfold rB at h2
            have h4 : (4 - i.count % 4) % 4 ≤ 3 := by omega
            rw [hstl]
            generalize (4 - i.count % 4) % 4 = w at h2 h4
            omega
      · change ev ∈ trace ((streamSize i.count buf).bind _) m1 at hev
        rw [_root_.SVB.Flat.trace_bind, hz] at hev
        rcases List.mem_append.1 hev with hev | hev
        · obtain ⟨q, rfl, h1⟩ := hsz ev hev
          exact h1.elim .inl fun h => .inr (.inl h)
        · change ev ∈ trace ((buf.from (L : Int) : Prog Bytes).bind _) m1 at hev
          rw [hfrom] at hev
          have h1 := htr2 ev hev
          cases ev with
          | wr q => obtain ⟨p, hp, h⟩ := h1; exact ⟨p, List.mem_cons_of_mem _ hp, h⟩
          | rd q =>
            rcases h1 with h1 | h1 | ⟨p, hp, h1⟩ | h1
            · refine .inl ⟨h1.1, ?_, ?_⟩
              · have := h1.2.1; simp only at this; omega
              · have := h1.2.2; simp only at this; omega
            · exact .inr (.inl h1)
            · exact .inr (.inr (.inl ⟨p, List.mem_cons_of_mem _ hp, h1⟩))
            · obtain ⟨g1, g2, g3⟩ := h1
              simp only at g1 g2 g3
              refine .inr (.inr (.inr ⟨g1, by omega, ?_⟩))
              rw [hstl]
              omega

/-- C84: streams lie one after another in a buffer.  A caller who knows how many numbers each holds reads them one by one, finding
where each ends from its control bytes: all numbers come out right, what follows the last stream is returned untouched, and nothing
but the outputs changes. -/
theorem C84_read {ps : List (Item × List U32)} {buf : Bytes} {m : Mem} {rest : List Byte} (hT : TablesLoaded m)
    (hc : buf.len ≤ buf.cap) (h : ItemsOk buf ps) (hb : bytesOf m buf = streams ps ++ rest) :
    ∃ r m', run (readItems (ps.map (·.1)) buf) m = (.ok r, m') ∧
      r = ⟨buf.blk, buf.off + (streams ps).length, buf.len - (streams ps).length, buf.cap - (streams ps).length⟩ ∧
      bytesOf m' r = rest ∧ (∀ p ∈ ps, wordsN m' p.1.out p.1.count = p.2) ∧
      ∀ q, (∀ p ∈ ps, ¬ inFirst p.1.out p.1.count q) → m' q = m q := by
  obtain ⟨⟨m', h1, h2, h3⟩, -⟩ := archive ps buf m rest hT hc h hb
  refine ⟨_, m', h1, rfl, ?_, h2, h3⟩
  have := bytesOf_drop (st := buf) (m := m') (p := (streams ps).length)
  rw [Nat.one_mul] at this
  rw [this, show bytesOf m' buf = bytesOf m buf from bytesOf_same fun q hq => h3 q fun p hp =>
    disj_first (h.apart p hp) (h.room p hp) hq, hb, List.drop_left]

/-- C84: while doing so it touches only the buffer, the tables and the outputs, and at most 3 bytes past the end of the last
stream: with 3 bytes after it, it never leaves the buffer. -/
theorem C84_touched {ps : List (Item × List U32)} {buf : Bytes} {m : Mem} {rest : List Byte} (hT : TablesLoaded m)
    (hc : buf.len ≤ buf.cap) (h : ItemsOk buf ps) (hb : bytesOf m buf = streams ps ++ rest) :
    (∀ e ∈ trace (readItems (ps.map (·.1)) buf) m, archiveAllows buf ps e) ∧
    (3 ≤ rest.length → ∀ q, .rd q ∈ trace (readItems (ps.map (·.1)) buf) m →
      inSlice buf q ∨ inTables q ∨ ∃ p ∈ ps, inFirst p.1.out p.1.count q) := by
  have h1 := (archive ps buf m rest hT hc h hb).2
  refine ⟨h1, fun h3 q hq => ?_⟩
  have hl : buf.len = (streams ps).length + rest.length := by rw [← bytesOf_length m buf, hb, List.length_append]
  rcases h1 _ hq with h | h | h | ⟨g1, g2, g3⟩
  · exact .inl h
  · exact .inr (.inl h)
  · exact .inr (.inr h)
  · exact .inl ⟨g1, g2, by omega⟩

/-! ## A buffer of three streams -/

def exItems : List (Item × List U32) :=
  [(⟨.scalar, 5, ⟨.heap 2, 0, 5, 5⟩, none⟩, [1, 300, 70000, 0xffffffff, 7]),
   (⟨.fast, 2, ⟨.heap 3, 4, 2, 3⟩, some 10⟩, [1000, 999]),
   (⟨.auto ⟨true, true, true⟩, 3, ⟨.heap 3, 12, 4, 4⟩, none⟩, [0, 256, 5])]

def exArchive : Mem := memWith [] (streams exItems ++ [0xaa, 0xbb, 0xcc])

def exArchiveBuf : Bytes := ⟨.heap 1, 0, 28, 32⟩

theorem exItems_ok : ItemsOk exArchiveBuf exItems where
  valid := by
    simp only [exItems, List.mem_cons, List.not_mem_nil, or_false]
    rintro p (rfl | rfl | rfl) <;> exact ⟨by decide, rfl, by decide⟩
  apart := by simp only [exItems, List.mem_cons, List.not_mem_nil, or_false]; rintro p (rfl | rfl | rfl) <;> exact .inl (by decide)
  room := by simp only [exItems, List.mem_cons, List.not_mem_nil, or_false]; rintro p (rfl | rfl | rfl) <;> decide
  count := by simp only [exItems, List.mem_cons, List.not_mem_nil, or_false]; rintro p (rfl | rfl | rfl) <;> rfl
  each := by
    refine .cons ?_ (.cons ?_ (.cons ?_ .nil))
    · simp only [List.mem_cons, List.not_mem_nil, or_false]; rintro p (rfl | rfl) <;> exact .inl (by decide)
    · simp only [List.mem_cons, List.not_mem_nil, or_false]; rintro p rfl; exact .inr (.inl (by decide))
    · intro p hp; cases hp

theorem exArchive_bytes : bytesOf exArchive exArchiveBuf = streams exItems ++ [0xaa, 0xbb, 0xcc] := by decide +kernel

example := C84_read (memWith_tables _ _) (by decide) exItems_ok exArchive_bytes
example := C84_touched (memWith_tables _ _) (by decide) exItems_ok exArchive_bytes
example : streams exItems = [0xe4, 0x00, 1, 0x2c, 1, 0x70, 0x11, 1, 0xff, 0xff, 0xff, 0xff, 7,
    0x0d, 0xde, 3, 0xff, 0xff, 0xff, 0xff, 0x04, 0, 0, 1, 5] := by decide +kernel

/-- Unused control bits that are not zero: the computed size of the stream `[0x04, 7]` of one number is 3 instead of 2. -/
example : (run (streamSize 1 ⟨.heap 1, 0, 2, 2⟩) (memWith [] [0x04, 7])).1 = .ok 3 ∧
    needed (memWith [] [0x04, 7]) ⟨.heap 1, 0, 2, 2⟩ 1 = 2 := by decide +kernel
example := C84_size (n := 1) (st := ⟨.heap 1, 0, 2, 2⟩) (memWith_tables [] [0x04, 7]) (by decide)

end SVB.Props
