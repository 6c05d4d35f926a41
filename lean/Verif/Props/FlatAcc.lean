import Verif.Proofs.FlatAcc
import Verif.Props.FlatRun
import Verif.Props.Readers
import Verif.Props.Writers

/-!
# C71: memory protection

Which addresses the machine code reads and writes (`Model/FlatAcc.lean`), and that no page is touched which holds nothing the
function was given: the writers never fault, the scalar readers never fault, the fast readers can only fault if the stream ends
within three bytes of the end of a page (32 bytes if it is truncated) - and then they do.
-/

set_option autoImplicit false

namespace SVB.Props
open Asm _root_.SVB.Flat Spec

variable {L : Layout} {stk : Addr → Prop} {mem mem' : FMem}

/-! ## Accesses -/

/-- C71: whatever a program touches on flat memory is the stack, or the address of a byte the model touches in the same way. -/
theorem C71_accesses {α : Type} {p : Prog α} {m : Mem} {x : Acc} (hf : Fits L stk) (ht : TablesLoaded m) (hm : Shows L mem m)
    (hc : Covers L p m) (h : FAcc L stk p mem x) :
    (∃ a, (x = .rd a ∨ x = .wr a) ∧ stk a) ∨
    (∃ q, Event.rd q ∈ trace p m ∧ x = .rd (L.addr q)) ∨ ∃ q, Event.wr q ∈ trace p m ∧ x = .wr (L.addr q) := by
  have hd : ∀ q, (L.only p m).dom q → L.dom q := fun q hq => hq.imp (hc.loads q) (hc.stores q)
  have := facc_sound (facc_rebase (L := L) (L' := L.only p m) rfl h)
    ⟨fun p q hp hq => hf.inj p q (hd p hp) (hd q hq), fun p hp => hf.off p (hd p hp), fun p hp => hf.heap p (hc.stores p hp)⟩ ht
    (fun q hq => hm q (hd q hq)) (any_of_covers (fun _ h => h) fun _ h => h)
  cases x with
  | rd a =>
    rcases this with hk | ⟨q, hq, rfl⟩
    · exact .inl ⟨a, .inl rfl, hk⟩
    · exact .inr (.inl ⟨q, hq, rfl⟩)
  | wr a =>
    rcases this with hk | ⟨q, hq, rfl⟩
    · exact .inl ⟨a, .inr rfl, hk⟩
    · exact .inr (.inr ⟨q, hq, rfl⟩)

/-- C71: and all these bytes are touched. -/
theorem C71_accesses_all {α : Type} {p : Prog α} {m : Mem} {o : Outcome α} (hf : Fits L stk) (ht : TablesLoaded m)
    (hm : Shows L mem m) (hc : Covers L p m) (h : FRun L stk p mem o mem') :
    (∀ q, Event.rd q ∈ trace p m → FAcc L stk p mem (.rd (L.addr q))) ∧
    ∀ q, Event.wr q ∈ trace p m → FAcc L stk p mem (.wr (L.addr q)) := by
  have := facc_complete h hf ht hm (any_of_covers hc.loads hc.stores)
  exact ⟨fun q hq => this _ hq, fun q hq => this _ hq⟩

/-! ## Pages -/

theorem allow_of {α : Type} {p : Prog α} {m : Mem} {x : Acc} {P : Pages} {R W : Ptr → Prop} (hs : P.stack stk) (hr : P.reads L R)
    (hw : P.writes L W) (h1 : ∀ q, Event.rd q ∈ trace p m → R q) (h2 : ∀ q, Event.wr q ∈ trace p m → W q) (hf : Fits L stk)
    (ht : TablesLoaded m) (hm : Shows L mem m) (hc : Covers L p m) (h : FAcc L stk p mem x) : P.allow x := by
  rcases C71_accesses hf ht hm hc h with ⟨a, rfl | rfl, hk⟩ | ⟨q, hq, rfl⟩ | ⟨q, hq, rfl⟩
  · exact (hs a hk).1
  · exact (hs a hk).2
  · exact hr q (h1 q hq)
  · exact hw q (h2 q hq)

/-- C71: the writers do not fault if the numbers and the tables can be read and the new buffer can be written. -/
theorem C71_write (f : Fn) {fresh : Block} {inn : U32s} {P : Pages} {x : Acc} (hf : Fits L stk)
    (hw : WriterPre fresh inn (L.view mem)) (hp : WriterPlaces L fresh inn) (hs : P.stack stk)
    (hr : P.reads L fun q => inSlice inn q ∨ inTables q)
    (hb : P.writes L fun q => q.blk = fresh ∧ q.off < ctrlLen inn.len + 4 * inn.len)
    (h : FAcc L stk (f.write fresh inn) mem x) : P.allow x :=
  have hc := write_result f hw
  allow_of hs hr hb (fun _ hq => hc.foot _ hq) (fun _ hq => ⟨(hc.foot _ hq).1, (hc.foot _ hq).2.2⟩) hf hw.tables (fun _ _ => rfl)
    (hp.covers hc) h

/-- C71: the delta writers. -/
theorem C71_writeDelta (f : Fn) {fresh : Block} {inn : U32s} {P : Pages} {x : Acc} (prev : U32) (hf : Fits L stk)
    (hw : WriterPre fresh inn (L.view mem)) (hp : WriterPlaces L fresh inn) (hs : P.stack stk)
    (hr : P.reads L fun q => inSlice inn q ∨ inTables q)
    (hb : P.writes L fun q => q.blk = fresh ∧ q.off < ctrlLen inn.len + 4 * inn.len)
    (h : FAcc L stk (f.writeDelta fresh inn prev) mem x) : P.allow x :=
  have hc := writeDelta_result f prev hw
  allow_of hs hr hb (fun _ hq => hc.foot _ hq) (fun _ hq => ⟨(hc.foot _ hq).1, (hc.foot _ hq).2.2⟩) hf hw.tables (fun _ _ => rfl)
    (hp.covers hc) h

/-- C71: the scalar readers do not fault if stream and tables can be read and `out[:n]` can be written (for the delta reader: and
read), whatever the stream. -/
theorem C71_readScalar {n : Nat} {st : Bytes} {out : U32s} {P : Pages} {x : Acc} (hf : Fits L stk)
    (hr : ReaderPre n st out (L.view mem)) (hc : Covers L (readAllScalar n st out) (L.view mem)) (hs : P.stack stk)
    (hi : P.reads L fun q => inSlice st q ∨ inTables q) (ho : P.writes L (inFirst out n))
    (h : FAcc L stk (readAllScalar n st out) mem x) : P.allow x :=
  allow_of hs hi ho (C13_readAllScalar_loads hr) (fun _ hq => read_foot .scalar hr _ hq) hf hr.tables (fun _ _ => rfl) hc h

theorem C71_readDeltaScalar {n : Nat} {st : Bytes} {out : U32s} {P : Pages} {x : Acc} (prev : U32) (hf : Fits L stk)
    (hr : ReaderPre n st out (L.view mem)) (hc : Covers L (readAllDeltaScalar n st out prev) (L.view mem)) (hs : P.stack stk)
    (hi : P.reads L fun q => inSlice st q ∨ inTables q ∨ inFirst out n q) (ho : P.writes L (inFirst out n))
    (h : FAcc L stk (readAllDeltaScalar n st out prev) mem x) : P.allow x :=
  allow_of hs hi ho (C13_readAllDeltaScalar_loads prev hr) (fun _ hq => readDelta_foot .scalar prev hr _ hq) hf hr.tables
    (fun _ _ => rfl) hc h

/-- Bytes less than `d` after the last one of a slice lie in its page if that is more than `d` bytes before the end of the page. -/
theorem same_page {a : Addr} {d : Nat} (h : a.toNat % pageSize + d < pageSize) : page (a + BitVec.ofNat 64 d) = page a := by
  have := a.isLt
  unfold page pageSize at *
  rw [BitVec.toNat_add, BitVec.toNat_ofNat, Nat.mod_eq_of_lt (a := d) (by omega), Nat.mod_eq_of_lt (by omega)]
  omega

/-- The stream's last byte is at least `d` bytes before the end of a page. -/
def AwayFromEnd (L : Layout) (st : Bytes) (d : Nat) : Prop :=
  0 < st.len ∧ (L.addr ⟨st.blk, st.off + (st.len - 1)⟩).toNat % pageSize + d < pageSize

/-- The `d` bytes after a slice. -/
def after (st : Bytes) (d : Nat) (q : Ptr) : Prop := q.blk = st.blk ∧ st.off + st.len ≤ q.off ∧ q.off < st.off + st.len + d

/-- C71: then the `d` bytes after the stream can be read if the stream can. -/
theorem C71_away {st : Bytes} {d : Nat} {P : Pages} (h : AwayFromEnd L st d) (hi : P.reads L (inSlice st)) :
    P.reads L (after st d) := fun q ⟨h1, h2, h3⟩ => by
  obtain ⟨hl, hp⟩ := h
  have e : L.addr q = L.addr ⟨st.blk, st.off + (st.len - 1)⟩ + BitVec.ofNat 64 (q.off - (st.off + (st.len - 1))) := by
    rw [← addr_add]
    obtain ⟨b, o⟩ := q
    simp only at h1 h2 h3 ⊢
    rw [h1, Ptr.add]
    simp only
    rw [show st.off + (st.len - 1) + (o - (st.off + (st.len - 1))) = o by omega]
  rw [e, same_page (by omega)]
  exact hi _ ⟨rfl, by simp only; omega, by simp only; omega⟩

/-- C71: a fast reader does not fault on a stream that holds all its numbers if, besides, the at most three bytes after the stream
that round `n` up to a multiple of four can be read. -/
theorem C71_read (f : Fn) {n : Nat} {st : Bytes} {out : U32s} {P : Pages} {x : Acc} (hf : Fits L stk)
    (hr : ReaderPre n st out (L.view mem)) (hl : needed (L.view mem) st n ≤ st.len)
    (hc : Covers L (f.read n st out) (L.view mem)) (hs : P.stack stk)
    (hi : P.reads L fun q => inSlice st q ∨ inTables q) (ho : P.writes L (inFirst out n))
    (ha : P.reads L (after st ((4 - n % 4) % 4))) (h : FAcc L stk (f.read n st out) mem x) : P.allow x := by
  refine allow_of (R := fun q => (inSlice st q ∨ inTables q) ∨ after st ((4 - n % 4) % 4) q) hs (fun q hq => hq.elim (hi q) (ha q)) ho
    (fun q hq => ?_) (fun _ hq => read_foot f hr _ hq) hf hr.tables (fun _ _ => rfl) hc h
  rcases read_foot f hr _ hq with h1 | h1 | ⟨h0, h1, -, h2, -⟩
  · exact .inl (.inl h1)
  · exact .inl (.inr h1)
  · have := lengths_sum (L.view mem) st n (by unfold needed at hl; omega)
    unfold needed at hl
    rw [this] at hl
    have hB : rB st n = st.off + ctrlLen n := rfl
    exact .inr ⟨h0, h1, by omega⟩

/-- C71: whatever the stream, 32 bytes are enough. -/
theorem C71_read_any (f : Fn) {n : Nat} {st : Bytes} {out : U32s} {P : Pages} {x : Acc} (hf : Fits L stk)
    (hr : ReaderPre n st out (L.view mem))
    (hc : Covers L (f.read n st out) (L.view mem)) (hs : P.stack stk)
    (hi : P.reads L fun q => inSlice st q ∨ inTables q) (ho : P.writes L (inFirst out n))
    (ha : P.reads L (after st 32)) (h : FAcc L stk (f.read n st out) mem x) : P.allow x := by
  refine allow_of (R := fun q => (inSlice st q ∨ inTables q) ∨ after st 32 q) hs (fun q hq => hq.elim (hi q) (ha q)) ho
    (fun q hq => ?_) (fun _ hq => read_foot f hr _ hq) hf hr.tables (fun _ _ => rfl) hc h
  rcases read_foot f hr _ hq with h1 | h1 | ⟨h0, h1, h2, -, -⟩
  · exact .inl (.inl h1)
  · exact .inl (.inr h1)
  · exact .inr ⟨h0, h1, h2⟩

/-- C71: the delta readers. -/
theorem C71_readDelta (f : Fn) {n : Nat} {st : Bytes} {out : U32s} {P : Pages} {x : Acc} (prev : U32) (hf : Fits L stk)
    (hr : ReaderPre n st out (L.view mem)) (hl : needed (L.view mem) st n ≤ st.len)
    (hc : Covers L (f.readDelta n st out prev) (L.view mem)) (hs : P.stack stk)
    (hi : P.reads L fun q => inSlice st q ∨ inTables q ∨ inFirst out n q) (ho : P.writes L (inFirst out n))
    (ha : P.reads L (after st ((4 - n % 4) % 4))) (h : FAcc L stk (f.readDelta n st out prev) mem x) : P.allow x := by
  refine allow_of (R := fun q => (inSlice st q ∨ inTables q ∨ inFirst out n q) ∨ after st ((4 - n % 4) % 4) q) hs (fun q hq => hq.elim (hi q) (ha q)) ho
    (fun q hq => ?_) (fun _ hq => readDelta_foot f prev hr _ hq) hf hr.tables (fun _ _ => rfl) hc h
  rcases readDelta_foot f prev hr _ hq with h1 | h1 | h1 | ⟨h0, h1, -, h2, -⟩
  · exact .inl (.inl h1)
  · exact .inl (.inr (.inl h1))
  · exact .inl (.inr (.inr h1))
  · have := lengths_sum (L.view mem) st n (by unfold needed at hl; omega)
    unfold needed at hl
    rw [this] at hl
    have hB : rB st n = st.off + ctrlLen n := rfl
    exact .inr ⟨h0, h1, by omega⟩

theorem C71_readDelta_any (f : Fn) {n : Nat} {st : Bytes} {out : U32s} {P : Pages} {x : Acc} (prev : U32) (hf : Fits L stk)
    (hr : ReaderPre n st out (L.view mem))
    (hc : Covers L (f.readDelta n st out prev) (L.view mem)) (hs : P.stack stk)
    (hi : P.reads L fun q => inSlice st q ∨ inTables q ∨ inFirst out n q) (ho : P.writes L (inFirst out n))
    (ha : P.reads L (after st 32)) (h : FAcc L stk (f.readDelta n st out prev) mem x) : P.allow x := by
  refine allow_of (R := fun q => (inSlice st q ∨ inTables q ∨ inFirst out n q) ∨ after st 32 q) hs (fun q hq => hq.elim (hi q) (ha q)) ho
    (fun q hq => ?_) (fun _ hq => readDelta_foot f prev hr _ hq) hf hr.tables (fun _ _ => rfl) hc h
  rcases readDelta_foot f prev hr _ hq with h1 | h1 | h1 | ⟨h0, h1, h2, -, -⟩
  · exact .inl (.inl h1)
  · exact .inl (.inr (.inl h1))
  · exact .inl (.inr (.inr h1))
  · exact .inr ⟨h0, h1, h2⟩

/-! ## There and back -/

theorem mem_trace_bind {α β : Type} {p : Prog α} {f : α → Prog β} {m m₁ : Mem} {a : α} {e : Event} (h : run p m = (.ok a, m₁))
    (he : e ∈ trace (p >>= f) m) : e ∈ trace p m ∨ e ∈ trace (f a) m₁ := by
  rw [Prog.bind_eq, trace_bind, h, List.mem_append] at he
  exact he

/-- C71: a writer and then a reader of what it returned never fault if numbers and tables can be read, the buffer the writer allocates
and `out` can be read and written: the bytes after the stream belong to that buffer. -/
theorem C71_roundtrip (w r : Fn) {fresh : Block} {inn out : U32s} {P : Pages} {x : Acc} (hf : Fits L stk)
    (hw : WriterPre fresh inn (L.view mem)) (ho : Valid out) (hne : out.blk ≠ fresh) (hroom : inn.len ≤ out.len)
    (hp : WriterPlaces L fresh inn)
    (hq : ReaderPlaces L inn.len ⟨fresh, 0, ctrlLen inn.len + 4 * inn.len, ctrlLen inn.len + 4 * inn.len⟩ out) (hs : P.stack stk)
    (hr : P.reads L fun q => inSlice inn q ∨ inTables q ∨ (q.blk = fresh ∧ q.off < ctrlLen inn.len + 4 * inn.len))
    (hb : P.writes L fun q => (q.blk = fresh ∧ q.off < ctrlLen inn.len + 4 * inn.len) ∨ inFirst out inn.len q)
    (h : FAcc L stk (w.write fresh inn >>= fun s => r.read inn.len s out) mem x) : P.allow x := by
  have hsz : (encode (wordsOf (L.view mem) inn)).length ≤ ctrlLen inn.len + 4 * inn.len := by
    have := (sum_bounds (wordsOf (L.view mem) inn)).2
    rw [encode_length_sum, wordsOf_length] at *; omega
  obtain ⟨m₁, e1, -, f1, -⟩ := (write_result w hw).ex
  have hpre := readerPre_after hw ho hne hroom hsz f1
  have hc : Covers L (w.write fresh inn >>= fun s => r.read inn.len s out) (L.view mem) := by
    refine (hp.covers (write_result w hw)).bind fun s m₁ e => ?_
    rw [e1, Prod.mk.injEq, Outcome.ok.injEq] at e
    obtain ⟨rfl, rfl⟩ := e
    exact (hq.shrink hsz).covers r hpre
  refine allow_of hs hr hb (fun q hq => ?_) (fun q hq => ?_) hf hw.tables (fun _ _ => rfl) hc h
  · rcases mem_trace_bind e1 hq with h1 | h1
    · exact ((write_result w hw).foot _ h1).imp id .inl
    · rcases C16_reader_loads w r hw ho hne hroom e1 q h1 with ⟨h2, h3⟩ | h2
      · exact .inr (.inr ⟨h2, by simp only at h3; omega⟩)
      · exact .inr (.inl h2)
  · rcases mem_trace_bind e1 hq with h1 | h1
    · exact .inl ⟨((write_result w hw).foot _ h1).1, ((write_result w hw).foot _ h1).2.2⟩
    · exact .inr (read_foot r hpre _ h1)

theorem C71_roundtrip_delta (w r : Fn) {fresh : Block} {inn out : U32s} {P : Pages} {x : Acc} (prev : U32) (hf : Fits L stk)
    (hw : WriterPre fresh inn (L.view mem)) (ho : Valid out) (hne : out.blk ≠ fresh) (hroom : inn.len ≤ out.len)
    (hp : WriterPlaces L fresh inn)
    (hq : ReaderPlaces L inn.len ⟨fresh, 0, ctrlLen inn.len + 4 * inn.len, ctrlLen inn.len + 4 * inn.len⟩ out) (hs : P.stack stk)
    (hr : P.reads L fun q => inSlice inn q ∨ inTables q ∨ (q.blk = fresh ∧ q.off < ctrlLen inn.len + 4 * inn.len) ∨
      inFirst out inn.len q)
    (hb : P.writes L fun q => (q.blk = fresh ∧ q.off < ctrlLen inn.len + 4 * inn.len) ∨ inFirst out inn.len q)
    (h : FAcc L stk (w.writeDelta fresh inn prev >>= fun s => r.readDelta inn.len s out prev) mem x) : P.allow x := by
  have hsz : (encode (delta prev (wordsOf (L.view mem) inn))).length ≤ ctrlLen inn.len + 4 * inn.len := by
    have := (sum_bounds (delta prev (wordsOf (L.view mem) inn))).2
    rw [encode_length_sum, delta_length, wordsOf_length] at *; omega
  obtain ⟨m₁, e1, -, f1, -⟩ := (writeDelta_result w prev hw).ex
  have hpre := readerPre_after hw ho hne hroom hsz f1
  have hc : Covers L (w.writeDelta fresh inn prev >>= fun s => r.readDelta inn.len s out prev) (L.view mem) := by
    refine (hp.covers (writeDelta_result w prev hw)).bind fun s m₁ e => ?_
    rw [e1, Prod.mk.injEq, Outcome.ok.injEq] at e
    obtain ⟨rfl, rfl⟩ := e
    exact (hq.shrink hsz).coversDelta r prev hpre
  refine allow_of hs hr hb (fun q hq => ?_) (fun q hq => ?_) hf hw.tables (fun _ _ => rfl) hc h
  · rcases mem_trace_bind e1 hq with h1 | h1
    · exact ((writeDelta_result w prev hw).foot _ h1).imp id .inl
    · rcases C16_delta_reader_loads w r prev hw ho hne hroom e1 q h1 with ⟨h2, h3⟩ | h2 | h2
      · exact .inr (.inr (.inl ⟨h2, by simp only at h3; omega⟩))
      · exact .inr (.inl h2)
      · exact .inr (.inr (.inr h2))
  · rcases mem_trace_bind e1 hq with h1 | h1
    · exact .inl ⟨((writeDelta_result w prev hw).foot _ h1).1, ((writeDelta_result w prev hw).foot _ h1).2.2⟩
    · exact .inr (readDelta_foot r prev hpre _ h1)

/-! ## A fault -/

/-- 17 zeros, encoded in the last 22 bytes of the page at `0x10000`. -/
def exEdge : Bytes := ⟨.heap 0, 0xfea, 22, 22⟩
def exEdgeOut : U32s := ⟨.heap 2, 0, 17, 17⟩
/-- Everything but the page after that. -/
def exPages : Pages := ⟨fun k => k ≠ 0x11, fun _ => True⟩

theorem exEdge_pre : ReaderPre 17 exEdge exEdgeOut (exLay.view exRunMem) :=
  ⟨exRun_tables, by decide, ⟨by decide, rfl, by decide⟩, .inl (by decide), by decide⟩
theorem exEdge_needed : needed (exLay.view exRunMem) exEdge 17 = exEdge.len := by decide +kernel
theorem exEdge_places : ReaderPlaces exLay 17 exEdge exEdgeOut where
  src q h1 h2 h3 h4 := .inr ⟨.inl h1, by simp only [exEdge] at h3; omega⟩
  tables q hq := .inl hq
  dstR q hq := .inr ⟨.inr (.inr hq.1), by have := hq.2.2; simp only [exEdgeOut] at this; omega⟩
  dst q hq := ⟨.inr (.inr hq.1), by have := hq.2.2; simp only [exEdgeOut] at this; omega⟩

theorem exPages_stack : exPages.stack exStk := fun a ha =>
  ⟨by simp only [exPages, exStk, page, pageSize] at *; omega, trivial⟩

theorem exPages_reads : exPages.reads exLay fun q => inSlice exEdge q ∨ inTables q ∨ inFirst exEdgeOut 17 q := by
  intro q hq
  have hd : exLay.dom q := .inl (hq.elim (fun h => .inr ⟨.inl h.1, by have := h.2.2; simp only [exEdge] at this; omega⟩)
    (fun h => h.elim .inl fun h => exEdge_places.dstR q h))
  simp only [exPages, page, pageSize, exLay_addr hd]
  rcases hq with ⟨h1, h2, h3⟩ | h | ⟨h1, h2, h3⟩
  · rw [h1]
    simp only [exEdge, exPiece] at *
    omega
  · obtain ⟨b, o⟩ := q
    cases b <;> simp only [inTables] at h <;> first | exact h.elim | (simp only [exPiece]; omega)
  · rw [h1]
    simp only [exEdgeOut, exPiece] at *
    omega

/-- C71: a complete stream, everything the fast reader is given can be accessed - and it faults. -/
theorem C71_read_fault : ∃ (L : Layout) (stk : Addr → Prop) (mem : FMem) (P : Pages) (n : Nat) (st : Bytes) (out : U32s) (x : Acc),
    Fits L stk ∧ Room stk ∧ ReaderPre n st out (L.view mem) ∧ needed (L.view mem) st n = st.len ∧ P.stack stk ∧
    P.reads L (fun q => inSlice st q ∨ inTables q ∨ inFirst out n q) ∧ P.writes L (inFirst out n) ∧
    FAcc L stk (readAllFast n st out) mem x ∧ FAcc L stk (readAllDeltaFast n st out 0) mem x ∧ ¬ P.allow x ∧
    (∀ y, FAcc L stk (readAllScalar n st out) mem y → P.allow y) ∧
    ∀ y, FAcc L stk (readAllDeltaScalar n st out 0) mem y → P.allow y := by
  refine ⟨exLay, exStk, exRunMem, exPages, 17, exEdge, exEdgeOut, .rd (exLay.addr ⟨.heap 0, 0xfea + 24⟩), exLay_fits, exRoom,
    exEdge_pre, exEdge_needed, exPages_stack, exPages_reads, fun _ _ => trivial, ?_, ?_,
    fun h => h (by decide +kernel), fun y h => ?_, fun y h => ?_⟩
  · obtain ⟨o, mem', h⟩ := (C70_runs (L := exLay) (mem := exRunMem) .fast exRoom (fresh := .heap 1) (inn := exEdgeOut)
      (out := exEdgeOut) (st := exEdge) rfl rfl rfl rfl 17 0).2.2.1
    exact (C71_accesses_all exLay_fits exRun_tables (fun _ _ => rfl) (exEdge_places.covers .fast exEdge_pre) h).1 _
      (by decide +kernel)
  · obtain ⟨o, mem', h⟩ := (C70_runs (L := exLay) (mem := exRunMem) .fast exRoom (fresh := .heap 1) (inn := exEdgeOut)
      (out := exEdgeOut) (st := exEdge) rfl rfl rfl rfl 17 0).2.2.2
    exact (C71_accesses_all exLay_fits exRun_tables (fun _ _ => rfl) (exEdge_places.coversDelta .fast 0 exEdge_pre) h).1 _
      (by decide +kernel)
  · exact C71_readScalar exLay_fits exEdge_pre (exEdge_places.covers .scalar exEdge_pre) exPages_stack
      (fun q hq => exPages_reads q (hq.imp id .inl)) (fun _ _ => trivial) h
  · exact C71_readDeltaScalar 0 exLay_fits exEdge_pre (exEdge_places.coversDelta .scalar 0 exEdge_pre) exPages_stack
      exPages_reads (fun _ _ => trivial) h

/-! ## Examples -/

/-- Pages `0x10` (numbers), `0x20` (buffer), `0x30` to `0x8f` (tables), `0x90` to `0x9f` (stack), `0xa0` (output); the tables cannot be
written. -/
def exFewPages : Pages where
  r k := k = 0x10 ∨ k = 0x20 ∨ 0x30 ≤ k ∧ k ≤ 0xa0
  w k := k = 0x10 ∨ k = 0x20 ∨ 0x90 ≤ k ∧ k ≤ 0xa0

theorem exFew_stack : exFewPages.stack exStk := fun a ha =>
  ⟨by simp only [exFewPages, exStk, page, pageSize] at *; omega, by simp only [exFewPages, exStk, page, pageSize] at *; omega⟩

theorem exFew_heap {q : Ptr} (hb : q.blk = .heap 0 ∨ q.blk = .heap 1 ∨ q.blk = .heap 2) (ho : q.off < 4096) :
    exFewPages.r (page (exLay.addr q)) ∧ exFewPages.w (page (exLay.addr q)) := by
  simp only [exFewPages, page, pageSize, exLay_addr (.inr ⟨hb, by omega⟩)]
  rcases hb with h | h | h <;> rw [h] <;> simp only [exPiece] <;> omega

theorem exFew_tables {q : Ptr} (hq : inTables q) : exFewPages.r (page (exLay.addr q)) := by
  simp only [exFewPages, page, pageSize, exLay_addr (.inl (.inl hq))]
  obtain ⟨b, o⟩ := q
  cases b <;> simp only [inTables] at hq <;> first | exact hq.elim | (simp only [exPiece]; omega)

theorem exFew_src : exFewPages.reads exLay fun q => inSlice exRunIn q ∨ inTables q := fun q hq => hq.elim
  (fun h => (exFew_heap (.inl h.1) (by have := h.2.2; simp only [exRunIn] at this; omega)).1) exFew_tables
theorem exFew_buf {q : Ptr} (h : q.blk = .heap 1 ∧ q.off < ctrlLen exRunIn.len + 4 * exRunIn.len) :
    exFewPages.r (page (exLay.addr q)) ∧ exFewPages.w (page (exLay.addr q)) :=
  exFew_heap (.inr (.inl h.1)) (by have := h.2; simp only [exRunIn, ctrlLen] at this; omega)
theorem exFew_out {q : Ptr} (h : inFirst exRunOut 11 q) :
    exFewPages.r (page (exLay.addr q)) ∧ exFewPages.w (page (exLay.addr q)) :=
  exFew_heap (.inr (.inr h.1)) (by have := h.2.2; simp only [exRunOut] at this; omega)

example {x : Acc} := C71_write (x := x) .fast exLay_fits exRun_writer exRun_places exFew_stack exFew_src (fun _ h => (exFew_buf h).2)
example {x : Acc} :=
  C71_writeDelta (x := x) .fast 5 exLay_fits exRun_writer exRun_places exFew_stack exFew_src (fun _ h => (exFew_buf h).2)

example {x : Acc} := C71_roundtrip (x := x) .fast .fast exLay_fits exRun_writer (out := exRunOut) ⟨by decide, rfl, by decide⟩
  (by decide) (by decide) exRun_places (exRun_reader 47 (by decide)) exFew_stack
  (fun q h => h.elim (fun h => exFew_src q (.inl h)) fun h => h.elim exFew_tables fun h => (exFew_buf h).1)
  (fun _ h => h.elim (fun h => (exFew_buf h).2) fun h => (exFew_out h).2)
example {x : Acc} := C71_roundtrip_delta (x := x) .fast .scalar 9 exLay_fits exRun_writer (out := exRunOut)
  ⟨by decide, rfl, by decide⟩ (by decide) (by decide) exRun_places (exRun_reader 47 (by decide)) exFew_stack
  (fun q h => h.elim (fun h => exFew_src q (.inl h)) fun h => h.elim exFew_tables fun h => h.elim (fun h => (exFew_buf h).1)
    fun h => (exFew_out h).1)
  (fun _ h => h.elim (fun h => (exFew_buf h).2) fun h => (exFew_out h).2)

/-- The same 17 zeros three bytes earlier. -/
def exClear : Bytes := ⟨.heap 0, 0xfe7, 22, 22⟩
theorem exClear_pre : ReaderPre 17 exClear exEdgeOut (exLay.view exRunMem) :=
  ⟨exRun_tables, by decide, ⟨by decide, rfl, by decide⟩, .inl (by decide), by decide⟩
theorem exClear_places : ReaderPlaces exLay 17 exClear exEdgeOut where
  src q h1 h2 h3 h4 := .inr ⟨.inl h1, by simp only [exClear] at h3; omega⟩
  tables q hq := .inl hq
  dstR q hq := .inr ⟨.inr (.inr hq.1), by have := hq.2.2; simp only [exEdgeOut] at this; omega⟩
  dst q hq := ⟨.inr (.inr hq.1), by have := hq.2.2; simp only [exEdgeOut] at this; omega⟩
theorem exClear_st : exFewPages.reads exLay (inSlice exClear) := fun _ h =>
  (exFew_heap (.inl h.1) (by have := h.2.2; simp only [exClear] at this; omega)).1
theorem exClear_out {q : Ptr} (h : inFirst exEdgeOut 17 q) :
    exFewPages.r (page (exLay.addr q)) ∧ exFewPages.w (page (exLay.addr q)) :=
  exFew_heap (.inr (.inr h.1)) (by have := h.2.2; simp only [exEdgeOut] at this; omega)

example {x : Acc} := C71_read (x := x) .fast exLay_fits exClear_pre (by decide +kernel) (exClear_places.covers .fast exClear_pre)
  exFew_stack (fun q h => h.elim (exClear_st q) exFew_tables) (fun _ h => (exClear_out h).2)
  (C71_away ⟨by decide, by decide +kernel⟩ exClear_st)
example {x : Acc} := C71_readDelta (x := x) .fast 3 exLay_fits exClear_pre (by decide +kernel)
  (exClear_places.coversDelta .fast 3 exClear_pre) exFew_stack
  (fun q h => h.elim (exClear_st q) fun h => h.elim exFew_tables fun h => (exClear_out h).1) (fun _ h => (exClear_out h).2)
  (C71_away ⟨by decide, by decide +kernel⟩ exClear_st)

/-- A stream of garbage far from the end of the page. -/
theorem exGarbage_st : exFewPages.reads exLay (inSlice exRunSt) := fun _ h =>
  (exFew_heap (.inr (.inl h.1)) (by have := h.2.2; simp only [exRunSt] at this; omega)).1

example {x : Acc} := C71_read_any (x := x) .fast exLay_fits exRun_readerPre
  ((exRun_reader 40 (by decide)).covers .fast exRun_readerPre) exFew_stack
  (fun q h => h.elim (exGarbage_st q) exFew_tables) (fun _ h => (exFew_out h).2) (C71_away ⟨by decide, by decide +kernel⟩ exGarbage_st)
example {x : Acc} := C71_readDelta_any (x := x) .fast 3 exLay_fits exRun_readerPre
  ((exRun_reader 40 (by decide)).coversDelta .fast 3 exRun_readerPre) exFew_stack
  (fun q h => h.elim (exGarbage_st q) fun h => h.elim exFew_tables fun h => (exFew_out h).1) (fun _ h => (exFew_out h).2)
  (C71_away ⟨by decide, by decide +kernel⟩ exGarbage_st)

end SVB.Props
