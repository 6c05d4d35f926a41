import Verif.Proofs.FlatExist
import Verif.Props.Flat
import Verif.Props.RoundTrip

/-!
# C70: the whole library on flat memory

The Go functions of the model with memory as on a processor (`Model/FlatRun.lean`): bytes at 64-bit addresses, and every call of an
assembly function carried out instruction by instruction on the machine of `Model/Flat.lean`, with any garbage in the registers and
on the stack.
-/

set_option autoImplicit false

namespace SVB.Props
open Asm Flat Spec

variable {L : Layout} {stk : Addr → Prop} {mem mem' : FMem}

/-! ## Every execution ends as the model says -/

/-- C70: for every program. -/
theorem C70_sound {α : Type} {p : Prog α} {m : Mem} {o : Outcome α} (hf : Fits L stk) (ht : TablesLoaded m) (hm : Shows L mem m)
    (hc : Covers L p m) (h : FRun L stk p mem o mem') :
    (run p m).1 = o ∧ Shows L mem' (run p m).2 ∧ Still L stk mem mem' :=
  frun_sound h hf ht hm (any_of_covers hc.loads hc.stores)

/-! ## There is an execution -/

/-- C70: the stream functions, whatever the arguments. -/
theorem C70_runs (f : Fn) (hr : Room stk) {fresh : Block} (hb : asmOnly fresh = false) {inn out : U32s} {st : Bytes}
    (hi : asmOnly inn.blk = false) (ho : asmOnly out.blk = false) (hs : asmOnly st.blk = false) (count : Int) (prev : U32) :
    (∃ o mem', FRun L stk (f.write fresh inn) mem o mem') ∧ (∃ o mem', FRun L stk (f.writeDelta fresh inn prev) mem o mem') ∧
    (∃ o mem', FRun L stk (f.read count st out) mem o mem') ∧ (∃ o mem', FRun L stk (f.readDelta count st out prev) mem o mem') := by
  have k : ∀ {α : Type} {p : Prog α}, Can L stk p → ∃ o mem', FRun L stk p mem o mem' := fun h => by
    obtain ⟨o, mem', h, -⟩ := h mem
    exact ⟨o, mem', h⟩
  cases f with
  | scalar => exact ⟨k (can_writeS hb hi), k (can_writeDS hb hi), k (can_readS hs ho), k (can_readDS hs ho)⟩
  | fast => exact ⟨k (can_writeF hr hb hi), k (can_writeDF hr hb hi), k (can_readF hr hs ho), k (can_readDF hr hs ho)⟩
  | auto c =>
    refine ⟨?_, ?_, ?_, ?_⟩
    · rcases writeAll_cases c fresh inn with e | e <;> simp only [Fn.write, e]
      · exact k (can_writeF hr hb hi)
      · exact k (can_writeS hb hi)
    · rcases writeAllDelta_cases c fresh inn prev with e | e <;> simp only [Fn.writeDelta, e]
      · exact k (can_writeDF hr hb hi)
      · exact k (can_writeDS hb hi)
    · rcases readAll_cases c count st out with e | e <;> simp only [Fn.read, e]
      · exact k (can_readF hr hs ho)
      · exact k (can_readS hs ho)
    · rcases readAllDelta_cases c count st out prev with e | e <;> simp only [Fn.readDelta, e]
      · exact k (can_readDF hr hs ho)
      · exact k (can_readDS hs ho)

/-- C70: the block functions, whatever the arguments. -/
theorem C70_runs_block (f : Fn) (hr : Room stk) {num : U32s} {byt : Bytes} (hi : asmOnly num.blk = false)
    (ho : asmOnly byt.blk = false) (ctrl : U16) (c : Byte) (count : Int) (prev : U32) :
    (∃ o mem', FRun L stk (f.put8 num byt) mem o mem') ∧ (∃ o mem', FRun L stk (f.put8Delta num byt prev) mem o mem') ∧
    (∃ o mem', FRun L stk (f.get8 byt num ctrl) mem o mem') ∧ (∃ o mem', FRun L stk (f.get8Delta byt num ctrl prev) mem o mem') ∧
    (∃ o mem', FRun L stk (put4uint32Scalar num byt) mem o mem') ∧
    (∃ o mem', FRun L stk (put4uint32DeltaScalar num byt prev) mem o mem') ∧
    (∃ o mem', FRun L stk (putUint32Scalar num byt count) mem o mem') ∧
    (∃ o mem', FRun L stk (putUint32DeltaScalar num byt count prev) mem o mem') ∧
    (∃ o mem', FRun L stk (get4uint32Scalar byt num c) mem o mem') ∧
    (∃ o mem', FRun L stk (get4uint32DeltaScalar byt num c prev) mem o mem') ∧
    (∃ o mem', FRun L stk (getUint32Scalar byt num c count) mem o mem') ∧
    (∃ o mem', FRun L stk (getUint32DeltaScalar byt num c count prev) mem o mem') := by
  have k : ∀ {α : Type} {p : Prog α}, Can L stk p → ∃ o mem', FRun L stk p mem o mem' := fun h => by
    obtain ⟨o, mem', h, -⟩ := h mem
    exact ⟨o, mem', h⟩
  refine ⟨?_, ?_, ?_, ?_, k (can_put4 hi ho), k (can_put4D hi ho), k (can_putN hi ho), k (can_putND hi ho), k (can_get4 ho),
    k (can_get4D ho hi), k (can_getN ho), k (can_getND ho)⟩
  · cases f with
    | scalar => exact k (can_put8 hi ho)
    | fast => exact k (can_put8F hr)
    | auto c =>
      rcases put8uint32_cases c num byt with e | e <;> simp only [Fn.put8, e]
      · exact k (can_put8F hr)
      · exact k (can_put8 hi ho)
  · cases f with
    | scalar => exact k (can_put8D hi ho)
    | fast => exact k (can_put8DF hr)
    | auto c =>
      rcases put8uint32Delta_cases c num byt prev with e | e <;> simp only [Fn.put8Delta, e]
      · exact k (can_put8DF hr)
      · exact k (can_put8D hi ho)
  · cases f with
    | scalar => exact k (can_get8 ho hi)
    | fast => exact k (can_get8F hr)
    | auto c =>
      rcases get8uint32_cases c byt num ctrl with e | e <;> simp only [Fn.get8, e]
      · exact k (can_get8F hr)
      · exact k (can_get8 ho hi)
  · cases f with
    | scalar => exact k (can_get8D ho hi)
    | fast => exact k (can_get8DF hr)
    | auto c =>
      rcases get8uint32Delta_cases c byt num ctrl prev with e | e <;> simp only [Fn.get8Delta, e]
      · exact k (can_get8DF hr)
      · exact k (can_get8D ho hi)

/-! ## What is in memory afterwards -/

/-- The numbers of a slice in a flat memory. -/
def Flat.wordsAt (L : Layout) (mem : FMem) (s : U32s) (n : Nat) : List U32 := words mem (L.addr s.ptr) n
/-- The bytes of a slice in a flat memory. -/
def Flat.bytesAt (L : Layout) (mem : FMem) (s : Bytes) : List Byte := bytes mem (L.addr s.ptr) s.len

theorem addr_slice (L : Layout) {e : Nat} (s : Slice e) (i : Nat) :
    L.addr s.ptr + BitVec.ofNat 64 i = L.addr ⟨s.blk, s.off + i⟩ := (addr_add L s.ptr i).symm

theorem wordsAt_of {m : Mem} {s : U32s} {n : Nat} (h : ∀ i < 4 * n, mem (L.addr ⟨s.blk, s.off + i⟩) = m ⟨s.blk, s.off + i⟩) :
    Flat.wordsAt L mem s n = wordsN m s n := by
  refine List.map_congr_left fun k hk => ?_
  have hk := List.mem_range.1 hk
  rw [readLE_four, add_assoc64, add_assoc64, add_assoc64, addr_slice, addr_slice, addr_slice, addr_slice, h _ (by omega),
    h _ (by omega), h _ (by omega), h _ (by omega)]
  simp only [Nat.add_assoc]

theorem bytesAt_of {m : Mem} {s : Bytes} (h : ∀ i < s.len, mem (L.addr ⟨s.blk, s.off + i⟩) = m ⟨s.blk, s.off + i⟩) :
    Flat.bytesAt L mem s = bytesOf m s := by
  refine List.map_congr_left fun k hk => ?_
  have hk := List.mem_range.1 hk
  rw [addr_slice, h _ (by omega)]

theorem wordsAt_view (s : U32s) (n : Nat) : Flat.wordsAt L mem s n = wordsN (L.view mem) s n := wordsAt_of fun _ _ => rfl
theorem bytesAt_view (s : Bytes) : Flat.bytesAt L mem s = bytesOf (L.view mem) s := bytesAt_of fun _ _ => rfl

/-- The layout contains the numbers to encode, the tables, and the buffer the writer allocates. -/
structure WriterPlaces (L : Layout) (fresh : Block) (inn : U32s) : Prop where
  src : ∀ q, inSlice inn q → L.R q
  tables : ∀ q, inTables q → L.R q
  buf : ∀ q : Ptr, q.blk = fresh → q.off < ctrlLen inn.len + 4 * inn.len → L.W q

theorem WriterPlaces.covers {fresh : Block} {inn : U32s} {m : Mem} (h : WriterPlaces L fresh inn) {p : Prog Bytes} {xs : List U32}
    (hw : WriteResult p fresh inn xs m) : Covers L p m :=
  ⟨fun q hq => (hw.foot _ hq).elim (h.src q) (h.tables q), fun q hq => h.buf q (hw.foot _ hq).1 (hw.foot _ hq).2.2⟩

theorem written {p : Prog Bytes} {o : Outcome Bytes} {fresh : Block} {inn : U32s} {xs : List U32} (hf : Fits L stk)
    (hp : WriterPlaces L fresh inn) (ht : TablesLoaded (L.view mem)) (hw : WriteResult p fresh inn xs (L.view mem))
    (hl : (encode xs).length ≤ ctrlLen inn.len + 4 * inn.len) (h : FRun L stk p mem o mem') :
    ∃ r : Bytes, o = .ok r ∧ Flat.bytesAt L mem' r = encode xs ∧ r.ptr = ⟨fresh, 0⟩ ∧ Still L stk mem mem' := by
  obtain ⟨h1, h2, h3⟩ := C70_sound hf ht (fun _ _ => rfl) (hp.covers hw) h
  obtain ⟨m', e, hb, -⟩ := hw.ex
  rw [e] at h1 h2
  refine ⟨_, h1.symm, (bytesAt_of fun i hi => h2 _ (.inr (hp.buf _ rfl ?_))).trans hb, rfl, h3⟩
  simp only at hi ⊢
  omega

/-- C70: every execution of `WriteAllScalar`, `WriteAllFast`, `WriteAll` leaves the encoding of the numbers in the buffer. -/
theorem C70_write (f : Fn) {o : Outcome Bytes} {fresh : Block} {inn : U32s} (hf : Fits L stk)
    (hw : WriterPre fresh inn (L.view mem)) (hp : WriterPlaces L fresh inn) (h : FRun L stk (f.write fresh inn) mem o mem') :
    ∃ r : Bytes, o = .ok r ∧ Flat.bytesAt L mem' r = encode (Flat.wordsAt L mem inn inn.len) ∧ r.ptr = ⟨fresh, 0⟩ ∧
      Still L stk mem mem' := by
  rw [wordsAt_view, ← wordsOf]
  refine written hf hp hw.tables (write_result f hw) ?_ h
  have := (sum_bounds (wordsOf (L.view mem) inn)).2
  rw [encode_length_sum, wordsOf_length] at *; omega

/-- C70: the delta writers. -/
theorem C70_writeDelta (f : Fn) {o : Outcome Bytes} {fresh : Block} {inn : U32s} (prev : U32) (hf : Fits L stk)
    (hw : WriterPre fresh inn (L.view mem)) (hp : WriterPlaces L fresh inn)
    (h : FRun L stk (f.writeDelta fresh inn prev) mem o mem') :
    ∃ r : Bytes, o = .ok r ∧ Flat.bytesAt L mem' r = encode (delta prev (Flat.wordsAt L mem inn inn.len)) ∧ r.ptr = ⟨fresh, 0⟩ ∧
      Still L stk mem mem' := by
  rw [wordsAt_view, ← wordsOf]
  refine written hf hp hw.tables (writeDelta_result f prev hw) ?_ h
  have := (sum_bounds (delta prev (wordsOf (L.view mem) inn))).2
  rw [encode_length_sum, delta_length, wordsOf_length] at *; omega

/-- The layout contains the stream with up to 32 bytes after it (but not after the largest encoding of `n` numbers), the tables, and
the numbers to be written. -/
structure ReaderPlaces (L : Layout) (n : Nat) (st : Bytes) (out : U32s) : Prop where
  src : ∀ q : Ptr, q.blk = st.blk → st.off ≤ q.off → q.off < st.off + st.len + 32 →
    q.off < st.off + max st.len (ctrlLen n + 4 * n) → L.R q
  tables : ∀ q, inTables q → L.R q
  dstR : ∀ q, inFirst out n q → L.R q
  dst : ∀ q, inFirst out n q → L.W q

theorem ReaderPlaces.shrink {b : Block} {n l c : Nat} {out : U32s}
    (h : ReaderPlaces L n ⟨b, 0, ctrlLen n + 4 * n, c⟩ out) (hl : l ≤ ctrlLen n + 4 * n) :
    ReaderPlaces L n ⟨b, 0, l, c⟩ out :=
  ⟨fun q h1 h2 h3 h4 => h.src q h1 h2 (by simp only at h3 h4 ⊢; omega) (by simp only at h3 h4 ⊢; omega), h.tables, h.dstR, h.dst⟩

theorem ReaderPlaces.over {n : Nat} {st : Bytes} {out : U32s} {m : Mem} (h : ReaderPlaces L n st out) {q : Ptr}
    (hq : overR st n m q) : L.R q := h.src q hq.1 (by have := hq.2.1; omega) hq.2.2.1 (by have := hq.2.2.2.2; simp only [rB] at this; omega)

theorem ReaderPlaces.inside {n : Nat} {st : Bytes} {out : U32s} (h : ReaderPlaces L n st out) {q : Ptr} (hq : inSlice st q) :
    L.R q := h.src q hq.1 hq.2.1 (by have := hq.2.2; omega) (by have := hq.2.2; omega)

theorem ReaderPlaces.covers {n : Nat} {st : Bytes} {out : U32s} {m : Mem} (hp : ReaderPlaces L n st out) (f : Fn)
    (hr : ReaderPre n st out m) : Covers L (f.read n st out) m := by
  refine ⟨fun q hq => ?_, fun q hq => hp.dst q (read_foot f hr _ hq)⟩
  rcases read_foot f hr _ hq with h | h | h
  · exact hp.inside h
  · exact hp.tables q h
  · exact hp.over h

theorem ReaderPlaces.coversDelta {n : Nat} {st : Bytes} {out : U32s} {m : Mem} (hp : ReaderPlaces L n st out) (f : Fn)
    (prev : U32) (hr : ReaderPre n st out m) : Covers L (f.readDelta n st out prev) m := by
  refine ⟨fun q hq => ?_, fun q hq => hp.dst q (readDelta_foot f prev hr _ hq)⟩
  rcases readDelta_foot f prev hr _ hq with h | h | h | h
  · exact hp.inside h
  · exact hp.tables q h
  · exact hp.dstR q h
  · exact hp.over h

/-- The numbers are there, or there are none and the call ended in an index or slice panic. -/
def ReadOutcome (L : Layout) (mem : FMem) (o : Outcome Unit) (out : U32s) (n : Nat) : Option (List U32) → Prop
  | some xs => o = .ok () ∧ Flat.wordsAt L mem out n = xs
  | none => ∃ k, o = .panic k ∧ BoundsPanic k

theorem read_done {p : Prog Unit} {o : Outcome Unit} {n : Nat} {st : Bytes} {out : U32s} {r : Option (List U32)}
    (hf : Fits L stk) (hp : ReaderPlaces L n st out) (ht : TablesLoaded (L.view mem)) (hc : Covers L p (L.view mem))
    (hr : ReadResult p (L.view mem) out n r) (h : FRun L stk p mem o mem') :
    ReadOutcome L mem' o out n r ∧ Still L stk mem mem' := by
  obtain ⟨h1, h2, h3⟩ := C70_sound hf ht (fun _ _ => rfl) hc h
  refine ⟨?_, h3⟩
  have hr := hr.1
  cases r with
  | some xs =>
    obtain ⟨m', e, hw⟩ := hr
    rw [e] at h1 h2
    exact ⟨h1.symm, (wordsAt_of fun i hi => h2 _ (.inr (hp.dst _ ⟨rfl, by simp, by simp only; omega⟩))).trans hw⟩
  | none =>
    obtain ⟨k, m', e, hk⟩ := hr
    rw [e] at h1
    exact ⟨k, h1.symm, hk⟩

/-- C70: every execution of `ReadAllScalar`, `ReadAllFast`, `ReadAll` stores the numbers the stream encodes, or panics if the bytes
do not encode `n` numbers. -/
theorem C70_read (f : Fn) {o : Outcome Unit} {n : Nat} {st : Bytes} {out : U32s} (hf : Fits L stk)
    (hr : ReaderPre n st out (L.view mem)) (hp : ReaderPlaces L n st out) (h : FRun L stk (f.read n st out) mem o mem') :
    ReadOutcome L mem' o out n (decode n (Flat.bytesAt L mem st)) ∧ Still L stk mem mem' := by
  rw [bytesAt_view]
  exact read_done hf hp hr.tables (hp.covers f hr) (read_result f hr) h

/-- C70: the delta readers. -/
theorem C70_readDelta (f : Fn) {o : Outcome Unit} {n : Nat} {st : Bytes} {out : U32s} (prev : U32) (hf : Fits L stk)
    (hr : ReaderPre n st out (L.view mem)) (hp : ReaderPlaces L n st out) (h : FRun L stk (f.readDelta n st out prev) mem o mem') :
    ReadOutcome L mem' o out n (decodeDelta prev n (Flat.bytesAt L mem st)) ∧ Still L stk mem mem' := by
  rw [bytesAt_view]
  refine read_done hf hp hr.tables (hp.coversDelta f prev hr) (readDelta_result f prev hr) h

/-! ## There and back -/

theorem Covers.bind {α β : Type} {p : Prog α} {f : α → Prog β} {m : Mem} (hp : Covers L p m)
    (hf : ∀ a m', run p m = (.ok a, m') → Covers L (f a) m') : Covers L (p >>= f) m := by
  have h : SVB.wp L.any (p >>= f) m fun _ _ => True := by
    rw [Prog.bind_eq, wp_bind, wp_iff]
    refine ⟨((wp_iff ..).1 (any_of_covers hp.loads hp.stores)).1, ?_⟩
    cases e : run p m with
    | mk o m' =>
      cases o with
      | ok a => exact any_of_covers (hf a m' e).loads (hf a m' e).stores
      | panic k => trivial
  have h := ((wp_iff ..).1 h).1
  exact ⟨fun q hq => h _ hq, fun q hq => h _ hq⟩

/-- C70: one execution of a writer followed by a reader stores the numbers that were encoded. -/
theorem C70_roundtrip (w r : Fn) {o : Outcome Unit} {fresh : Block} {inn out : U32s} (hf : Fits L stk)
    (hw : WriterPre fresh inn (L.view mem)) (ho : Valid out) (hne : out.blk ≠ fresh) (hroom : inn.len ≤ out.len)
    (hp : WriterPlaces L fresh inn)
    (hq : ReaderPlaces L inn.len ⟨fresh, 0, ctrlLen inn.len + 4 * inn.len, ctrlLen inn.len + 4 * inn.len⟩ out)
    (h : FRun L stk (w.write fresh inn >>= fun s => r.read inn.len s out) mem o mem') :
    o = .ok () ∧ Flat.wordsAt L mem' out inn.len = Flat.wordsAt L mem inn inn.len ∧ Still L stk mem mem' := by
  have hsz : (encode (wordsOf (L.view mem) inn)).length ≤ ctrlLen inn.len + 4 * inn.len := by
    have := (sum_bounds (wordsOf (L.view mem) inn)).2
    rw [encode_length_sum, wordsOf_length] at *; omega
  have hc : Covers L (w.write fresh inn >>= fun s => r.read inn.len s out) (L.view mem) := by
    refine (hp.covers (write_result w hw)).bind fun s m₁ e => ?_
    obtain ⟨m₁', e1, -, f1, -⟩ := (write_result w hw).ex
    rw [e1, Prod.mk.injEq, Outcome.ok.injEq] at e
    obtain ⟨rfl, rfl⟩ := e
    exact (hq.shrink hsz).covers r (readerPre_after hw ho hne hroom hsz f1)
  obtain ⟨h1, h2, h3⟩ := C70_sound hf hw.tables (fun _ _ => rfl) hc h
  obtain ⟨m₂, e, hx⟩ := C05_roundtrip w r hw ho hne hroom
  rw [e] at h1 h2
  refine ⟨h1.symm, ?_, h3⟩
  rw [wordsAt_view (mem := mem), ← wordsOf, ← hx]
  exact wordsAt_of fun i hi => h2 _ (.inr (hq.dst _ ⟨rfl, by simp, by simp only; omega⟩))

/-- C70: the same for the delta functions. -/
theorem C70_roundtrip_delta (w r : Fn) {o : Outcome Unit} {fresh : Block} {inn out : U32s} (prev : U32) (hf : Fits L stk)
    (hw : WriterPre fresh inn (L.view mem)) (ho : Valid out) (hne : out.blk ≠ fresh) (hroom : inn.len ≤ out.len)
    (hp : WriterPlaces L fresh inn)
    (hq : ReaderPlaces L inn.len ⟨fresh, 0, ctrlLen inn.len + 4 * inn.len, ctrlLen inn.len + 4 * inn.len⟩ out)
    (h : FRun L stk (w.writeDelta fresh inn prev >>= fun s => r.readDelta inn.len s out prev) mem o mem') :
    o = .ok () ∧ Flat.wordsAt L mem' out inn.len = Flat.wordsAt L mem inn inn.len ∧ Still L stk mem mem' := by
  have hsz : (encode (delta prev (wordsOf (L.view mem) inn))).length ≤ ctrlLen inn.len + 4 * inn.len := by
    have := (sum_bounds (delta prev (wordsOf (L.view mem) inn))).2
    rw [encode_length_sum, delta_length, wordsOf_length] at *; omega
  have hc : Covers L (w.writeDelta fresh inn prev >>= fun s => r.readDelta inn.len s out prev) (L.view mem) := by
    refine (hp.covers (writeDelta_result w prev hw)).bind fun s m₁ e => ?_
    obtain ⟨m₁', e1, -, f1, -⟩ := (writeDelta_result w prev hw).ex
    rw [e1, Prod.mk.injEq, Outcome.ok.injEq] at e
    obtain ⟨rfl, rfl⟩ := e
    exact (hq.shrink hsz).coversDelta r prev (readerPre_after hw ho hne hroom hsz f1)
  obtain ⟨h1, h2, h3⟩ := C70_sound hf hw.tables (fun _ _ => rfl) hc h
  obtain ⟨m₂, e, hx⟩ := C06_roundtrip_delta w r prev hw ho hne hroom
  rw [e] at h1 h2
  refine ⟨h1.symm, ?_, h3⟩
  rw [wordsAt_view (mem := mem), ← wordsOf, ← hx]
  exact wordsAt_of fun i hi => h2 _ (.inr (hq.dst _ ⟨rfl, by simp, by simp only; omega⟩))

theorem asmOnly_of {b : Block} (h : b.isConst = false) : asmOnly b = false := by
  cases b <;> first | rfl | cases h

/-- C70: and there is such an execution. -/
theorem C70_roundtrip_runs (w r : Fn) {fresh : Block} {inn out : U32s} (hr : Room stk) (hf : Fits L stk)
    (hw : WriterPre fresh inn (L.view mem)) (ho : out.blk.isConst = false) (hp : WriterPlaces L fresh inn) (prev : U32) :
    (∃ o mem', FRun L stk (w.write fresh inn >>= fun s => r.read inn.len s out) mem o mem') ∧
    (∃ o mem', FRun L stk (w.writeDelta fresh inn prev >>= fun s => r.readDelta inn.len s out prev) mem o mem') := by
  have hb := asmOnly_of hw.fresh_heap
  have hi := asmOnly_of hw.valid.heap
  have ho := asmOnly_of ho
  have h := C70_runs (L := L) (mem := mem) w hr hb hi ho (st := ⟨fresh, 0, 0, 0⟩) hb 0 prev
  constructor
  · obtain ⟨o₁, mem₁, h₁⟩ := h.1
    obtain ⟨s, rfl, -, hs, -⟩ := C70_write w hf hw hp h₁
    have hs : s.blk = fresh := congrArg Ptr.blk hs
    obtain ⟨o₂, mem₂, h₂⟩ := (C70_runs (L := L) (mem := mem₁) r hr hb hi ho (st := s) (hs ▸ hb) inn.len prev).2.2.1
    exact ⟨o₂, mem₂, frun_bind_ok h₁ rfl (f := _) h₂⟩
  · obtain ⟨o₁, mem₁, h₁⟩ := h.2.1
    obtain ⟨s, rfl, -, hs, -⟩ := C70_writeDelta w prev hf hw hp h₁
    have hs : s.blk = fresh := congrArg Ptr.blk hs
    obtain ⟨o₂, mem₂, h₂⟩ := (C70_runs (L := L) (mem := mem₁) r hr hb hi ho (st := s) (hs ▸ hb) inn.len prev).2.2.2
    exact ⟨o₂, mem₂, frun_bind_ok h₁ rfl (f := _) h₂⟩

/-! ## Examples -/

/-- Which piece of the example's memory an allocation is. -/
def exPiece : Block → Nat
  | .heap 0 => 1
  | .heap 1 => 2
  | .encShuf => 3
  | .decShuf => 4
  | .ctrlLen => 5
  | .numLen => 6
  | .mask0101 => 7
  | .mask7F00 => 8
  | .heap _ => 10

/-- Three allocations of 60000 bytes, the tables of `exMach`, and the stack (`0x90000` to `0x9ffff`). -/
def exLay : Layout where
  base b := BitVec.ofNat 64 (exPiece b * 65536)
  R p := inTables p ∨ ((p.blk = .heap 0 ∨ p.blk = .heap 1 ∨ p.blk = .heap 2) ∧ p.off < 60000)
  W p := (p.blk = .heap 0 ∨ p.blk = .heap 1 ∨ p.blk = .heap 2) ∧ p.off < 60000
def exStk (q : Addr) : Prop := 0x90000 ≤ q.toNat ∧ q.toNat < 0xa0000

theorem exLay_dom {p : Ptr} (h : exLay.dom p) :
    (p.blk.isConst = true ∨ p.blk = .heap 0 ∨ p.blk = .heap 1 ∨ p.blk = .heap 2) ∧ p.off < 65536 := by
  rcases h with (h | h) | h
  · obtain ⟨b, o⟩ := p
    cases b <;> simp only [inTables] at h <;> first | exact h.elim | exact ⟨.inl rfl, by simp only; omega⟩
  · exact ⟨.inr h.1, by have := h.2; omega⟩
  · exact ⟨.inr h.1, by have := h.2; omega⟩

theorem exPiece_le (b : Block) : exPiece b ≤ 10 ∧ exPiece b ≠ 9 := by
  unfold exPiece
  split <;> decide

theorem exLay_addr {p : Ptr} (h : exLay.dom p) : (exLay.addr p).toNat = exPiece p.blk * 65536 + p.off := by
  have h1 := (exLay_dom h).2
  have h2 := (exPiece_le p.blk).1
  show (BitVec.ofNat 64 (exPiece p.blk * 65536) + BitVec.ofNat 64 p.off).toNat = _
  rw [BitVec.toNat_add, BitVec.toNat_ofNat, BitVec.toNat_ofNat]
  omega

theorem exPiece_inj {b c : Block} (hb : b.isConst = true ∨ b = .heap 0 ∨ b = .heap 1 ∨ b = .heap 2)
    (hc : c.isConst = true ∨ c = .heap 0 ∨ c = .heap 1 ∨ c = .heap 2) (h : exPiece b = exPiece c) : b = c := by
  have k : ∀ b : Block, b.isConst = true ∨ b = .heap 0 ∨ b = .heap 1 ∨ b = .heap 2 →
      b ∈ [Block.encShuf, .decShuf, .ctrlLen, .numLen, .mask0101, .mask7F00, .heap 0, .heap 1, .heap 2] := by
    intro b hb
    rcases hb with hb | rfl | rfl | rfl
    · cases b with
      | heap n => cases hb
      | _ => simp
    all_goals simp
  have all : ∀ b ∈ [Block.encShuf, .decShuf, .ctrlLen, .numLen, .mask0101, .mask7F00, .heap 0, .heap 1, .heap 2],
      ∀ c ∈ [Block.encShuf, .decShuf, .ctrlLen, .numLen, .mask0101, .mask7F00, .heap 0, .heap 1, .heap 2],
      exPiece b = exPiece c → b = c := by decide
  exact all b (k b hb) c (k c hc) h

theorem exLay_fits : Fits exLay exStk where
  inj p q hp hq he := by
    have h := congrArg BitVec.toNat he
    rw [exLay_addr hp, exLay_addr hq] at h
    have h1 := (exLay_dom hp).2
    have h2 := (exLay_dom hq).2
    have hb := exPiece_inj (exLay_dom hp).1 (exLay_dom hq).1 (by omega)
    obtain ⟨b, o⟩ := p
    obtain ⟨c, o'⟩ := q
    simp only at hb h
    subst hb
    rw [show o = o' by omega]
  off p hp hs := by
    have h1 := (exLay_dom hp).2
    have h2 := exPiece_le p.blk
    simp only [exStk, exLay_addr hp] at hs
    omega
  heap p hp := by
    rcases hp.1 with h | h | h <;> rw [h] <;> rfl

theorem exRoom : Room exStk := ⟨0x90000, fun k hk => by
  rw [exStk, BitVec.toNat_add, BitVec.toNat_ofNat, Nat.mod_eq_of_lt (by omega : k < 2 ^ 64)]
  have : BitVec.toNat (0x90000 : Addr) = 0x90000 := rfl
  rw [this]
  omega⟩

/-- Eleven numbers at `0x10000`. -/
def exRunNums : List Byte := ([1, 300, 70000, 0xffffffff, 0, 255, 256, 0x1000000, 7, 9, 65536] : List U32).flatMap fun x =>
  (List.range 4).map fun i => x.extractLsb' (8 * i) 8
def exRunMem : FMem := (exMach [] exRunNums).mem
def exRunIn : U32s := ⟨.heap 0, 0, 11, 11⟩
def exRunOut : U32s := ⟨.heap 2, 400, 11, 20⟩

theorem exRun_tables : TablesLoaded (exLay.view exRunMem) := by
  have k : ∀ n o, n < 16 → o < 65536 → exRunMem (BitVec.ofNat 64 (n * 65536) + BitVec.ofNat 64 o) = exByte [] exRunNums n o :=
    exMach_at [] exRunNums
  exact ⟨fun c hc j hj => (k 3 (16 * c + j) (by omega) (by omega)).trans (initMem_tables.encShuf c hc j hj),
    fun c hc j hj => (k 4 (16 * c + j) (by omega) (by omega)).trans (initMem_tables.decShuf c hc j hj),
    fun c hc j hj => (k 6 (4 * c + j) (by omega) (by omega)).trans (initMem_tables.numLen c hc j hj),
    fun c hc => (k 5 c (by omega) (by omega)).trans (initMem_tables.ctrlLen c hc),
    ⟨(k 7 0 (by omega) (by omega)).trans initMem_tables.mask0101.1, (k 7 1 (by omega) (by omega)).trans initMem_tables.mask0101.2⟩,
    ⟨(k 8 0 (by omega) (by omega)).trans initMem_tables.mask7F00.1, (k 8 1 (by omega) (by omega)).trans initMem_tables.mask7F00.2⟩⟩

theorem exRun_writer : WriterPre (.heap 1) exRunIn (exLay.view exRunMem) :=
  ⟨exRun_tables, ⟨by decide, rfl, by decide⟩, rfl, by decide⟩

theorem exRun_places : WriterPlaces exLay (.heap 1) exRunIn where
  src q hq := .inr ⟨.inl hq.1, by have := hq.2.2; simp only [exRunIn] at this; omega⟩
  tables q hq := .inl hq
  buf q hq ho := ⟨.inr (.inl hq), by simp only [exRunIn, ctrlLen] at ho; omega⟩

theorem exRun_reader (l : Nat) (hl : l ≤ 47) : ReaderPlaces exLay 11 ⟨.heap 1, 0, l, 47⟩ exRunOut where
  src q h1 h2 h3 h4 := .inr ⟨.inr (.inl h1), by simp only [ctrlLen] at h4; omega⟩
  tables q hq := .inl hq
  dstR q hq := .inr ⟨.inr (.inr hq.1), by have := hq.2.2; simp only [exRunOut] at this; omega⟩
  dst q hq := ⟨.inr (.inr hq.1), by have := hq.2.2; simp only [exRunOut] at this; omega⟩

example {o : Outcome Bytes} {mem' : FMem} := C70_write (mem' := mem') (o := o) .fast exLay_fits exRun_writer exRun_places
example {o : Outcome Bytes} {mem' : FMem} :=
  C70_writeDelta (mem' := mem') (o := o) (.auto ⟨true, true, true⟩) 5 exLay_fits exRun_writer exRun_places

/-- There is an execution, and it leaves this stream. -/
example : ∃ o mem', FRun exLay exStk (Fn.fast.write (.heap 1) exRunIn) exRunMem o mem' ∧ ∃ r : Bytes, o = .ok r ∧
    bytes mem' (0x20000 : Addr) r.len =
      [0xe4, 0xd0, 0x20, 1, 0x2c, 1, 0x70, 0x11, 1, 255, 255, 255, 255, 0, 255, 0, 1, 0, 0, 0, 1, 7, 9, 0, 0, 1] := by
  obtain ⟨o, mem', h⟩ := (C70_runs (L := exLay) (mem := exRunMem) .fast exRoom (fresh := .heap 1) (inn := exRunIn)
    (out := exRunOut) (st := ⟨.heap 1, 0, 0, 0⟩) rfl rfl rfl rfl 0 0).1
  obtain ⟨r, rfl, hb, hr, -⟩ := C70_write .fast exLay_fits exRun_writer exRun_places h
  refine ⟨_, mem', h, r, rfl, ?_⟩
  have : Flat.bytesAt exLay mem' r = bytes mem' (0x20000 : Addr) r.len := by rw [Flat.bytesAt, hr]; rfl
  rw [← this, hb]
  decide +kernel

/-- There and back: whatever executes, the numbers are at `0xa0190`. -/
example {o : Outcome Unit} {mem' : FMem} (h : FRun exLay exStk
    (Fn.fast.write (.heap 1) exRunIn >>= fun s => Fn.fast.read 11 s exRunOut) exRunMem o mem') :
    words mem' (0xa0190 : Addr) 11 = [1, 300, 70000, 0xffffffff, 0, 255, 256, 0x1000000, 7, 9, 65536] := by
  have := (C70_roundtrip .fast .fast exLay_fits exRun_writer ⟨by decide, rfl, by decide⟩ (by decide) (by decide) exRun_places
    (exRun_reader 47 (by decide)) h).2.1
  exact this.trans (by decide +kernel)

example {o : Outcome Unit} {mem' : FMem} := C70_roundtrip_delta (mem' := mem') (o := o) .fast .scalar 77 exLay_fits exRun_writer
  (out := exRunOut) ⟨by decide, rfl, by decide⟩ (by decide) (by decide) exRun_places (exRun_reader 47 (by decide))

example := C70_roundtrip_runs .fast .fast exRoom exLay_fits exRun_writer (out := exRunOut) rfl exRun_places 77

/-- A stream of 40 bytes. -/
def exRunSt : Bytes := ⟨.heap 1, 0, 40, 47⟩
theorem exRun_readerPre : ReaderPre 11 exRunSt exRunOut (exLay.view exRunMem) :=
  ⟨exRun_tables, by decide, ⟨by decide, rfl, by decide⟩, .inl (by decide), by decide⟩
example {o : Outcome Unit} {mem' : FMem} :=
  C70_read (mem' := mem') (o := o) .fast exLay_fits exRun_readerPre (exRun_reader 40 (by decide))
example {o : Outcome Unit} {mem' : FMem} :=
  C70_readDelta (mem' := mem') (o := o) .fast 3 exLay_fits exRun_readerPre (exRun_reader 40 (by decide))
example {mem : FMem} := C70_runs_block (L := exLay) (mem := mem) .fast exRoom (num := exRunIn) (byt := exRunSt) rfl rfl 5 6 3 9

end SVB.Props
