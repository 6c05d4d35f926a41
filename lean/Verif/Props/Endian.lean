import Verif.Proofs.Endian
import Verif.Props.RoundTrip

/-! # C81: machines of either byte order -/

set_option autoImplicit false

namespace SVB.Props
open Spec

/-! ## Vocabulary -/

/-- The first `n` numbers of a `[]uint32` as a machine with the given byte order sees them. -/
def numsN (e : Endian) (m : Mem) (s : U32s) (n : Nat) : List U32 :=
  (List.range n).map fun i =>
    match e with
    | .little => m ⟨s.blk, s.off + 4 * i + 3⟩ ++ m ⟨s.blk, s.off + 4 * i + 2⟩ ++
        m ⟨s.blk, s.off + 4 * i + 1⟩ ++ m ⟨s.blk, s.off + 4 * i⟩
    | .big => m ⟨s.blk, s.off + 4 * i⟩ ++ m ⟨s.blk, s.off + 4 * i + 1⟩ ++
        m ⟨s.blk, s.off + 4 * i + 2⟩ ++ m ⟨s.blk, s.off + 4 * i + 3⟩

/-- The library on a machine: on amd64 any of its variants, elsewhere the portable functions. -/
inductive Machine where
  | amd64 (f : Fn)
  | other (e : Endian)

def Machine.order : Machine → Endian
  | .amd64 _ => .little
  | .other e => e

def Machine.write : Machine → Block → U32s → Prog Bytes
  | .amd64 f => f.write
  | .other e => En.writeAllScalar e

def Machine.writeDelta : Machine → Block → U32s → U32 → Prog Bytes
  | .amd64 f => f.writeDelta
  | .other e => En.writeAllDeltaScalar e

def Machine.read : Machine → Int → Bytes → U32s → Prog Unit
  | .amd64 f => f.read
  | .other e => En.readAllScalar e

def Machine.readDelta : Machine → Int → Bytes → U32s → U32 → Prog Unit
  | .amd64 f => f.readDelta
  | .other e => En.readAllDeltaScalar e

/-- Go aligns `uint32`s. -/
def Aligned (s : U32s) : Prop := s.off % 4 = 0

/-! ## Little-endian machines: nothing new -/

/-- C81: for little-endian machines the functions with the byte order as parameter are those of the rest of the
model. -/
theorem C81_little : En.writeAllScalar .little = writeAllScalar ∧ En.writeAllDeltaScalar .little = writeAllDeltaScalar ∧
    En.readAllScalar .little = readAllScalar ∧ En.readAllDeltaScalar .little = readAllDeltaScalar ∧
    En.put4uint32Scalar .little = put4uint32Scalar ∧ En.put4uint32DeltaScalar .little = put4uint32DeltaScalar ∧
    En.put8uint32Scalar .little = put8uint32Scalar ∧ En.put8uint32DeltaScalar .little = put8uint32DeltaScalar ∧
    En.putUint32Scalar .little = putUint32Scalar ∧ En.putUint32DeltaScalar .little = putUint32DeltaScalar ∧
    En.get4uint32Scalar .little = get4uint32Scalar ∧ En.get4uint32DeltaScalar .little = get4uint32DeltaScalar ∧
    En.get8uint32Scalar .little = get8uint32Scalar ∧ En.get8uint32DeltaScalar .little = get8uint32DeltaScalar ∧
    En.getUint32Scalar .little = getUint32Scalar ∧ En.getUint32DeltaScalar .little = getUint32DeltaScalar ∧
    En.putVarint .little = putVarint ∧ En.putDeltaVarint .little = putDeltaVarint ∧
    En.getVarint .little = getVarint ∧ En.getDeltaVarint .little = getDeltaVarint ∧
    En.utilDelta .little = utilDelta :=
  ⟨rfl, rfl, rfl, rfl, rfl, rfl, rfl, rfl, rfl, rfl, rfl, rfl, rfl, rfl, rfl, rfl, rfl, rfl, rfl, rfl, rfl⟩

/-! ## Big-endian machines: the same with the bytes of every number reversed -/

/-- Memory with the bytes of every number in the blocks `U` reversed. -/
def swapped (U : Block → Bool) (m : Mem) : Mem := fun q =>
  if U q.blk then m ⟨q.blk, 4 * (q.off / 4) + (3 - q.off % 4)⟩ else m q

/-- On a big-endian machine `p` does what `q` does on a little-endian machine: the same result or panic, and the same
memory but for the byte order of the numbers. -/
def SameAs (U : Block → Bool) {α : Type} (p q : Prog α) : Prop :=
  ∀ m, (run p m).1 = (run q (swapped U m)).1 ∧ (run p m).2 = swapped U (run q (swapped U m)).2

private theorem swapped_eq (U : Block → Bool) (m : Mem) : swapped U m = En.flip U m := by
  funext q
  unfold swapped En.flip En.revPtr En.rev4
  split <;> rfl

private theorem same_of {U : Block → Bool} {α : Type} [En.Typed α] {p q : Prog α} (h : En.Sim U p q) :
    SameAs U p q := by
  intro m
  rw [swapped_eq, swapped_eq, (h.out m).1]
  exact ⟨rfl, rfl⟩

/-- The blocks of numbers and the blocks of bytes: no block is both, and the tables are bytes. -/
structure Sorts (U : Block → Bool) (nums : List U32s) (bytes : List Bytes) : Prop where
  tables : ∀ b, b.isConst = true → U b = false
  nums : ∀ s ∈ nums, U s.blk = true ∧ Aligned s
  bytes : ∀ s ∈ bytes, U s.blk = false

/-- C81: the stream functions. -/
theorem C81_streams {U : Block → Bool} {w : U32s} {b : Bytes} (h : Sorts U [w] [b]) (fresh : Block)
    (hf : U fresh = false) (count : Int) (prev : U32) :
    SameAs U (En.writeAllScalar .big fresh w) (writeAllScalar fresh w) ∧
    SameAs U (En.writeAllDeltaScalar .big fresh w prev) (writeAllDeltaScalar fresh w prev) ∧
    SameAs U (En.readAllScalar .big count b w) (readAllScalar count b w) ∧
    SameAs U (En.readAllDeltaScalar .big count b w prev) (readAllDeltaScalar count b w prev) := by
  have hU : En.NoConst U := h.tables
  have hw := h.nums w (by simp)
  have hb := h.bytes b (by simp)
  exact ⟨same_of (.writeAllScalar hU _ _ hf hw), same_of (.writeAllDeltaScalar hU _ _ _ hf hw),
    same_of (.readAllScalar hU _ _ _ hb hw), same_of (.readAllDeltaScalar hU _ _ _ _ hb hw)⟩

/-- C81: the block encoders. -/
theorem C81_put {U : Block → Bool} {w : U32s} {b : Bytes} (h : Sorts U [w] [b]) (count : Int) (prev : U32) :
    SameAs U (En.put4uint32Scalar .big w b) (put4uint32Scalar w b) ∧
    SameAs U (En.put4uint32DeltaScalar .big w b prev) (put4uint32DeltaScalar w b prev) ∧
    SameAs U (En.put8uint32Scalar .big w b) (put8uint32Scalar w b) ∧
    SameAs U (En.put8uint32DeltaScalar .big w b prev) (put8uint32DeltaScalar w b prev) ∧
    SameAs U (En.putUint32Scalar .big w b count) (putUint32Scalar w b count) ∧
    SameAs U (En.putUint32DeltaScalar .big w b count prev) (putUint32DeltaScalar w b count prev) := by
  have hU : En.NoConst U := h.tables
  have hw := h.nums w (by simp)
  have hb := h.bytes b (by simp)
  exact ⟨same_of (.put4uint32Scalar _ _ hw hb), same_of (.put4uint32DeltaScalar _ _ _ hw hb),
    same_of (.put8uint32Scalar hU _ _ hw hb), same_of (.put8uint32DeltaScalar hU _ _ _ hw hb),
    same_of (.putUint32Scalar _ _ _ hw hb), same_of (.putUint32DeltaScalar _ _ _ _ hw hb)⟩

/-- C81: the block decoders. -/
theorem C81_get {U : Block → Bool} {w : U32s} {b : Bytes} (h : Sorts U [w] [b]) (c : Byte) (c2 : U16) (count : Int)
    (prev : U32) :
    SameAs U (En.get4uint32Scalar .big b w c) (get4uint32Scalar b w c) ∧
    SameAs U (En.get4uint32DeltaScalar .big b w c prev) (get4uint32DeltaScalar b w c prev) ∧
    SameAs U (En.get8uint32Scalar .big b w c2) (get8uint32Scalar b w c2) ∧
    SameAs U (En.get8uint32DeltaScalar .big b w c2 prev) (get8uint32DeltaScalar b w c2 prev) ∧
    SameAs U (En.getUint32Scalar .big b w c count) (getUint32Scalar b w c count) ∧
    SameAs U (En.getUint32DeltaScalar .big b w c count prev) (getUint32DeltaScalar b w c count prev) := by
  have hU : En.NoConst U := h.tables
  have hw := h.nums w (by simp)
  have hb := h.bytes b (by simp)
  exact ⟨same_of (.get4uint32Scalar hU _ _ _ hb hw), same_of (.get4uint32DeltaScalar hU _ _ _ _ hb hw),
    same_of (.get8uint32Scalar hU _ _ _ hb hw), same_of (.get8uint32DeltaScalar hU _ _ _ _ hb hw),
    same_of (.getUint32Scalar _ _ _ _ hb hw), same_of (.getUint32DeltaScalar _ _ _ _ _ hb hw)⟩

/-- C81: package `util`. -/
theorem C81_util {U : Block → Bool} {w w' : U32s} {b : Bytes} (h : Sorts U [w, w'] [b]) (prev : U32) :
    SameAs U (En.putVarint .big w b) (putVarint w b) ∧
    SameAs U (En.putDeltaVarint .big w b prev) (putDeltaVarint w b prev) ∧
    SameAs U (En.getVarint .big b w) (getVarint b w) ∧
    SameAs U (En.getDeltaVarint .big b w prev) (getDeltaVarint b w prev) ∧
    SameAs U (En.utilDelta .big w w') (utilDelta w w') := by
  have hw := h.nums w (by simp)
  have hw' := h.nums w' (by simp)
  have hb := h.bytes b (by simp)
  exact ⟨same_of (.putVarint _ _ hw hb), same_of (.putDeltaVarint _ _ _ hw hb), same_of (.getVarint _ _ hb hw),
    same_of (.getDeltaVarint _ _ _ hb hw), same_of (.utilDelta _ _ hw hw')⟩

-- Two slices of numbers in one block, a slice of bytes in another.
theorem exSorts : Sorts (fun b => b == .heap 0) [exIn, ⟨.heap 0, 8, 3, 5⟩] [⟨.heap 7, 1, 40, 40⟩] :=
  { tables := fun b h => by
      cases b
      case heap => cases h
      all_goals rfl
    nums := by simp [Aligned, exIn]
    bytes := by simp }
example := C81_util exSorts 5

/-! ## What the numbers are -/

private theorem nums_little (m : Mem) (s : U32s) (n : Nat) : numsN .little m s n = wordsN m s n := rfl

private theorem nums_big {U : Block → Bool} {m : Mem} {s : U32s} (hs : U s.blk = true) (ha : Aligned s) (n : Nat) :
    numsN .big m s n = wordsN (swapped U m) s n := by
  unfold numsN wordsN Aligned at *
  refine List.map_congr_left fun i _ => ?_
  simp only [swapped, hs, if_true]
  have e : ∀ k, k ≤ 3 → 4 * ((s.off + 4 * i + k) / 4) + (3 - (s.off + 4 * i + k) % 4) = s.off + 4 * i + (3 - k) := by
    intro k hk; omega
  have e0 := e 0 (by omega)
  rw [Nat.add_zero] at e0
  rw [e0, e 1 (by omega), e 2 (by omega), e 3 (by omega)]
  rfl

/-- The blocks of numbers: the one of `s` only. -/
private def only (s : U32s) : Block → Bool := fun b => decide (b = s.blk)

private theorem only_self (s : U32s) : only s s.blk = true := by simp [only]
private theorem only_ne {s : U32s} {b : Block} (h : b ≠ s.blk) : only s b = false := by simp [only, h]

private theorem only_const {s : U32s} (h : s.blk.isConst = false) (b : Block) (hb : b.isConst = true) :
    only s b = false := by
  apply only_ne
  rintro rfl
  rw [h] at hb; cases hb

private theorem swapped_other {U : Block → Bool} {m : Mem} {q : Ptr} (h : U q.blk = false) :
    swapped U m q = m q := by
  simp [swapped, h]

private theorem swapped_tables {U : Block → Bool} {m : Mem} (hU : ∀ b, b.isConst = true → U b = false)
    (h : TablesLoaded m) : TablesLoaded (swapped U m) := by
  have e : ∀ (b : Block) (o : Nat), b.isConst = true → swapped U m ⟨b, o⟩ = m ⟨b, o⟩ :=
    fun b o hb => swapped_other (hU b hb)
  constructor
  · intro c hc j hj; rw [e _ _ rfl]; exact h.encShuf c hc j hj
  · intro c hc j hj; rw [e _ _ rfl]; exact h.decShuf c hc j hj
  · intro c hc j hj; rw [e _ _ rfl]; exact h.numLen c hc j hj
  · intro c hc; rw [e _ _ rfl]; exact h.ctrlLen c hc
  · rw [e _ _ rfl, e _ _ rfl]; exact h.mask0101
  · rw [e _ _ rfl, e _ _ rfl]; exact h.mask7F00

private theorem bytes_swapped {U : Block → Bool} {m : Mem} {s : Bytes} (h : U s.blk = false) :
    bytesOf (swapped U m) s = bytesOf m s := by
  unfold bytesOf
  exact List.map_congr_left fun i _ => swapped_other h

private theorem write_big {fresh : Block} {inn : U32s} {m : Mem} {xs : List U32} {p q : Prog Bytes}
    (hw : WriterPre fresh inn m) (h : SameAs (only inn) p q)
    (hr : WriteResult q fresh inn xs (swapped (only inn) m)) :
    ∃ r m', run p m = (.ok r, m') ∧ r.blk = fresh ∧ bytesOf m' r = encode xs ∧ ∀ q, q.blk ≠ fresh → m' q = m q := by
  obtain ⟨m', e, hb, hfr, -⟩ := hr.ex
  obtain ⟨h1, h2⟩ := h m
  rw [e] at h1 h2
  refine ⟨_, swapped (only inn) m', Prod.ext h1 h2, rfl, ?_, fun q hq => ?_⟩
  · rw [bytes_swapped (only_ne hw.fresh_ne)]
    exact hb
  · have hs : ∀ q : Ptr, q.blk ≠ fresh → m' q = swapped (only inn) m q := fun q hq => hfr q fun h => hq h.1
    by_cases hU : only inn q.blk = true
    · rw [swapped, if_pos hU, hs ⟨q.blk, 4 * (q.off / 4) + (3 - q.off % 4)⟩ hq, swapped, if_pos hU]
      congr 1
      show (⟨q.blk, _⟩ : Ptr) = q
      cases q
      congr 1
      simp only
      omega
    · have hU' : only inn q.blk = false := by simpa using hU
      rw [swapped_other hU', hs _ hq, swapped_other hU']

/-- C81: on every machine `WriteAll` returns the same stream for the same numbers. -/
theorem C81_write (d : Machine) {fresh : Block} {inn : U32s} {m : Mem} (hw : WriterPre fresh inn m)
    (ha : Aligned inn) :
    ∃ r m', run (d.write fresh inn) m = (.ok r, m') ∧ r.blk = fresh ∧
      bytesOf m' r = encode (numsN d.order m inn inn.len) ∧ ∀ q, q.blk ≠ fresh → m' q = m q := by
  have hlit : ∀ f : Fn, ∃ r m', run (f.write fresh inn) m = (.ok r, m') ∧ r.blk = fresh ∧
      bytesOf m' r = encode (numsN .little m inn inn.len) ∧ ∀ q, q.blk ≠ fresh → m' q = m q := by
    intro f
    obtain ⟨m', e, hb, hfr, -⟩ := (write_result f hw).ex
    exact ⟨_, m', e, rfl, hb, fun q hq => hfr q fun h => hq h.1⟩
  cases d with
  | amd64 f => exact hlit f
  | other e =>
    cases e with
    | little => exact hlit .scalar
    | big =>
      have hU := only_const hw.valid.heap
      have hS : Sorts (only inn) [inn] [⟨fresh, 0, 0, 0⟩] :=
        ⟨hU, by simpa using ⟨only_self inn, ha⟩, by simpa using only_ne hw.fresh_ne⟩
      have := write_big hw (C81_streams hS fresh (only_ne hw.fresh_ne) 0 0).1
        (write_result .scalar ⟨swapped_tables hU hw.tables, hw.valid, hw.fresh_heap, hw.fresh_ne⟩)
      rw [show wordsOf (swapped (only inn) m) inn = numsN .big m inn inn.len from
        (nums_big (only_self inn) ha _).symm] at this
      exact this

/-- C81: and so does `WriteAllDelta`. -/
theorem C81_writeDelta (d : Machine) {fresh : Block} {inn : U32s} {m : Mem} (prev : U32)
    (hw : WriterPre fresh inn m) (ha : Aligned inn) :
    ∃ r m', run (d.writeDelta fresh inn prev) m = (.ok r, m') ∧ r.blk = fresh ∧
      bytesOf m' r = encode (delta prev (numsN d.order m inn inn.len)) ∧ ∀ q, q.blk ≠ fresh → m' q = m q := by
  have hlit : ∀ f : Fn, ∃ r m', run (f.writeDelta fresh inn prev) m = (.ok r, m') ∧ r.blk = fresh ∧
      bytesOf m' r = encode (delta prev (numsN .little m inn inn.len)) ∧ ∀ q, q.blk ≠ fresh → m' q = m q := by
    intro f
    obtain ⟨m', e, hb, hfr, -⟩ := (writeDelta_result f prev hw).ex
    exact ⟨_, m', e, rfl, hb, fun q hq => hfr q fun h => hq h.1⟩
  cases d with
  | amd64 f => exact hlit f
  | other e =>
    cases e with
    | little => exact hlit .scalar
    | big =>
      have hU := only_const hw.valid.heap
      have hS : Sorts (only inn) [inn] [⟨fresh, 0, 0, 0⟩] :=
        ⟨hU, by simpa using ⟨only_self inn, ha⟩, by simpa using only_ne hw.fresh_ne⟩
      have := write_big hw (C81_streams hS fresh (only_ne hw.fresh_ne) 0 prev).2.1
        (writeDelta_result .scalar prev ⟨swapped_tables hU hw.tables, hw.valid, hw.fresh_heap, hw.fresh_ne⟩)
      rw [show wordsOf (swapped (only inn) m) inn = numsN .big m inn inn.len from
        (nums_big (only_self inn) ha _).symm] at this
      exact this

/-- The result of a reader on a machine of byte order `e`. -/
def ReadsAs (e : Endian) (p : Prog Unit) (m : Mem) (out : U32s) (n : Nat) (r : Option (List U32)) : Prop :=
  (match r with
    | some xs => ∃ m', run p m = (.ok (), m') ∧ numsN e m' out n = xs
    | none => ∃ k m', run p m = (.panic k, m') ∧ BoundsPanic k) ∧
  ∀ q, ¬ inFirst out n q → (run p m).2 q = m q

private theorem read_big {n : Nat} {out : U32s} {m : Mem} {r : Option (List U32)} {p q : Prog Unit}
    (ha : Aligned out) (h : SameAs (only out) p q)
    (hr : ReadResult q (swapped (only out) m) out n r) : ReadsAs .big p m out n r := by
  obtain ⟨hr, hfr⟩ := hr
  obtain ⟨h1, h2⟩ := h m
  have hsw : ∀ m : Mem, swapped (only out) (swapped (only out) m) = m := by
    intro m
    rw [swapped_eq, swapped_eq, En.flip_flip]
  refine ⟨?_, fun q hq => ?_⟩
  · cases r with
    | none =>
      obtain ⟨k, m', e, hk⟩ := hr
      rw [e] at h1 h2
      exact ⟨k, swapped (only out) m', Prod.ext h1 h2, hk⟩
    | some xs =>
      obtain ⟨m', e, hx⟩ := hr
      rw [e] at h1 h2
      refine ⟨swapped (only out) m', Prod.ext h1 h2, ?_⟩
      rw [nums_big (only_self out) ha, hsw]
      exact hx
  · rw [h2]
    by_cases hU : only out q.blk = true
    · rw [swapped, if_pos hU, hfr, swapped, if_pos hU]
      · congr 1
        show (⟨q.blk, _⟩ : Ptr) = q
        cases q
        congr 1
        simp only
        omega
      · intro hi
        apply hq
        unfold Aligned at ha
        obtain ⟨i1, i2, i3⟩ := hi
        simp only at i1 i2 i3
        exact ⟨i1, by omega, by omega⟩
    · have hU' : only out q.blk = false := by simpa using hU
      rw [swapped_other hU', hfr q hq, swapped_other hU']

/-- C81: on every machine `ReadAll` stores the numbers of the stream, and panics exactly if it is too short. -/
theorem C81_read (d : Machine) {n : Nat} {st : Bytes} {out : U32s} {m : Mem} (h : ReaderPre n st out m)
    (ha : Aligned out) (hne : st.blk ≠ out.blk) :
    ReadsAs d.order (d.read n st out) m out n (decode n (bytesOf m st)) := by
  cases d with
  | amd64 f => exact read_result f h
  | other e =>
    cases e with
    | little => exact read_result .scalar h
    | big =>
      have hU := only_const h.vout.heap
      have hS : Sorts (only out) [out] [st] :=
        ⟨hU, by simpa using ⟨only_self out, ha⟩, by simpa using only_ne hne⟩
      have hp : ReaderPre n st out (swapped (only out) m) :=
        ⟨swapped_tables hU h.tables, h.stream_cap, h.vout, h.disj, h.room⟩
      have hr := read_result .scalar hp
      rw [bytes_swapped (only_ne hne)] at hr
      exact read_big ha (C81_streams hS st.blk (only_ne hne) n 0).2.2.1 hr

/-- C81: and so does `ReadAllDelta`. -/
theorem C81_readDelta (d : Machine) {n : Nat} {st : Bytes} {out : U32s} {m : Mem} (prev : U32)
    (h : ReaderPre n st out m) (ha : Aligned out) (hne : st.blk ≠ out.blk) :
    ReadsAs d.order (d.readDelta n st out prev) m out n (decodeDelta prev n (bytesOf m st)) := by
  cases d with
  | amd64 f => exact readDelta_result f prev h
  | other e =>
    cases e with
    | little => exact readDelta_result .scalar prev h
    | big =>
      have hU := only_const h.vout.heap
      have hS : Sorts (only out) [out] [st] :=
        ⟨hU, by simpa using ⟨only_self out, ha⟩, by simpa using only_ne hne⟩
      have hp : ReaderPre n st out (swapped (only out) m) :=
        ⟨swapped_tables hU h.tables, h.stream_cap, h.vout, h.disj, h.room⟩
      have hr := readDelta_result .scalar prev hp
      rw [bytes_swapped (only_ne hne)] at hr
      exact read_big ha (C81_streams hS st.blk (only_ne hne) n prev).2.2.2 hr

/-- C81: a stream can be written on one machine and read on another: the numbers are the same whatever the byte
orders.  `m` is the memory of the one, `m₂` that of the other, to which the bytes have been carried. -/
theorem C81_portable (d d₂ : Machine) {fresh : Block} {inn out : U32s} {m m₁ m₂ : Mem} {s st : Bytes}
    (hw : WriterPre fresh inn m) (ha : Aligned inn) (hrun : run (d.write fresh inn) m = (.ok s, m₁))
    (hst : bytesOf m₂ st = bytesOf m₁ s) (h : ReaderPre inn.len st out m₂) (ho : Aligned out)
    (hne : st.blk ≠ out.blk) :
    ∃ m', run (d₂.read inn.len st out) m₂ = (.ok (), m') ∧
      numsN d₂.order m' out inn.len = numsN d.order m inn inn.len := by
  obtain ⟨r, m', e, -, hb, -⟩ := C81_write d hw ha
  rw [hrun] at e
  cases e
  have hr := (C81_read d₂ h ho hne).1
  have hd := decode_encode (numsN d.order m inn inn.len) []
  rw [List.append_nil, show (numsN d.order m inn inn.len).length = inn.len by simp [numsN]] at hd
  rw [hst, hb, hd] at hr
  exact hr

/-- C81: likewise with differences. -/
theorem C81_portable_delta (d d₂ : Machine) {fresh : Block} {inn out : U32s} {m m₁ m₂ : Mem} {s st : Bytes}
    (prev : U32) (hw : WriterPre fresh inn m) (ha : Aligned inn)
    (hrun : run (d.writeDelta fresh inn prev) m = (.ok s, m₁))
    (hst : bytesOf m₂ st = bytesOf m₁ s) (h : ReaderPre inn.len st out m₂) (ho : Aligned out)
    (hne : st.blk ≠ out.blk) :
    ∃ m', run (d₂.readDelta inn.len st out prev) m₂ = (.ok (), m') ∧
      numsN d₂.order m' out inn.len = numsN d.order m inn inn.len := by
  obtain ⟨r, m', e, -, hb, -⟩ := C81_writeDelta d prev hw ha
  rw [hrun] at e
  cases e
  have hr := (C81_readDelta d₂ prev h ho hne).1
  have hd := decodeDelta_encode prev (numsN d.order m inn inn.len) []
  rw [List.append_nil, show (numsN d.order m inn inn.len).length = inn.len by simp [numsN]] at hd
  rw [hst, hb, hd] at hr
  exact hr

-- The seventeen numbers of C01 as a big-endian machine has them in memory: the bytes of each reversed.
def exBigMem : Mem := memWith (exNums.map fun x =>
  x.extractLsb' 0 8 ++ x.extractLsb' 8 8 ++ x.extractLsb' 16 8 ++ x.extractLsb' 24 8) []
example : numsN .big exBigMem exIn 17 = exNums := by decide +kernel
theorem exBigWriter : WriterPre (.heap 7) exIn exBigMem :=
  ⟨memWith_tables _ _, ⟨by decide, rfl, by decide⟩, rfl, by decide⟩
example := C81_write (.other .big) exBigWriter rfl
example := C81_read (.other .big) exReader rfl (by decide)
def exBigSt : Bytes := ⟨.heap 1, 0, (encode exNums).length, 100⟩
theorem exBigReader : ReaderPre exIn.len exBigSt exOut (memWith [] (encode exNums)) :=
  ⟨memWith_tables _ _, by decide +kernel, ⟨by decide, rfl, by decide⟩, .inl (by decide), by decide⟩
example : ∃ s m₁, run (Machine.write (.other .big) (.heap 7) exIn) exBigMem = (.ok s, m₁) ∧
    ∃ m', run (Machine.read (.amd64 .fast) exIn.len exBigSt exOut) (memWith [] (encode exNums)) = (.ok (), m') ∧
      numsN .little m' exOut exIn.len = numsN .big exBigMem exIn exIn.len := by
  obtain ⟨s, m₁, e, -, hb, -⟩ := C81_write (.other .big) exBigWriter rfl
  have hst : bytesOf (memWith [] (encode exNums)) exBigSt = bytesOf m₁ s := by
    rw [hb]
    decide +kernel
  exact ⟨s, m₁, e, C81_portable (.other .big) (.amd64 .fast) exBigWriter rfl e hst exBigReader rfl (by decide)⟩
example : bytesOf (run (En.writeAllScalar .big (.heap 7) ⟨.heap 0, 0, 2, 2⟩) (memWith [0x01000000, 0xD2040000] [])).2
    ⟨.heap 7, 0, 4, 9⟩ = [0b00000100, 1, 0xD2, 0x04] := by decide +kernel

end SVB.Props
