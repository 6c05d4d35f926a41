import Verif.Props.Counts
import Verif.Proofs.SafeStream
import Verif.Proofs.Results
import Verif.Proofs.Blocks

/-!
# Arbitrary arguments: C12, C38, C40

No relation between lengths, counts, control values, stream contents or the two slices is assumed (they may
overlap).
-/

set_option autoImplicit false

namespace SVB.Props
open Spec Asm

/-- Address inside the capacity of a slice. -/
def inCap {e : Nat} (s : Slice e) (q : Ptr) : Prop :=
  q.blk = s.blk ∧ s.off ≤ q.off ∧ q.off < s.off + e * s.cap

/-- Address inside the slice or the next `k` bytes. -/
def within {e : Nat} (s : Slice e) (k : Nat) (q : Ptr) : Prop :=
  q.blk = s.blk ∧ s.off ≤ q.off ∧ q.off < s.off + e * s.len + k

/-- Any call of a Go function with a slice to read and a slice to write: the tables have their contents,
both slices satisfy Go's own invariant, and the slice to write is not one of the tables. -/
structure AnyArgs {e f : Nat} (src : Slice e) (dst : Slice f) (m : Mem) : Prop where
  tables : TablesLoaded m
  src_cap : src.len ≤ src.cap
  dst_cap : dst.len ≤ dst.cap
  heap : dst.blk.isConst = false

/-- `p` loads only from `R`, stores only to `W`, and stops only normally or with a bounds panic. -/
structure Stays {α : Type} (p : Prog α) (m : Mem) (R W : Ptr → Prop) : Prop where
  loads : ∀ q, Event.rd q ∈ trace p m → R q
  stores : ∀ q, Event.wr q ∈ trace p m → W q
  stops : ∀ k m', run p m = (.panic k, m') → BoundsPanic k

/-- Some 64-bit `int`. -/
def IsInt64 (x : Int) : Prop := -2 ^ 63 ≤ x ∧ x < 2 ^ 63

/-! ## Auxiliary: from the footprint triples -/

theorem stays_of {α : Type} {F : Fp} {p : Prog α} {Q : α → Prop} (h : Tri F p Q) {m : Mem}
    (hT : TablesLoaded m) {R W : Ptr → Prop} (hR : ∀ q, F.R q → R q) (hW : ∀ q, F.W q → W q) :
    Stays p m R W := by
  have hw := (wp_iff _ _ _ _).1 (tri_wp h m hT)
  refine ⟨fun q hq => hR q (hw.1 _ hq), fun q hq => hW q (hw.1 _ hq), fun k m' hr => ?_⟩
  have := hw.2
  rw [hr] at this
  exact this

theorem result_of {α : Type} {F : Fp} {p : Prog α} {Q : α → Prop} (h : Tri F p Q) {m m' : Mem}
    {a : α} (hT : TablesLoaded m) (hr : run p m = (.ok a, m')) : Q a := by
  have := ((wp_iff _ _ _ _).1 (tri_wp h m hT)).2
  rw [hr] at this
  exact this.1

/-- Loads: capacity of both slices and tables; stores: capacity of `dst`. -/
def capFp {e f : Nat} (src : Slice e) (dst : Slice f) (h : dst.blk.isConst = false) : Fp where
  R q := inCap src q ∨ inCap dst q ∨ inTables q
  W := inCap dst
  tabs _ h := .inr (.inr h)
  heap q hq := by rw [hq.1]; exact h

theorem capFp_src {e f : Nat} {src : Slice e} {dst : Slice f} {m : Mem} (h : AnyArgs src dst m) :
    RdOk (capFp src dst h.heap) src := ⟨h.src_cap, fun _ a b c => .inl ⟨a, b, c⟩⟩
theorem capFp_dst {e f : Nat} {src : Slice e} {dst : Slice f} {m : Mem} (h : AnyArgs src dst m) :
    RdOk (capFp src dst h.heap) dst := ⟨h.dst_cap, fun _ a b c => .inr (.inl ⟨a, b, c⟩)⟩
theorem capFp_out {e f : Nat} {src : Slice e} {dst : Slice f} {m : Mem} (h : AnyArgs src dst m) :
    WrOk (capFp src dst h.heap) dst := ⟨h.dst_cap, fun _ a b c => ⟨a, b, c⟩⟩

/-- The same without loads from `dst`. -/
def capFp' {e f : Nat} (src : Slice e) (dst : Slice f) (h : dst.blk.isConst = false) : Fp where
  R q := inCap src q ∨ inTables q
  W := inCap dst
  tabs _ h := .inr h
  heap q hq := by rw [hq.1]; exact h

theorem capFp'_src {e f : Nat} {src : Slice e} {dst : Slice f} {m : Mem} (h : AnyArgs src dst m) :
    RdOk (capFp' src dst h.heap) src := ⟨h.src_cap, fun _ a b c => .inl ⟨a, b, c⟩⟩
theorem capFp'_out {e f : Nat} {src : Slice e} {dst : Slice f} {m : Mem} (h : AnyArgs src dst m) :
    WrOk (capFp' src dst h.heap) dst := ⟨h.dst_cap, fun _ a b c => ⟨a, b, c⟩⟩

/-- Footprint of the vectorised readers. -/
def fastFp (src : Bytes) (dst : U32s) (h : dst.blk.isConst = false) : Fp where
  R q := inCap src q ∨ within src 32 q ∨ inCap dst q ∨ inTables q
  W q := inCap dst q ∨ within dst 32 q
  tabs _ h := .inr (.inr (.inr h))
  heap q hq := by rcases hq with hq | hq <;> (rw [hq.1]; exact h)

section
variable {src : Bytes} {dst : U32s} {m : Mem}
theorem fastFp_src (h : AnyArgs src dst m) : RdOk (fastFp src dst h.heap) src :=
  ⟨h.src_cap, fun _ a b c => .inl ⟨a, b, c⟩⟩
theorem fastFp_srcX (h : AnyArgs src dst m) : RdX (fastFp src dst h.heap) src :=
  ⟨h.src_cap, fun _ a b c => .inr (.inl ⟨a, b, by rw [Nat.one_mul]; exact c⟩)⟩
theorem fastFp_dst (h : AnyArgs src dst m) : RdOk (fastFp src dst h.heap) dst :=
  ⟨h.dst_cap, fun _ a b c => .inr (.inr (.inl ⟨a, b, c⟩))⟩
theorem fastFp_out (h : AnyArgs src dst m) : WrOk (fastFp src dst h.heap) dst :=
  ⟨h.dst_cap, fun _ a b c => .inl ⟨a, b, c⟩⟩
theorem fastFp_outX (h : AnyArgs src dst m) : WrX (fastFp src dst h.heap) dst :=
  ⟨h.dst_cap, fun _ a b c => .inr ⟨a, b, c⟩⟩
end

/-! ## Concrete bad arguments -/

/-- A three-byte stream, part of a larger array. -/
def exBadStream : Bytes := ⟨.heap 1, 2, 3, 7⟩
/-- Two numbers, in the same allocation as the stream and overlapping it. -/
def exBadOut : U32s := ⟨.heap 1, 0, 2, 3⟩
def exBadMem : Mem := memWith [] [1, 2, 3, 4, 5, 6, 7, 8, 9]

theorem exBad : AnyArgs exBadStream exBadOut exBadMem := ⟨memWith_tables _ _, by decide, by decide, rfl⟩

def exBadIn : U32s := ⟨.heap 1, 4, 1, 5⟩
def exBadBuf : Bytes := ⟨.heap 1, 0, 2, 30⟩
theorem exBadPut : AnyArgs exBadIn exBadBuf exBadMem := ⟨memWith_tables _ _, by decide, by decide, rfl⟩

/-! ## C12: the scalar code never leaves its slices -/

/-- C12, `ReadAllScalar`. -/
theorem C12_readAllScalar {count : Int} {st : Bytes} {out : U32s} {m : Mem} (hc : IsInt64 count)
    (h : AnyArgs st out m) :
    Stays (readAllScalar count st out) m (fun q => inCap st q ∨ inTables q) (inCap out) :=
  stays_of (tri_readAllScalar hc.1 hc.2 (capFp'_src h) (capFp'_out h)) h.tables (fun _ h => h) (fun _ h => h)

/-- C12, `ReadAllDeltaScalar`. -/
theorem C12_readAllDeltaScalar {count : Int} {st : Bytes} {out : U32s} {m : Mem} (prev : U32)
    (hc : IsInt64 count) (h : AnyArgs st out m) :
    Stays (readAllDeltaScalar count st out prev) m (fun q => inCap st q ∨ inCap out q ∨ inTables q) (inCap out) :=
  stays_of (tri_readAllDeltaScalar hc.1 hc.2 (capFp_src h) (capFp_out h) (capFp_dst h)) h.tables
    (fun _ h => h) (fun _ h => h)

/-- C12, `Get4uint32Scalar`. -/
theorem C12_get4 {inn : Bytes} {out : U32s} {m : Mem} (ctrl : Byte) (h : AnyArgs inn out m) :
    Stays (get4uint32Scalar inn out ctrl) m (fun q => inCap inn q ∨ inTables q) (inCap out) :=
  stays_of (tri_get4 (capFp'_src h) (capFp'_out h)) h.tables (fun _ h => h) (fun _ h => h)

/-- C12, `Get4uint32DeltaScalar`. -/
theorem C12_get4Delta {inn : Bytes} {out : U32s} {m : Mem} (ctrl : Byte) (prev : U32) (h : AnyArgs inn out m) :
    Stays (get4uint32DeltaScalar inn out ctrl prev) m (fun q => inCap inn q ∨ inCap out q ∨ inTables q)
      (inCap out) :=
  stays_of (tri_get4Delta (capFp_src h) (capFp_out h) (capFp_dst h)) h.tables (fun _ h => h) (fun _ h => h)

/-- C12, `Get8uint32Scalar`. -/
theorem C12_get8 {inn : Bytes} {out : U32s} {m : Mem} (ctrl : U16) (h : AnyArgs inn out m) :
    Stays (get8uint32Scalar inn out ctrl) m (fun q => inCap inn q ∨ inTables q) (inCap out) :=
  stays_of (tri_get8 (capFp'_src h) (capFp'_out h)) h.tables (fun _ h => h) (fun _ h => h)

/-- C12, `Get8uint32DeltaScalar`. -/
theorem C12_get8Delta {inn : Bytes} {out : U32s} {m : Mem} (ctrl : U16) (prev : U32) (h : AnyArgs inn out m) :
    Stays (get8uint32DeltaScalar inn out ctrl prev) m (fun q => inCap inn q ∨ inCap out q ∨ inTables q)
      (inCap out) :=
  stays_of (tri_get8Delta (capFp_src h) (capFp_out h) (capFp_dst h)) h.tables (fun _ h => h) (fun _ h => h)

/-- C12, `GetUint32Scalar`, any count. -/
theorem C12_getUint32 {inn : Bytes} {out : U32s} {m : Mem} (ctrl : Byte) (count : Int)
    (h : AnyArgs inn out m) :
    Stays (getUint32Scalar inn out ctrl count) m (fun q => inCap inn q ∨ inTables q) (inCap out) :=
  stays_of (tri_getN (capFp'_src h) (capFp'_out h)) h.tables (fun _ h => h) (fun _ h => h)

/-- C12, `GetUint32DeltaScalar`, any count. -/
theorem C12_getUint32Delta {inn : Bytes} {out : U32s} {m : Mem} (ctrl : Byte) (count : Int) (prev : U32)
    (h : AnyArgs inn out m) :
    Stays (getUint32DeltaScalar inn out ctrl count prev) m (fun q => inCap inn q ∨ inTables q) (inCap out) :=
  stays_of (tri_getNDelta (capFp'_src h) (capFp'_out h)) h.tables (fun _ h => h) (fun _ h => h)

/-- C12, `Put4uint32Scalar`. -/
theorem C12_put4 {inn : U32s} {out : Bytes} {m : Mem} (h : AnyArgs inn out m) :
    Stays (put4uint32Scalar inn out) m (fun q => inCap inn q ∨ inTables q) (inCap out) :=
  stays_of (tri_put4 (capFp'_src h) (capFp'_out h)) h.tables (fun _ h => h) (fun _ h => h)

/-- C12, `Put4uint32DeltaScalar`. -/
theorem C12_put4Delta {inn : U32s} {out : Bytes} {m : Mem} (prev : U32) (h : AnyArgs inn out m) :
    Stays (put4uint32DeltaScalar inn out prev) m (fun q => inCap inn q ∨ inTables q) (inCap out) :=
  stays_of (tri_put4Delta (capFp'_src h) (capFp'_out h)) h.tables (fun _ h => h) (fun _ h => h)

/-- C12, `Put8uint32Scalar`. -/
theorem C12_put8 {inn : U32s} {out : Bytes} {m : Mem} (h : AnyArgs inn out m) :
    Stays (put8uint32Scalar inn out) m (fun q => inCap inn q ∨ inTables q) (inCap out) :=
  stays_of (tri_put8 (capFp'_src h) (capFp'_out h)) h.tables (fun _ h => h) (fun _ h => h)

/-- C12, `Put8uint32DeltaScalar`. -/
theorem C12_put8Delta {inn : U32s} {out : Bytes} {m : Mem} (prev : U32) (h : AnyArgs inn out m) :
    Stays (put8uint32DeltaScalar inn out prev) m (fun q => inCap inn q ∨ inTables q) (inCap out) :=
  stays_of (tri_put8Delta (capFp'_src h) (capFp'_out h)) h.tables (fun _ h => h) (fun _ h => h)

/-- C12, `PutUint32Scalar`, any count. -/
theorem C12_putUint32 {inn : U32s} {out : Bytes} {m : Mem} (count : Int) (h : AnyArgs inn out m) :
    Stays (putUint32Scalar inn out count) m (fun q => inCap inn q ∨ inTables q) (inCap out) :=
  stays_of (tri_putN (capFp'_src h) (capFp'_out h)) h.tables (fun _ h => h) (fun _ h => h)

/-- C12, `PutUint32DeltaScalar`, any count. -/
theorem C12_putUint32Delta {inn : U32s} {out : Bytes} {m : Mem} (count : Int) (prev : U32)
    (h : AnyArgs inn out m) :
    Stays (putUint32DeltaScalar inn out count prev) m (fun q => inCap inn q ∨ inTables q) (inCap out) :=
  stays_of (tri_putNDelta (capFp'_src h) (capFp'_out h)) h.tables (fun _ h => h) (fun _ h => h)

/-- C12, `WriteAllScalar`: every slice is a good argument. -/
theorem C12_writeAllScalar {fresh : Block} {inn : U32s} {m : Mem} (h : WriterPre fresh inn m) :
    Stays (writeAllScalar fresh inn) m (fun q => inSlice inn q ∨ inTables q)
      (inCap (⟨fresh, 0, 0, ctrlLen inn.len + 4 * inn.len⟩ : Bytes)) := by
  have hf := (write_result .scalar h).foot
  obtain ⟨m', hr, -⟩ := (write_result .scalar h).ex
  refine ⟨fun q hq => hf _ hq, fun q hq => ?_, fun k m' hr' => ?_⟩
  · have := hf _ hq
    exact ⟨this.1, Nat.zero_le _, by simpa using this.2.2⟩
  · rw [show writeAllScalar fresh inn = Fn.scalar.write fresh inn from rfl, hr] at hr'; cases hr'

/-- C12, `WriteAllDeltaScalar`. -/
theorem C12_writeAllDeltaScalar {fresh : Block} {inn : U32s} {m : Mem} (prev : U32) (h : WriterPre fresh inn m) :
    Stays (writeAllDeltaScalar fresh inn prev) m (fun q => inSlice inn q ∨ inTables q)
      (inCap (⟨fresh, 0, 0, ctrlLen inn.len + 4 * inn.len⟩ : Bytes)) := by
  have hf := (writeDelta_result .scalar prev h).foot
  obtain ⟨m', hr, -⟩ := (writeDelta_result .scalar prev h).ex
  refine ⟨fun q hq => hf _ hq, fun q hq => ?_, fun k m' hr' => ?_⟩
  · have := hf _ hq
    exact ⟨this.1, Nat.zero_le _, by simpa using this.2.2⟩
  · rw [show writeAllDeltaScalar fresh inn prev = Fn.scalar.writeDelta fresh inn prev from rfl, hr] at hr'
    cases hr'

-- Hypotheses met by bad calls: too short, overlapping, a negative or overflowing count.
example := C12_readAllScalar (count := -9223372036854775807) (by unfold IsInt64; omega) exBad
example := C12_readAllScalar (count := 1000) (by unfold IsInt64; omega) exBad
example : (run (readAllScalar 1000 exBadStream exBadOut) exBadMem).1 = .panic .slice := by decide +kernel
example := C12_putUint32 (-3) exBadPut
example : (run (put4uint32Scalar exBadIn exBadBuf) exBadMem).1 = .panic .index := by decide +kernel
-- The scalar readers do use capacity beyond `len`: the stores of this call end at `cap`.
example : Event.wr ⟨.heap 2, 63⟩ ∈ trace (readAllScalar 16 ⟨.heap 1, 0, 20, 20⟩ ⟨.heap 2, 0, 0, 16⟩) initMem :=
  by decide +kernel

/-! ## C38: explicit panics, faults and endless loops are unreachable -/

/-- C38 for the readers, every variant, any arguments: the only way not to return is a bounds panic — never
`panic("impossible")`, `panic("unreachable")`, a wrong operand in the assembly, or a loop that does not end.
(`Panic.fault` is what the assembly model does on a non-pointer address or an undefined argument slot,
`Panic.fuel` marks a loop running longer than declared.) -/
theorem C38_read (f : Fn) {count : Int} {st : Bytes} {out : U32s} {m m' : Mem} {k : Panic}
    (hc : IsInt64 count) (h : AnyArgs st out m) (hr : run (f.read count st out) m = (.panic k, m')) :
    BoundsPanic k := by
  have hs := (C12_readAllScalar hc h).stops
  have hf := (stays_of (tri_readAllFast hc.1 hc.2 (fastFp_src h) (fastFp_srcX h) (fastFp_dst h) (fastFp_out h)
    (fastFp_outX h)) h.tables (fun _ h => h) (fun _ h => h)).stops
  cases f with
  | scalar => exact hs _ _ hr
  | fast => exact hf _ _ hr
  | auto c =>
    rcases readAll_cases c count st out with e | e <;> simp only [Fn.read, e] at hr
    · exact hf _ _ hr
    · exact hs _ _ hr

/-- C38 for the delta readers. -/
theorem C38_readDelta (f : Fn) {count : Int} {st : Bytes} {out : U32s} {m m' : Mem} {k : Panic} (prev : U32)
    (hc : IsInt64 count) (h : AnyArgs st out m)
    (hr : run (f.readDelta count st out prev) m = (.panic k, m')) : BoundsPanic k := by
  have hs := (C12_readAllDeltaScalar prev hc h).stops
  have hf := (stays_of (tri_readAllDeltaFast (prev := prev) hc.1 hc.2 (fastFp_src h) (fastFp_srcX h)
    (fastFp_dst h) (fastFp_out h) (fastFp_outX h)) h.tables (fun _ h => h) (fun _ h => h)).stops
  cases f with
  | scalar => exact hs _ _ hr
  | fast => exact hf _ _ hr
  | auto c =>
    rcases readAllDelta_cases c count st out prev with e | e <;> simp only [Fn.readDelta, e] at hr
    · exact hf _ _ hr
    · exact hs _ _ hr

/-- C38 for the decoders of eight numbers: `Get8uint32Fast` cannot panic at all. -/
theorem C38_get8Fast {inn : Bytes} {out : U32s} {m : Mem} (ctrl : U16) (h : AnyArgs inn out m) :
    ∃ m', run (get8uint32Fast inn out ctrl) m = (.ok (), m') := by
  have hc4 : psum (fun k => code16 ctrl k + 1) 0 = 0 := rfl
  obtain ⟨a, m', hr, -⟩ := run_of_wp (get8Fast_spec (fun k => code16 ctrl k + 1) (fun _ => 0) 0 inn.off 0 inn out
    ctrl m h.tables (fun k _ => by simp only [Nat.zero_add]) (by rw [hc4, Nat.add_zero])
    (fun t _ _ hlim => by rw [psum_succ] at hlim; omega)) (fun _ _ h => h)
  exact ⟨m', hr⟩

/-- C38: `Get8uint32DeltaFast` cannot panic at all. -/
theorem C38_get8DeltaFast {inn : Bytes} {out : U32s} {m : Mem} (ctrl : U16) (prev : U32)
    (h : AnyArgs inn out m) : ∃ m', run (get8uint32DeltaFast inn out ctrl prev) m = (.ok (), m') := by
  have hc4 : psum (fun k => code16 ctrl k + 1) 0 = 0 := rfl
  obtain ⟨a, m', hr, -⟩ := run_of_wp (get8DeltaFast_spec (fun k => code16 ctrl k + 1) (fun _ => 0)
    (fun _ => prev) 0 inn.off 0 inn out ctrl prev m h.tables (fun k _ => by simp only [Nat.zero_add])
    (by rw [hc4, Nat.add_zero]) (fun t _ _ hlim => by rw [psum_succ] at hlim; omega) (fun _ => by simp)
    (fun _ _ => by simp)) (fun _ _ h => h)
  exact ⟨m', hr⟩

/-- C38: `Put8uint32Fast` cannot panic at all. -/
theorem C38_put8Fast {inn : U32s} {out : Bytes} {m : Mem} (h : AnyArgs inn out m) :
    ∃ c m', run (put8uint32Fast inn out) m = (.ok c, m') := by
  obtain ⟨a, m', hr, -⟩ := run_of_wp (put8Fast_spec (fun k => wordAt m inn.blk (inn.off + 4 * k)) 0 out.off inn
    out m h.tables rfl (fun k _ => by simp only [Nat.zero_add])) (fun _ _ h => h)
  exact ⟨a, m', hr⟩

/-- C38: `Put8uint32DeltaFast` cannot panic at all. -/
theorem C38_put8DeltaFast {inn : U32s} {out : Bytes} {m : Mem} (prev : U32) (h : AnyArgs inn out m) :
    ∃ c m', run (put8uint32DeltaFast inn out prev) m = (.ok c, m') := by
  obtain ⟨a, m', hr, -⟩ := run_of_wp (put8DeltaFast_spec
    (fun k => wordAt m inn.blk (inn.off + 4 * k) -
      if k = 0 then prev else wordAt m inn.blk (inn.off + 4 * (k - 1)))
    (fun k => wordAt m inn.blk (inn.off + 4 * k)) 0 out.off inn out prev m
    h.tables rfl (fun k _ => by simp only [Nat.zero_add]) rfl (fun k _ => by simp)) (fun _ _ h => h)
  exact ⟨a, m', hr⟩

/-- C38 for the dispatching decoders of eight numbers. -/
theorem C38_get8 (f : Fn) {inn : Bytes} {out : U32s} {m m' : Mem} {k : Panic} (ctrl : U16)
    (h : AnyArgs inn out m) (hr : run (f.get8 inn out ctrl) m = (.panic k, m')) : BoundsPanic k := by
  have hs := (C12_get8 ctrl h).stops
  obtain ⟨m1, hf⟩ := C38_get8Fast ctrl h
  cases f with
  | scalar => exact hs _ _ hr
  | fast => rw [Fn.get8, hf] at hr; cases hr
  | auto c =>
    rcases get8uint32_cases c inn out ctrl with e | e <;> simp only [Fn.get8, e] at hr
    · rw [hf] at hr; cases hr
    · exact hs _ _ hr

theorem C38_get8Delta (f : Fn) {inn : Bytes} {out : U32s} {m m' : Mem} {k : Panic} (ctrl : U16) (prev : U32)
    (h : AnyArgs inn out m) (hr : run (f.get8Delta inn out ctrl prev) m = (.panic k, m')) :
    BoundsPanic k := by
  have hs := (C12_get8Delta ctrl prev h).stops
  obtain ⟨m1, hf⟩ := C38_get8DeltaFast ctrl prev h
  cases f with
  | scalar => exact hs _ _ hr
  | fast => rw [Fn.get8Delta, hf] at hr; cases hr
  | auto c =>
    rcases get8uint32Delta_cases c inn out ctrl prev with e | e <;> simp only [Fn.get8Delta, e] at hr
    · rw [hf] at hr; cases hr
    · exact hs _ _ hr

/-- C38 for the dispatching encoders of eight numbers. -/
theorem C38_put8 (f : Fn) {inn : U32s} {out : Bytes} {m m' : Mem} {k : Panic}
    (h : AnyArgs inn out m) (hr : run (f.put8 inn out) m = (.panic k, m')) : BoundsPanic k := by
  have hs := (C12_put8 h).stops
  obtain ⟨c1, m1, hf⟩ := C38_put8Fast h
  cases f with
  | scalar => exact hs _ _ hr
  | fast => rw [Fn.put8, hf] at hr; cases hr
  | auto c =>
    rcases put8uint32_cases c inn out with e | e <;> simp only [Fn.put8, e] at hr
    · rw [hf] at hr; cases hr
    · exact hs _ _ hr

theorem C38_put8Delta (f : Fn) {inn : U32s} {out : Bytes} {m m' : Mem} {k : Panic} (prev : U32)
    (h : AnyArgs inn out m) (hr : run (f.put8Delta inn out prev) m = (.panic k, m')) : BoundsPanic k := by
  have hs := (C12_put8Delta prev h).stops
  obtain ⟨c1, m1, hf⟩ := C38_put8DeltaFast prev h
  cases f with
  | scalar => exact hs _ _ hr
  | fast => rw [Fn.put8Delta, hf] at hr; cases hr
  | auto c =>
    rcases put8uint32Delta_cases c inn out prev with e | e <;> simp only [Fn.put8Delta, e] at hr
    · rw [hf] at hr; cases hr
    · exact hs _ _ hr

/-- C38: the writers do not stop abnormally at all, for any slice. -/
theorem C38_write (f : Fn) {fresh : Block} {inn : U32s} {m : Mem} (prev : U32) (h : WriterPre fresh inn m) :
    (∃ r m', run (f.write fresh inn) m = (.ok r, m')) ∧
    (∃ r m', run (f.writeDelta fresh inn prev) m = (.ok r, m')) := by
  obtain ⟨m1, h1, -⟩ := (write_result f h).ex
  obtain ⟨m2, h2, -⟩ := (writeDelta_result f prev h).ex
  exact ⟨⟨_, m1, h1⟩, ⟨_, m2, h2⟩⟩

example {k : Panic} {m' : Mem} :=
  C38_read .fast (count := 9223372036854775807) (k := k) (m' := m') (by unfold IsInt64; omega) exBad
example : (run (readAllFast 9223372036854775807 exBadStream exBadOut) exBadMem).1 = .panic .slice := by
  decide +kernel
example : (run (readAllFast 40 exBadStream exBadOut) exBadMem).1 = .panic .slice := by decide +kernel
-- `panic("impossible")` is there: `decodeOne` reaches it for a size that is not 1…4.
example : (run (decodeOne exBadStream 5) exBadMem).1 = .panic (.explicit "impossible") := by decide +kernel
-- and the assembly model does fault when an argument is missing.
example : ∃ m, run (exec [] get8uint32FastText St.init) initMem = (.panic .fault, m) := ⟨_, rfl⟩

/-! ## C40: undersized output slices -/

/-- C40, scalar part: with `len(out) = cap(out) < count` the reader panics (with a bounds panic) and stores
nothing outside `out`. -/
theorem C40_readAllScalar {count : Int} {st : Bytes} {out : U32s} {m : Mem} (hc : IsInt64 count)
    (h : AnyArgs st out m) (hl : out.len = out.cap) (hn : out.len < count) :
    (∃ k m', run (readAllScalar count st out) m = (.panic k, m') ∧ BoundsPanic k) ∧
      ∀ q, Event.wr q ∈ trace (readAllScalar count st out) m → inSlice out q := by
  have hst := C12_readAllScalar hc h
  refine ⟨?_, fun q hq => ?_⟩
  · rcases hr : run (readAllScalar count st out) m with ⟨(_ | k), m'⟩
    · have := result_of (tri_readAllScalar_room (by omega) hc.2 (capFp'_src h) (capFp'_out h)) h.tables hr
      omega
    · exact ⟨k, m', rfl, hst.stops _ _ hr⟩
  · have := hst.stores q hq
    rw [inCap, ← hl] at this; exact this

/-- C40, scalar part, delta reader. -/
theorem C40_readAllDeltaScalar {count : Int} {st : Bytes} {out : U32s} {m : Mem} (prev : U32)
    (hc : IsInt64 count) (h : AnyArgs st out m) (hl : out.len = out.cap) (hn : out.len < count) :
    (∃ k m', run (readAllDeltaScalar count st out prev) m = (.panic k, m') ∧ BoundsPanic k) ∧
      ∀ q, Event.wr q ∈ trace (readAllDeltaScalar count st out prev) m → inSlice out q := by
  have hst := C12_readAllDeltaScalar prev hc h
  refine ⟨?_, fun q hq => ?_⟩
  · rcases hr : run (readAllDeltaScalar count st out prev) m with ⟨(_ | k), m'⟩
    · have := result_of (tri_readAllDeltaScalar_room (by omega) hc.2 (capFp_src h) (capFp_out h) (capFp_dst h))
        h.tables hr
      omega
    · exact ⟨k, m', rfl, hst.stops _ _ hr⟩
  · have := hst.stores q hq
    rw [inCap, ← hl] at this; exact this

/-- C40 with spare capacity: the scalar readers return only if `count ≤ cap(out)`, and unless `count` is a
multiple of 16 only if `count ≤ len(out)`. -/
theorem C40_scalar_return {count : Int} {st : Bytes} {out : U32s} {m m' : Mem} (prev : U32)
    (hc : IsInt64 count) (h0 : 0 ≤ count) (h : AnyArgs st out m)
    (hr : run (readAllScalar count st out) m = (.ok (), m') ∨
      run (readAllDeltaScalar count st out prev) m = (.ok (), m')) :
    count ≤ out.cap ∧ (count % 16 ≠ 0 → count ≤ out.len) := by
  rcases hr with hr | hr
  · exact result_of (tri_readAllScalar_room h0 hc.2 (capFp'_src h) (capFp'_out h)) h.tables hr
  · exact result_of (tri_readAllDeltaScalar_room h0 hc.2 (capFp_src h) (capFp_out h) (capFp_dst h)) h.tables hr

-- A call with too little room.
example := C40_readAllScalar (count := 3) (by unfold IsInt64; omega)
  (st := exBadStream) (out := ⟨.heap 1, 0, 2, 2⟩) (m := exBadMem)
  ⟨memWith_tables _ _, by decide, by decide, rfl⟩ rfl (by decide)

/-- C40 is false of the fast readers: 17 numbers announced, `out` empty (`len = cap = 0`); bytes outside
`out` are overwritten before the panic. -/
theorem C40_false_readAllFast :
    ∃ (count : Int) (st : Bytes) (out : U32s) (m : Mem), AnyArgs st out m ∧ Disjoint st out ∧
      out.len = out.cap ∧ out.len < count ∧
      ∃ q, Event.wr q ∈ trace (readAllFast count st out) m ∧ ¬ inSlice out q ∧
        (run (readAllFast count st out) m).2 q ≠ m q := by
  refine ⟨17, ⟨.heap 1, 0, 22, 22⟩, ⟨.heap 2, 0, 0, 0⟩,
    memWith [] (0 :: 0 :: 0 :: 0 :: 0 :: List.replicate 17 7), ⟨memWith_tables _ _, by decide, by decide, rfl⟩,
    .inl (by decide), rfl, by decide, ⟨.heap 2, 28⟩, by decide +kernel, ?_, by decide +kernel⟩
  rintro ⟨-, -, h⟩
  revert h; decide

/-- C40 is false of the fast delta reader, same call. -/
theorem C40_false_readAllDeltaFast :
    ∃ (count : Int) (st : Bytes) (out : U32s) (prev : U32) (m : Mem), AnyArgs st out m ∧ Disjoint st out ∧
      out.len = out.cap ∧ out.len < count ∧
      ∃ q, Event.wr q ∈ trace (readAllDeltaFast count st out prev) m ∧ ¬ inSlice out q ∧
        (run (readAllDeltaFast count st out prev) m).2 q ≠ m q := by
  refine ⟨17, ⟨.heap 1, 0, 22, 22⟩, ⟨.heap 2, 0, 0, 0⟩, 0,
    memWith [] (0 :: 0 :: 0 :: 0 :: 0 :: List.replicate 17 7), ⟨memWith_tables _ _, by decide, by decide, rfl⟩,
    .inl (by decide), rfl, by decide, ⟨.heap 2, 28⟩, by decide +kernel, ?_, by decide +kernel⟩
  rintro ⟨-, -, h⟩
  revert h; decide

/-- C40, what remains true of `ReadAllFast`: too little room always ends in a bounds panic, and the stores
reach at most 32 bytes past `out[len(out)]`.  (`_partial`: the full statement allows no store outside
`out`.) -/
theorem C40_readAllFast_partial {count : Int} {st : Bytes} {out : U32s} {m : Mem} (hc : IsInt64 count)
    (h : AnyArgs st out m) (hl : out.len = out.cap) (hn : out.len < count) :
    (∃ k m', run (readAllFast count st out) m = (.panic k, m') ∧ BoundsPanic k) ∧
      ∀ q, Event.wr q ∈ trace (readAllFast count st out) m → within out 32 q := by
  have hst := stays_of (tri_readAllFast hc.1 hc.2 (fastFp_src h) (fastFp_srcX h) (fastFp_dst h) (fastFp_out h)
    (fastFp_outX h)) h.tables (fun _ h => h) (fun _ h => h)
  refine ⟨?_, fun q hq => ?_⟩
  · rcases hr : run (readAllFast count st out) m with ⟨(_ | k), m'⟩
    · by_cases hb : count < 2 ^ 63 - 3
      · have := result_of (tri_readAllFast_room (by omega) hb (fastFp_src h) (fastFp_srcX h) (fastFp_dst h)
          (fastFp_out h) (fastFp_outX h)) h.tables hr
        omega
      · rw [C31_overflow_readAllFast (by omega) hc.2] at hr; cases hr
    · exact ⟨k, m', rfl, hst.stops _ _ hr⟩
  · rcases hst.stores q hq with h' | h'
    · exact ⟨h'.1, h'.2.1, by have := h'.2.2; omega⟩
    · exact h'

/-- C40, the same for `ReadAllDeltaFast`. -/
theorem C40_readAllDeltaFast_partial {count : Int} {st : Bytes} {out : U32s} {m : Mem} (prev : U32)
    (hc : IsInt64 count) (h : AnyArgs st out m) (hl : out.len = out.cap) (hn : out.len < count) :
    (∃ k m', run (readAllDeltaFast count st out prev) m = (.panic k, m') ∧ BoundsPanic k) ∧
      ∀ q, Event.wr q ∈ trace (readAllDeltaFast count st out prev) m → within out 32 q := by
  have hst := stays_of (tri_readAllDeltaFast (prev := prev) hc.1 hc.2 (fastFp_src h) (fastFp_srcX h)
    (fastFp_dst h) (fastFp_out h) (fastFp_outX h)) h.tables (fun _ h => h) (fun _ h => h)
  refine ⟨?_, fun q hq => ?_⟩
  · rcases hr : run (readAllDeltaFast count st out prev) m with ⟨(_ | k), m'⟩
    · by_cases hb : count < 2 ^ 63 - 3
      · have := result_of (tri_readAllDeltaFast_room (by omega) hb (fastFp_src h) (fastFp_srcX h) (fastFp_dst h)
          (fastFp_out h) (fastFp_outX h)) h.tables hr
        omega
      · rw [C31_overflow_readAllDeltaFast prev (by omega) hc.2] at hr; cases hr
    · exact ⟨k, m', rfl, hst.stops _ _ hr⟩
  · rcases hst.stores q hq with h' | h'
    · exact ⟨h'.1, h'.2.1, by have := h'.2.2; omega⟩
    · exact h'

/-- C40, any arguments of the fast readers (also `len < cap`, negative counts, overlapping
slices): loads end 32 bytes after the stream (or at its capacity) and stores 32 bytes after `out` (or at its
capacity). -/
theorem C40_fast_footprint {count : Int} {st : Bytes} {out : U32s} {m : Mem} (prev : U32)
    (hc : IsInt64 count) (h : AnyArgs st out m) :
    Stays (readAllFast count st out) m
      (fun q => inCap st q ∨ within st 32 q ∨ inCap out q ∨ inTables q)
      (fun q => inCap out q ∨ within out 32 q) ∧
    Stays (readAllDeltaFast count st out prev) m
      (fun q => inCap st q ∨ within st 32 q ∨ inCap out q ∨ inTables q)
      (fun q => inCap out q ∨ within out 32 q) :=
  ⟨stays_of (tri_readAllFast hc.1 hc.2 (fastFp_src h) (fastFp_srcX h) (fastFp_dst h) (fastFp_out h)
      (fastFp_outX h)) h.tables (fun _ h => h) (fun _ h => h),
    stays_of (tri_readAllDeltaFast hc.1 hc.2 (fastFp_src h) (fastFp_srcX h) (fastFp_dst h) (fastFp_out h)
      (fastFp_outX h)) h.tables (fun _ h => h) (fun _ h => h)⟩

end SVB.Props
