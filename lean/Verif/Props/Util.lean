import Verif.Proofs.VarintStream
import Verif.Proofs.SpecFacts

/-! # Package `util`: C32–C35 -/

set_option autoImplicit false

namespace SVB.Props
open Spec

/-! ## C32: varint round trip -/

/-- Bytes that the varints of `xs` take. -/
def varintSize (xs : List U32) : Nat := (varintsOf xs).length

example : varintsOf [5, 300, 0xFFFFFFFF] = [5, 0xAC, 2, 0xFF, 0xFF, 0xFF, 0xFF, 0x0F] := by decide +kernel

private theorem put_result {p : Prog Int} {nums : U32s} {out : Bytes} {m : Mem} {ys : List U32}
    (hy : ys.length = nums.len)
    (h : wp (vctx nums out ys) p m (fun r m' => VI out ys m nums.len r m')) :
    (varintSize ys ≤ out.len → ∃ m', run p m = (.ok (varintSize ys), m') ∧
      bytesOf m' ⟨out.blk, out.off, varintSize ys, out.cap⟩ = varintsOf ys ∧
      ∀ q, ¬ inPrefix out (varintSize ys) q → m' q = m q) ∧
    (out.len < varintSize ys → ∃ m', run p m = (.panic .index, m') ∧ ∀ q, ¬ inSlice out q → m' q = m q) := by
  obtain ⟨h1, h2, h3⟩ := run_of_wp' h
  have ht : ys.take nums.len = ys := by rw [← hy, List.take_length]
  rcases h1 with ⟨r, m', hr, hI⟩ | ⟨k, m', hr, rfl, hk⟩
  · have hroom := hI.room
    have hp := hI.hpos
    have hb := hI.bytes
    have hf := hI.frame
    rw [ht] at hroom hp hb hf
    refine ⟨fun _ => ⟨m', by rw [hr, hp]; rfl, hb, fun q hq => hf q fun h => hq ?_⟩, fun h => ?_⟩
    · exact ⟨h.1, h.2.1, by have := h.2.2; rw [varintSize]; omega⟩
    · rw [varintSize] at h; omega
  · refine ⟨fun h => ?_, fun _ => ⟨m', hr, fun q hq => ?_⟩⟩
    · rw [varintSize] at h; omega
    · have := h2 q fun h => hq ⟨h.1, h.2.1, by have := h.2.2; omega⟩
      rw [hr] at this; exact this

/-- C32: `PutVarint` writes the varints of the numbers and returns their size if there is room, and panics
otherwise. -/
theorem C32_putVarint {nums : U32s} {out : Bytes} {m : Mem} (hd : Disjoint nums out) (ho : out.len < 2 ^ 62) :
    (varintSize (wordsOf m nums) ≤ out.len →
      ∃ m', run (putVarint nums out) m = (.ok (varintSize (wordsOf m nums)), m') ∧
        bytesOf m' ⟨out.blk, out.off, varintSize (wordsOf m nums), out.cap⟩ = varintsOf (wordsOf m nums) ∧
        ∀ q, ¬ inPrefix out (varintSize (wordsOf m nums)) q → m' q = m q) ∧
    (out.len < varintSize (wordsOf m nums) →
      ∃ m', run (putVarint nums out) m = (.panic .index, m') ∧ ∀ q, ¬ inSlice out q → m' q = m q) :=
  put_result (wordsOf_length m nums) (putVarint_spec hd ho)

/-- C32: the same for `PutDeltaVarint`. -/
theorem C32_putDeltaVarint {nums : U32s} {out : Bytes} {m : Mem} (prev : U32) (hd : Disjoint nums out)
    (ho : out.len < 2 ^ 62) :
    (varintSize (delta prev (wordsOf m nums)) ≤ out.len →
      ∃ m', run (putDeltaVarint nums out prev) m = (.ok (varintSize (delta prev (wordsOf m nums))), m') ∧
        bytesOf m' ⟨out.blk, out.off, varintSize (delta prev (wordsOf m nums)), out.cap⟩ =
          varintsOf (delta prev (wordsOf m nums)) ∧
        ∀ q, ¬ inPrefix out (varintSize (delta prev (wordsOf m nums))) q → m' q = m q) ∧
    (out.len < varintSize (delta prev (wordsOf m nums)) →
      ∃ m', run (putDeltaVarint nums out prev) m = (.panic .index, m') ∧ ∀ q, ¬ inSlice out q → m' q = m q) :=
  put_result (by rw [delta_length, wordsOf_length]) (putDeltaVarint_spec prev hd ho)

/-- Five bytes per number (`binary.MaxVarintLen32`, what the tests allocate) are enough room. -/
theorem C32_room (xs : List U32) : xs.length ≤ varintSize xs ∧ varintSize xs ≤ 5 * xs.length := by
  unfold varintSize
  induction xs with
  | nil => simp [varintsOf]
  | cons x xs ih =>
    have e : varintsOf (x :: xs) = varint x.toNat ++ varintsOf xs := rfl
    have h1 := varint_length_pos x.toNat
    have h2 := varint_length_le (k := 4) (n := x.toNat) (by have := x.isLt; omega)
    rw [e, List.length_append, List.length_cons]
    omega

private theorem ofNat_toNat (xs : List U32) : (xs.map BitVec.toNat).map (BitVec.ofNat 32) = xs := by
  rw [List.map_map]
  conv => rhs; rw [← List.map_id xs]
  refine List.map_congr_left fun x _ => ?_
  simp

/-- C32: `GetVarint` of a string of varints returns its length and writes the numbers. -/
theorem C32_getVarint {data : Bytes} {out : U32s} {m : Mem} {xs : List U32} (hd : Disjoint data out)
    (hlen : data.len < 2 ^ 62) (hx : bytesOf m data = varintsOf xs) (hroom : xs.length ≤ out.len) :
    ∃ m', run (getVarint data out) m = (.ok data.len, m') ∧ wordsN m' out xs.length = xs ∧
      ∀ q, ¬ inFirst out xs.length q → m' q = m q := by
  have hp := parseVarints_varintsOf xs
  rw [← hx] at hp
  obtain ⟨h1, -, -⟩ := run_of_wp' (getVarint_spec (m := m) hd hlen)
  rcases h1 with ⟨r, m', hr, rfl, ys, hy, h3, h4, h5⟩ | ⟨k, m', hr, -, hk⟩
  · rw [hp] at hy; cases hy
    rw [ofNat_toNat, List.length_map] at h4
    rw [List.length_map] at h5
    exact ⟨m', hr, h4, h5⟩
  · have := hk _ hp
    rw [List.length_map] at this
    omega

/-- C32: `GetDeltaVarint` of the varints of differences. -/
theorem C32_getDeltaVarint {data : Bytes} {out : U32s} {m : Mem} {ds : List U32} (prev : U32)
    (hd : Disjoint data out) (hlen : data.len < 2 ^ 62) (hx : bytesOf m data = varintsOf ds)
    (hroom : ds.length ≤ out.len) :
    ∃ m', run (getDeltaVarint data out prev) m = (.ok data.len, m') ∧
      wordsN m' out ds.length = undelta prev ds ∧ ∀ q, ¬ inFirst out ds.length q → m' q = m q := by
  have hp := parseVarints_varintsOf ds
  rw [← hx] at hp
  obtain ⟨h1, -, -⟩ := run_of_wp' (getDeltaVarint_spec (m := m) prev hd hlen)
  rcases h1 with ⟨r, m', hr, rfl, ys, hy, h3, h4, h5⟩ | ⟨k, m', hr, -, hk⟩
  · rw [hp] at hy; cases hy
    rw [ofNat_toNat, List.length_map] at h4
    rw [List.length_map] at h5
    exact ⟨m', hr, h4, h5⟩
  · have := hk _ hp
    rw [List.length_map] at this
    omega

/-- A prefix of a slice overlaps nothing that the slice does not overlap. -/
private theorem disj_prefix {s : Bytes} {t : U32s} {n : Nat} (h : Disjoint s t) (hn : n ≤ s.len) :
    Disjoint (⟨s.blk, s.off, n, s.cap⟩ : Bytes) t := by
  rcases h with h | h | h
  · exact .inl h
  · exact .inr (.inl (by simp only; omega))
  · exact .inr (.inr h)

/-- C32: the round trip, `GetVarint(buf[:PutVarint(nums, buf)], out)`. -/
theorem C32_roundtrip {nums out : U32s} {buf : Bytes} {m : Mem} (hd : Disjoint nums buf)
    (hd' : Disjoint buf out) (hb : buf.len < 2 ^ 62) (hroom : varintSize (wordsOf m nums) ≤ buf.len)
    (ho : nums.len ≤ out.len) :
    ∃ n m₁ m₂, run (putVarint nums buf) m = (.ok (n : Nat), m₁) ∧
      run (getVarint ⟨buf.blk, buf.off, n, buf.cap⟩ out) m₁ = (.ok n, m₂) ∧
      wordsN m₂ out nums.len = wordsOf m nums := by
  obtain ⟨m₁, h1, h2, -⟩ := (C32_putVarint hd hb).1 hroom
  obtain ⟨m₂, h3, h4, -⟩ := C32_getVarint (m := m₁) (out := out) (xs := wordsOf m nums)
    (data := ⟨buf.blk, buf.off, varintSize (wordsOf m nums), buf.cap⟩) (disj_prefix hd' hroom)
    (by simp only; omega) h2 (by rw [wordsOf_length]; exact ho)
  rw [wordsOf_length] at h4
  exact ⟨_, m₁, m₂, h1, h3, h4⟩

/-- C32: the round trip of the delta functions, any base, sorted or not. -/
theorem C32_roundtrip_delta {nums out : U32s} {buf : Bytes} {m : Mem} (prev : U32) (hd : Disjoint nums buf)
    (hd' : Disjoint buf out) (hb : buf.len < 2 ^ 62)
    (hroom : varintSize (delta prev (wordsOf m nums)) ≤ buf.len) (ho : nums.len ≤ out.len) :
    ∃ n m₁ m₂, run (putDeltaVarint nums buf prev) m = (.ok (n : Nat), m₁) ∧
      run (getDeltaVarint ⟨buf.blk, buf.off, n, buf.cap⟩ out prev) m₁ = (.ok n, m₂) ∧
      wordsN m₂ out nums.len = wordsOf m nums := by
  obtain ⟨m₁, h1, h2, -⟩ := (C32_putDeltaVarint prev hd hb).1 hroom
  obtain ⟨m₂, h3, h4, -⟩ := C32_getDeltaVarint (m := m₁) (out := out) (ds := delta prev (wordsOf m nums))
    (data := ⟨buf.blk, buf.off, varintSize (delta prev (wordsOf m nums)), buf.cap⟩) prev (disj_prefix hd' hroom) (by simp only; omega) h2 (by rw [delta_length, wordsOf_length]; exact ho)
  rw [delta_length, wordsOf_length, undelta_delta] at h4
  exact ⟨_, m₁, m₂, h1, h3, h4⟩

/-- Concrete call: three numbers, not sorted. -/
def exVNums : U32s := ⟨.heap 0, 0, 3, 3⟩
def exVBuf : Bytes := ⟨.heap 2, 0, 15, 15⟩
def exVMem : Mem := memWith [5, 300, 7] []

example : wordsOf exVMem exVNums = [5, 300, 7] := by decide +kernel
example := C32_roundtrip (nums := exVNums) (buf := exVBuf) (out := ⟨.heap 3, 0, 3, 3⟩) (m := exVMem)
  (.inl (by decide)) (.inl (by decide)) (by decide) (by decide +kernel) (by decide)
example := C32_roundtrip_delta (nums := exVNums) (buf := exVBuf) (out := ⟨.heap 3, 0, 3, 3⟩) (m := exVMem) 2
  (.inl (by decide)) (.inl (by decide)) (by decide) (by decide +kernel) (by decide)
-- room for two of the three numbers: the second half of `C32_putVarint`
example : (run (putVarint exVNums ⟨.heap 2, 0, 3, 3⟩) exVMem).1 = .panic .index := by decide +kernel

/-! ## C33: decoding arbitrary bytes -/

/-- C33: on every byte string and every `out` (even overlapping it) the loop of `GetVarint` ends after at most
`len(out) + 1` iterations (the model's `.fuel` panic is not reached): the function returns or stops with a
bounds panic.  It loads only from `data` and stores only to `out`. -/
theorem C33_getVarint (data : Bytes) (out : U32s) (m : Mem) :
    (∀ k m', run (getVarint data out) m = (.panic k, m') → BoundsPanic k) ∧
    (∀ q, Event.rd q ∈ trace (getVarint data out) m → inSlice data q) ∧
    ∀ q, Event.wr q ∈ trace (getVarint data out) m → inSlice out q := by
  have h := (wp_iff _ _ _ _).1 (getVarint_total data out m)
  refine ⟨fun k m' hr => ?_, fun q hq => h.1 _ hq, fun q hq => h.1 _ hq⟩
  have := h.2
  rw [hr] at this
  exact this

theorem C33_getDeltaVarint (data : Bytes) (out : U32s) (prev : U32) (m : Mem) :
    (∀ k m', run (getDeltaVarint data out prev) m = (.panic k, m') → BoundsPanic k) ∧
    (∀ q, Event.rd q ∈ trace (getDeltaVarint data out prev) m → inSlice data q) ∧
    ∀ q, Event.wr q ∈ trace (getDeltaVarint data out prev) m → inSlice out q := by
  have h := (wp_iff _ _ _ _).1 (getDeltaVarint_total data out prev m)
  refine ⟨fun k m' hr => ?_, fun q hq => h.1 _ hq, fun q hq => h.1 _ hq⟩
  have := h.2
  rw [hr] at this
  exact this

/-- C33, when it returns: `GetVarint` returns if and only if the whole of `data` is a sequence of varints, none
longer than ten bytes or above 2^64 - 1, and `out` has room for them; it then returns `len(data)` and has
written the low 32 bits of the numbers.  Otherwise (truncated or overlong varints included, for which the
position stays or even moves back) it panics. -/
theorem C33_getVarint_result {data : Bytes} {out : U32s} {m : Mem} (hd : Disjoint data out)
    (hlen : data.len < 2 ^ 62) :
    (∀ xs, parseVarints (bytesOf m data) = some xs → xs.length ≤ out.len →
      ∃ m', run (getVarint data out) m = (.ok data.len, m') ∧
        wordsN m' out xs.length = xs.map (BitVec.ofNat 32) ∧ ∀ q, ¬ inFirst out xs.length q → m' q = m q) ∧
    ((∀ xs, parseVarints (bytesOf m data) = some xs → out.len < xs.length) →
      ∃ k m', run (getVarint data out) m = (.panic k, m') ∧ BoundsPanic k) := by
  obtain ⟨h1, -, -⟩ := run_of_wp' (getVarint_spec (m := m) hd hlen)
  rcases h1 with ⟨r, m', hr, rfl, ys, hy, h3, h4, h5⟩ | ⟨k, m', hr, hB, hk⟩
  · refine ⟨fun xs hx _ => ?_, fun h => ?_⟩
    · rw [hx] at hy; cases hy
      exact ⟨m', hr, h4, h5⟩
    · have := h _ hy; omega
  · exact ⟨fun xs hx hl => by have := hk xs hx; omega, fun _ => ⟨k, m', hr, hB⟩⟩

theorem C33_getDeltaVarint_result {data : Bytes} {out : U32s} {m : Mem} (prev : U32) (hd : Disjoint data out)
    (hlen : data.len < 2 ^ 62) :
    (∀ xs, parseVarints (bytesOf m data) = some xs → xs.length ≤ out.len →
      ∃ m', run (getDeltaVarint data out prev) m = (.ok data.len, m') ∧
        wordsN m' out xs.length = undelta prev (xs.map (BitVec.ofNat 32)) ∧
        ∀ q, ¬ inFirst out xs.length q → m' q = m q) ∧
    ((∀ xs, parseVarints (bytesOf m data) = some xs → out.len < xs.length) →
      ∃ k m', run (getDeltaVarint data out prev) m = (.panic k, m') ∧ BoundsPanic k) := by
  obtain ⟨h1, -, -⟩ := run_of_wp' (getDeltaVarint_spec (m := m) prev hd hlen)
  rcases h1 with ⟨r, m', hr, rfl, ys, hy, h3, h4, h5⟩ | ⟨k, m', hr, hB, hk⟩
  · refine ⟨fun xs hx _ => ?_, fun h => ?_⟩
    · rw [hx] at hy; cases hy
      exact ⟨m', hr, h4, h5⟩
    · have := h _ hy; omega
  · exact ⟨fun xs hx hl => by have := hk xs hx; omega, fun _ => ⟨k, m', hr, hB⟩⟩

-- A truncated varint: the position stays at 1, every number of `out` from the second on is overwritten with
-- zero, and the call ends in an index panic.
example : (run (getVarint ⟨.heap 1, 0, 2, 2⟩ ⟨.heap 0, 0, 3, 3⟩) (memWith [7, 8, 9] [5, 0x80])).1 =
    .panic .index := by decide +kernel
example : wordsOf (run (getVarint ⟨.heap 1, 0, 2, 2⟩ ⟨.heap 0, 0, 3, 3⟩) (memWith [7, 8, 9] [5, 0x80])).2
    ⟨.heap 0, 0, 3, 3⟩ = [5, 0, 0] := by decide +kernel
-- An overlong one: the position becomes negative.
example : (run (getVarint ⟨.heap 1, 0, 11, 11⟩ ⟨.heap 0, 0, 3, 3⟩)
    (memWith [7, 8, 9] (List.replicate 11 0x80))).1 = .panic .slice := by decide +kernel
-- Zero groups at the end are accepted.
example : parseVarints [0x80, 0x00, 0x05] = some [0, 5] := by
  rw [parseVarints_some (g := [0x80, 0x00]) rfl (by decide),
    parseVarints_some (g := [0x05]) rfl (by decide)]
  rw [show List.drop [(0x05 : Byte)].length (List.drop [(0x80 : Byte), 0x00].length [0x80, 0x00, 0x05]) = ([] : List Byte) from rfl, parseVarints_nil]
  rfl

/-! ## C34: `Delta` -/

/-- C34: `Delta` writes the differences; it panics if `out` is shorter than `in`. -/
theorem C34_delta {inn out : U32s} {m : Mem} (hd : Disjoint inn out) :
    (inn.len ≤ out.len → ∃ m', run (utilDelta inn out) m = (.ok (), m') ∧
      wordsN m' out inn.len = delta 0 (wordsOf m inn) ∧ ∀ q, ¬ inFirst out inn.len q → m' q = m q) ∧
    (out.len < inn.len → ∃ m', run (utilDelta inn out) m = (.panic .index, m')) := by
  obtain ⟨h1, -, -⟩ := run_of_wp' (utilDelta_spec (m := m) hd)
  rcases h1 with ⟨⟨⟩, m', hr, h2, h3, h4⟩ | ⟨k, m', hr, rfl, hk⟩
  · exact ⟨fun _ => ⟨m', hr, h3, h4⟩, fun h => by omega⟩
  · exact ⟨fun h => by omega, fun _ => ⟨m', hr⟩⟩

/-- C34: encoding the result of `Delta` is the same as delta-encoding with base 0, for all writers. -/
theorem C34_write (f g : Fn) {inn tmp : U32s} {fresh fresh' : Block} {m : Mem} (hd : Disjoint inn tmp)
    (hl : tmp.len = inn.len) (hw : WriterPre fresh inn m) (hv : Valid tmp) (hn : fresh' ≠ tmp.blk)
    (hc : fresh'.isConst = false) :
    ∃ m₁ m₂ m₃ r₂ r₃, run (utilDelta inn tmp) m = (.ok (), m₁) ∧
      run (f.write fresh' tmp) m₁ = (.ok r₂, m₂) ∧ run (g.writeDelta fresh inn 0) m = (.ok r₃, m₃) ∧
      bytesOf m₂ r₂ = bytesOf m₃ r₃ := by
  obtain ⟨m₁, h1, h2, h3⟩ := (C34_delta (m := m) hd).1 (by omega)
  have hp : WriterPre fresh' tmp m₁ :=
    ⟨hw.tables.frame fun q hq => h3 q fun h => (by rw [h.1, hv.heap] at hq; exact absurd hq (by decide)), hv, hc, hn⟩
  obtain ⟨m₂, h4, h5, -⟩ := (write_result f hp).ex
  obtain ⟨m₃, h6, h7, -⟩ := (writeDelta_result g 0 hw).ex
  refine ⟨m₁, m₂, m₃, _, _, h1, h4, h6, ?_⟩
  rw [h5, h7, wordsOf, hl, h2]

-- The hypotheses can be met, and non-overlap is needed: in place the second difference is wrong.
example : Disjoint exVNums (⟨.heap 5, 0, 3, 3⟩ : U32s) := .inl (by decide)
example : wordsOf (run (utilDelta exVNums ⟨.heap 5, 0, 3, 3⟩) exVMem).2 ⟨.heap 5, 0, 3, 3⟩ =
    [5, 295, 0xFFFFFEDB] := by decide +kernel
example : wordsOf (run (utilDelta exVNums exVNums) exVMem).2 exVNums = [5, 295, 0xFFFFFEE0] := by
  decide +kernel
example : WriterPre (.heap 6) exVNums exVMem :=
  ⟨memWith_tables _ _, ⟨by decide, rfl, by decide⟩, rfl, by decide⟩

/-! ## C35: `RandUint32` -/

/-- C35 is false: each of the first three generators can produce a number that needs one byte more. -/
theorem C35_false : ∀ k < 3, ∃ r : U32, byteLen (randUint32 k r) = k + 2 := by
  intro k hk
  match k, hk with
  | 0, _ => exact ⟨256, by decide +kernel⟩
  | 1, _ => exact ⟨65280, by decide +kernel⟩
  | 2, _ => exact ⟨16711680, by decide +kernel⟩

private theorem rand_cases (k : Nat) (r : U32) :
    (k % 4 = 0 ∧ (randUint32 k r).toNat = r.toNat % 257) ∨
    (k % 4 = 1 ∧ (randUint32 k r).toNat = r.toNat % 65281 + 256) ∨
    (k % 4 = 2 ∧ (randUint32 k r).toNat = r.toNat % 16711681 + 65536) ∨
    (k % 4 = 3 ∧ (randUint32 k r).toNat = r.toNat % 4278190080 + 16777216) := by
  have hr := r.isLt
  obtain h | h | h | h : k % 4 = 0 ∨ k % 4 = 1 ∨ k % 4 = 2 ∨ k % 4 = 3 := by omega
  · refine .inl ⟨h, ?_⟩
    rw [randUint32, h]
    show (r % (257 : U32) + 0).toNat = _
    rw [BitVec.toNat_add, BitVec.toNat_umod]
    show (r.toNat % 257 + 0) % 2 ^ 32 = _
    omega
  · refine .inr (.inl ⟨h, ?_⟩)
    rw [randUint32, h]
    show (r % (65281 : U32) + 256).toNat = _
    rw [BitVec.toNat_add, BitVec.toNat_umod]
    show (r.toNat % 65281 + 256) % 2 ^ 32 = _
    omega
  · refine .inr (.inr (.inl ⟨h, ?_⟩))
    rw [randUint32, h]
    show (r % (16711681 : U32) + 65536).toNat = _
    rw [BitVec.toNat_add, BitVec.toNat_umod]
    show (r.toNat % 16711681 + 65536) % 2 ^ 32 = _
    omega
  · refine .inr (.inr (.inr ⟨h, ?_⟩))
    rw [randUint32, h]
    show (r % (4278190080 : U32) + 16777216).toNat = _
    rw [BitVec.toNat_add, BitVec.toNat_umod]
    show (r.toNat % 4278190080 + 16777216) % 2 ^ 32 = _
    omega

/-- C35, what holds: the number has the chosen length, except for the single value `256 ^ length`, which needs
one byte more.  (`_partial`: the full statement has no exception.) -/
theorem C35_length_partial (k : Nat) (r : U32) :
    byteLen (randUint32 k r) = k % 4 + 1 ∨
      (k % 4 < 3 ∧ (randUint32 k r).toNat = 256 ^ (k % 4 + 1) ∧ byteLen (randUint32 k r) = k % 4 + 2) := by
  have hr := r.isLt
  unfold byteLen
  rcases rand_cases k r with ⟨hk, h⟩ | ⟨hk, h⟩ | ⟨hk, h⟩ | ⟨hk, h⟩ <;> rw [h, hk] <;> split <;>
    (try split) <;> (try split) <;> omega

/-- C35, second half: every number can be produced by the generator of its length. -/
theorem C35_reachable (v : U32) (k : Nat) (hk : k % 4 + 1 = byteLen v) : ∃ r, randUint32 k r = v := by
  have hv := v.isLt
  have key : ∀ a b : Nat, b ≤ v.toNat → v.toNat - b < a →
      (BitVec.ofNat 32 (v.toNat - b)).toNat % a + b = v.toNat := by
    intro a b h1 h2
    rw [BitVec.toNat_ofNat, Nat.mod_eq_of_lt (a := v.toNat - b) (by omega), Nat.mod_eq_of_lt h2]
    omega
  have hb : (k % 4 = 0 → v.toNat < 256) ∧ (k % 4 = 1 → 256 ≤ v.toNat ∧ v.toNat < 65536) ∧
      (k % 4 = 2 → 65536 ≤ v.toNat ∧ v.toNat < 16777216) ∧ (k % 4 = 3 → 16777216 ≤ v.toNat) := by
    unfold byteLen at hk
    split at hk
    · omega
    · split at hk
      · omega
      · split at hk <;> omega
  obtain h | h | h | h : k % 4 = 0 ∨ k % 4 = 1 ∨ k % 4 = 2 ∨ k % 4 = 3 := by omega
  · refine ⟨BitVec.ofNat 32 (v.toNat - 0), BitVec.eq_of_toNat_eq ?_⟩
    have := rand_cases k (BitVec.ofNat 32 (v.toNat - 0))
    have := key 257 0
    omega
  · refine ⟨BitVec.ofNat 32 (v.toNat - 256), BitVec.eq_of_toNat_eq ?_⟩
    have := rand_cases k (BitVec.ofNat 32 (v.toNat - 256))
    have := key 65281 256
    omega
  · refine ⟨BitVec.ofNat 32 (v.toNat - 65536), BitVec.eq_of_toNat_eq ?_⟩
    have := rand_cases k (BitVec.ofNat 32 (v.toNat - 65536))
    have := key 16711681 65536
    omega
  · refine ⟨BitVec.ofNat 32 (v.toNat - 16777216), BitVec.eq_of_toNat_eq ?_⟩
    have := rand_cases k (BitVec.ofNat 32 (v.toNat - 16777216))
    have := key 4278190080 16777216
    omega

example : (2 : Nat) % 4 + 1 = byteLen 70000 := by decide

/-- C35 for `GenUint32`: every slice of numbers can be produced. -/
theorem C35_gen (xs : List U32) : ∃ draws, genUint32 xs.length draws = xs := by
  have h : ∀ v : U32, ∃ d : Nat × U32, randUint32 d.1 d.2 = v := by
    intro v
    have hb := byteLen_bounds v
    obtain ⟨r, hr⟩ := C35_reachable v (byteLen v - 1) (by omega)
    exact ⟨(byteLen v - 1, r), hr⟩
  refine ⟨fun i => Classical.choose (h (xs.getD i 0)), ?_⟩
  unfold genUint32
  refine List.ext_getElem (by simp) fun i h1 h2 => ?_
  simp only [List.getElem_map, List.getElem_range]
  rw [Classical.choose_spec (h (xs.getD i 0)), List.getD_eq_getElem?_getD, List.getElem?_eq_getElem h2]
  rfl

end SVB.Props
