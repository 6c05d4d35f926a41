import Verif.Proofs.Results
import Verif.Proofs.SpecFacts

/-! # Properties of the writers: C01–C04, C15, C22–C24, C27, C28 (writing), C30, C39 -/

set_option autoImplicit false

namespace SVB.Props
open Spec

/-! ## A concrete call, used to show that the hypotheses below can be met -/

/-- Seventeen numbers of all four lengths, unsorted. -/
def exNums : List U32 :=
  [0, 255, 256, 65535, 65536, 16777215, 16777216, 4294967295, 1, 2, 3, 1000, 5, 70000, 7, 8, 300]

def exMem : Mem := memWith exNums []
def exIn : U32s := ⟨.heap 0, 0, 17, 20⟩

theorem exWriter : WriterPre (.heap 7) exIn exMem :=
  ⟨memWith_tables _ _, ⟨by decide, rfl, by decide⟩, rfl, by decide⟩

theorem exWords : wordsOf exMem exIn = exNums := by decide +kernel

/-! ## C01–C04: output format -/

/-- The format as seen from outside: `s` is the stream of the numbers `xs`.  Two bits per number hold its
length minus one, spare control bits are zero, the data section is the concatenation of the minimal
little-endian representations. -/
structure IsStream (xs : List U32) (s : List Byte) : Prop where
  ctrl : ∀ (i : Nat) (h : i < xs.length), code (s.getD (i / 4) 0) (i % 4) = byteLen xs[i] - 1
  spare : SpareZero xs.length s
  data : s.drop (ctrlLen xs.length) = xs.flatMap leBytes
  size : s.length = ctrlLen xs.length + (xs.map byteLen).sum

/-- `encode` satisfies the bit-level description, so the theorems below mean what the English says. -/
theorem encode_isStream (xs : List U32) : IsStream xs (encode xs) where
  ctrl i h := by
    have hC : ctrlLen xs.length = (xs.length + 3) / 4 := rfl
    have h1 := ctrls_code xs (i / 4) (i % 4) (by omega) (by omega)
    rw [show 4 * (i / 4) + i % 4 = i by omega, getD_eq_getElem' _ h] at h1
    rw [encode, getD_append_left _ (by rw [ctrls_length]; omega)]
    omega
  spare := by have := encode_spareZero xs []; rwa [List.append_nil] at this
  data := by
    rw [encode, ← ctrls_length, List.drop_left]; rfl
  size := encode_length_sum xs

/-- C01. -/
theorem C01_writeAllScalar {fresh : Block} {inn : U32s} {m : Mem} (h : WriterPre fresh inn m) :
    ∃ r m', run (writeAllScalar fresh inn) m = (.ok r, m') ∧ bytesOf m' r = encode (wordsOf m inn) := by
  obtain ⟨m', h1, h2, -⟩ := (write_result .scalar h).ex
  exact ⟨_, m', h1, h2⟩

/-- C02. -/
theorem C02_writeAllFast {fresh : Block} {inn : U32s} {m : Mem} (h : WriterPre fresh inn m) :
    ∃ r m', run (writeAllFast fresh inn) m = (.ok r, m') ∧ bytesOf m' r = encode (wordsOf m inn) := by
  obtain ⟨m', h1, h2, -⟩ := (write_result .fast h).ex
  exact ⟨_, m', h1, h2⟩

/-- C03. -/
theorem C03_writeAllDeltaScalar {fresh : Block} {inn : U32s} {m : Mem} (prev : U32)
    (h : WriterPre fresh inn m) :
    ∃ r m', run (writeAllDeltaScalar fresh inn prev) m = (.ok r, m') ∧
      bytesOf m' r = encode (delta prev (wordsOf m inn)) := by
  obtain ⟨m', h1, h2, -⟩ := (writeDelta_result .scalar prev h).ex
  exact ⟨_, m', h1, h2⟩

/-- C04. -/
theorem C04_writeAllDeltaFast {fresh : Block} {inn : U32s} {m : Mem} (prev : U32)
    (h : WriterPre fresh inn m) :
    ∃ r m', run (writeAllDeltaFast fresh inn prev) m = (.ok r, m') ∧
      bytesOf m' r = encode (delta prev (wordsOf m inn)) := by
  obtain ⟨m', h1, h2, -⟩ := (writeDelta_result .fast prev h).ex
  exact ⟨_, m', h1, h2⟩

-- A concrete instance of C01–C04: the hypothesis holds, and this is the stream that comes out.
example : WriterPre (.heap 7) exIn exMem := exWriter
example : encode (wordsOf exMem exIn) =
    [0b01010000, 0b11111010, 0b01000000, 0b00001000, 0b00000001,
      0, 255, 0, 1, 255, 255, 0, 0, 1, 255, 255, 255, 0, 0, 0, 1, 255, 255, 255, 255,
      1, 2, 3, 232, 3, 5, 112, 17, 1, 7, 8, 44, 1] := by decide +kernel
example : encode (delta 5 [7, 6, 1000]) = [0b011100, 2, 255, 255, 255, 255, 226, 3] := by decide +kernel

/-! ## C15, C30: memory accesses of the writers -/

/-- C15: every byte loaded is a byte of `in` or of a lookup table, every byte stored is a byte of the
buffer `make` returned (`ceil(n/4) + 4 n` bytes). -/
theorem C15_writeAllFast_bounds {fresh : Block} {inn : U32s} {m : Mem} (h : WriterPre fresh inn m) :
    ∀ e ∈ trace (writeAllFast fresh inn) m,
      match e with
      | .rd q => inSlice inn q ∨ inTables q
      | .wr q => q.blk = fresh ∧ q.off < ctrlLen inn.len + 4 * inn.len := by
  intro e he
  have := (write_result .fast h).foot e he
  cases e with
  | rd q => exact this
  | wr q => exact ⟨this.1, this.2.2⟩

theorem C15_writeAllDeltaFast_bounds {fresh : Block} {inn : U32s} {m : Mem} (prev : U32)
    (h : WriterPre fresh inn m) :
    ∀ e ∈ trace (writeAllDeltaFast fresh inn prev) m,
      match e with
      | .rd q => inSlice inn q ∨ inTables q
      | .wr q => q.blk = fresh ∧ q.off < ctrlLen inn.len + 4 * inn.len := by
  intro e he
  have := (writeDelta_result .fast prev h).foot e he
  cases e with
  | rd q => exact this
  | wr q => exact ⟨this.1, this.2.2⟩

-- The fast writer really does load and store through the assembly in the concrete instance.
example : Event.wr ⟨.heap 7, 5 + 17⟩ ∈ trace (writeAllFast (.heap 7) exIn) exMem := by decide +kernel

/-- C30: only the fresh buffer changes, for every writer on every CPU. -/
theorem C30_writers_frame (f : Fn) {fresh : Block} {inn : U32s} {m : Mem} (h : WriterPre fresh inn m) (q : Ptr)
    (hq : q.blk ≠ fresh) : (run (f.write fresh inn) m).2 q = m q := by
  obtain ⟨m', h1, -, h3, -⟩ := (write_result f h).ex
  rw [h1]; exact h3 q fun hs => hq hs.1

theorem C30_delta_writers_frame (f : Fn) {fresh : Block} {inn : U32s} {m : Mem} (prev : U32)
    (h : WriterPre fresh inn m) (q : Ptr) (hq : q.blk ≠ fresh) :
    (run (f.writeDelta fresh inn prev) m).2 q = m q := by
  obtain ⟨m', h1, -, h3, -⟩ := (writeDelta_result f prev h).ex
  rw [h1]; exact h3 q fun hs => hq hs.1

-- The last byte of the input of the concrete call survives.
/-- C30, as the caller sees it: the result is the start of the new buffer, so that it shares no memory with the input,
and no later store through it changes the input. -/
theorem C30_result_fresh (f : Fn) {fresh : Block} {inn : U32s} {m : Mem} (h : WriterPre fresh inn m) :
    ∃ r m', run (f.write fresh inn) m = (.ok r, m') ∧ r.blk = fresh ∧ r.off = 0 := by
  obtain ⟨m', e, -⟩ := (write_result f h).ex
  exact ⟨_, m', e, rfl, rfl⟩

theorem C30_delta_result_fresh (f : Fn) {fresh : Block} {inn : U32s} {m : Mem} (prev : U32)
    (h : WriterPre fresh inn m) :
    ∃ r m', run (f.writeDelta fresh inn prev) m = (.ok r, m') ∧ r.blk = fresh ∧ r.off = 0 := by
  obtain ⟨m', e, -⟩ := (writeDelta_result f prev h).ex
  exact ⟨_, m', e, rfl, rfl⟩

example := C30_writers_frame .fast exWriter ⟨.heap 0, 67⟩ (by decide)

/-! ## C22: sizes -/

/-- C22: length and capacity of every plain writer's result. -/
theorem C22_write_size (f : Fn) {fresh : Block} {inn : U32s} {m : Mem} (h : WriterPre fresh inn m) :
    ∃ r m', run (f.write fresh inn) m = (.ok r, m') ∧
      r.len = (inn.len + 3) / 4 + ((wordsOf m inn).map byteLen).sum ∧
      (inn.len + 3) / 4 + inn.len ≤ r.len ∧ r.len ≤ r.cap ∧ r.cap = (inn.len + 3) / 4 + 4 * inn.len := by
  obtain ⟨m', h1, -, -⟩ := (write_result f h).ex
  have hb := sum_bounds (wordsOf m inn)
  rw [wordsOf_length] at hb
  have he := encode_length_sum (wordsOf m inn)
  rw [wordsOf_length] at he
  simp only [ctrlLen] at he h1
  exact ⟨_, m', h1, he, by simp only; omega, by simp only; omega, rfl⟩

/-- C22 for the delta writers: the encoded numbers are the differences. -/
theorem C22_writeDelta_size (f : Fn) {fresh : Block} {inn : U32s} {m : Mem} (prev : U32)
    (h : WriterPre fresh inn m) :
    ∃ r m', run (f.writeDelta fresh inn prev) m = (.ok r, m') ∧
      r.len = (inn.len + 3) / 4 + ((delta prev (wordsOf m inn)).map byteLen).sum ∧
      (inn.len + 3) / 4 + inn.len ≤ r.len ∧ r.len ≤ r.cap ∧ r.cap = (inn.len + 3) / 4 + 4 * inn.len := by
  obtain ⟨m', h1, -, -⟩ := (writeDelta_result f prev h).ex
  have hb := sum_bounds (delta prev (wordsOf m inn))
  rw [delta_length, wordsOf_length] at hb
  have he := encode_length_sum (delta prev (wordsOf m inn))
  rw [delta_length, wordsOf_length] at he
  simp only [ctrlLen] at he h1
  exact ⟨_, m', h1, he, by simp only; omega, by simp only; omega, rfl⟩

/-! ## C23: minimality -/

/-- C23: among all byte strings that decode to the input numbers the writers' output is shortest, and the
only one of that length with zero spare control bits. -/
theorem C23_minimal (f : Fn) {fresh : Block} {inn : U32s} {m : Mem} (h : WriterPre fresh inn m) :
    ∃ r m', run (f.write fresh inn) m = (.ok r, m') ∧ SpareZero inn.len (bytesOf m' r) ∧
      ∀ s, decode inn.len s = some (wordsOf m inn) →
        r.len ≤ s.length ∧ (s.length = r.len → SpareZero inn.len s → s = bytesOf m' r) := by
  obtain ⟨m', h1, h2, -⟩ := (write_result f h).ex
  refine ⟨_, m', h1, ?_, fun s hs => ?_⟩
  · rw [h2]
    have := encode_spareZero (wordsOf m inn) []
    rwa [List.append_nil, wordsOf_length] at this
  · rw [h2]
    have hs' : decode (wordsOf m inn).length s = some (wordsOf m inn) := by rwa [wordsOf_length]
    refine ⟨encode_min hs', fun hl hz => encode_unique hs' hl ?_⟩
    rwa [wordsOf_length]

/-- C23 for the delta writers: of all byte strings that decode with `prev` to the input numbers theirs is
shortest, and the only one of that length with zero spare control bits. -/
theorem C23_minimal_delta (f : Fn) (prev : U32) {fresh : Block} {inn : U32s} {m : Mem}
    (h : WriterPre fresh inn m) :
    ∃ r m', run (f.writeDelta fresh inn prev) m = (.ok r, m') ∧ SpareZero inn.len (bytesOf m' r) ∧
      ∀ s, decodeDelta prev inn.len s = some (wordsOf m inn) →
        r.len ≤ s.length ∧ (s.length = r.len → SpareZero inn.len s → s = bytesOf m' r) := by
  obtain ⟨m', h1, h2, -⟩ := (writeDelta_result f prev h).ex
  have hlen : (delta prev (wordsOf m inn)).length = inn.len := by rw [delta_length, wordsOf_length]
  refine ⟨_, m', h1, ?_, fun s hs => ?_⟩
  · rw [h2]
    have := encode_spareZero (delta prev (wordsOf m inn)) []
    rwa [List.append_nil, hlen] at this
  · rw [h2]
    obtain ⟨ds, hd, he⟩ := Option.map_eq_some_iff.mp hs
    have hds : ds = delta prev (wordsOf m inn) := by rw [← he, delta_undelta]
    subst hds
    have hs' : decode (delta prev (wordsOf m inn)).length s = some (delta prev (wordsOf m inn)) := by rwa [hlen]
    refine ⟨encode_min hs', fun hl hz => encode_unique hs' hl ?_⟩
    rwa [hlen]

/-- Each number takes the fewest of 1..4 bytes that can hold it. -/
theorem C23_byteLen_least (v : U32) :
    1 ≤ byteLen v ∧ byteLen v ≤ 4 ∧ v.toNat < 256 ^ byteLen v ∧ ∀ l, 1 ≤ l → v.toNat < 256 ^ l → byteLen v ≤ l :=
  ⟨(byteLen_bounds v).1, (byteLen_bounds v).2, lt_pow_byteLen v, fun _ h1 h2 => byteLen_le h2 h1⟩

-- A competing stream that decodes to the same numbers but is longer, and one with dirty spare bits.
example : decode 2 [0b0001, 5, 0, 7] = some [5, 7] ∧ decode 2 [0b11110000, 5, 7] = some [5, 7] ∧
    encode [5, 7] = [0, 5, 7] := by decide +kernel

/-! ## C24: injectivity -/

/-- C24: inputs of equal length, any writers: a prefix relation between the results forces equality. -/
theorem C24_prefix_free (f g : Fn) {fa fb : Block} {a b : U32s} {ma mb : Mem} (ha : WriterPre fa a ma)
    (hb : WriterPre fb b mb) (hl : a.len = b.len) {ra rb : Bytes} {ma' mb' : Mem}
    (hra : run (f.write fa a) ma = (.ok ra, ma')) (hrb : run (g.write fb b) mb = (.ok rb, mb'))
    (hp : bytesOf ma' ra <+: bytesOf mb' rb) : wordsOf ma a = wordsOf mb b := by
  obtain ⟨_, e1, h1, -⟩ := (write_result f ha).ex
  obtain ⟨_, e2, h2, -⟩ := (write_result g hb).ex
  rw [e1, Prod.mk.injEq, Outcome.ok.injEq] at hra
  rw [e2, Prod.mk.injEq, Outcome.ok.injEq] at hrb
  obtain ⟨rfl, rfl⟩ := hra
  obtain ⟨rfl, rfl⟩ := hrb
  rw [h1, h2] at hp
  obtain ⟨t, ht⟩ := hp
  have d1 := decode_encode (wordsOf ma a) t
  have d2 := decode_encode (wordsOf mb b) []
  rw [List.append_nil] at d2
  rw [ht, wordsOf_length, hl] at d1
  rw [wordsOf_length, d1] at d2
  exact Option.some.inj d2

/-- C24 for the delta writers with equal bases. -/
theorem C24_prefix_free_delta (f g : Fn) {fa fb : Block} {a b : U32s} {ma mb : Mem} (prev : U32)
    (ha : WriterPre fa a ma) (hb : WriterPre fb b mb) (hl : a.len = b.len) {ra rb : Bytes} {ma' mb' : Mem}
    (hra : run (f.writeDelta fa a prev) ma = (.ok ra, ma'))
    (hrb : run (g.writeDelta fb b prev) mb = (.ok rb, mb'))
    (hp : bytesOf ma' ra <+: bytesOf mb' rb) : wordsOf ma a = wordsOf mb b := by
  obtain ⟨_, e1, h1, -⟩ := (writeDelta_result f prev ha).ex
  obtain ⟨_, e2, h2, -⟩ := (writeDelta_result g prev hb).ex
  rw [e1, Prod.mk.injEq, Outcome.ok.injEq] at hra
  rw [e2, Prod.mk.injEq, Outcome.ok.injEq] at hrb
  obtain ⟨rfl, rfl⟩ := hra
  obtain ⟨rfl, rfl⟩ := hrb
  rw [h1, h2] at hp
  obtain ⟨t, ht⟩ := hp
  have d1 := decodeDelta_encode prev (wordsOf ma a) t
  have d2 := decodeDelta_encode prev (wordsOf mb b) []
  rw [List.append_nil] at d2
  rw [ht, wordsOf_length, hl] at d1
  rw [wordsOf_length, d1] at d2
  exact Option.some.inj d2

-- Without the length condition the claim is false: `[0]` and `[0, 0]` share the prefix `[0, 0]`.
example : encode [0] <+: encode [0, 0] := by decide +kernel

/-! ## C27, C28: concatenation -/

/-- C27: control and data sections of the stream of `a ++ b` are those of `a` followed by those of `b`,
when `a` fills its groups; `f`, `g`, `h` are any writers. -/
theorem C27_concat (f g h : Fn) {fa fb fc : Block} {a b c : U32s} {ma mb mc : Mem} (ha : WriterPre fa a ma)
    (hb : WriterPre fb b mb) (hc : WriterPre fc c mc) (h4 : a.len % 4 = 0)
    (hcat : wordsOf mc c = wordsOf ma a ++ wordsOf mb b) :
    ∃ ra ma' rb mb' rc mc', run (f.write fa a) ma = (.ok ra, ma') ∧ run (g.write fb b) mb = (.ok rb, mb') ∧
      run (h.write fc c) mc = (.ok rc, mc') ∧
      (bytesOf mc' rc).take (ctrlLen c.len) =
        (bytesOf ma' ra).take (ctrlLen a.len) ++ (bytesOf mb' rb).take (ctrlLen b.len) ∧
      (bytesOf mc' rc).drop (ctrlLen c.len) =
        (bytesOf ma' ra).drop (ctrlLen a.len) ++ (bytesOf mb' rb).drop (ctrlLen b.len) := by
  obtain ⟨_, e1, h1, -⟩ := (write_result f ha).ex
  obtain ⟨_, e2, h2, -⟩ := (write_result g hb).ex
  obtain ⟨_, e3, h3, -⟩ := (write_result h hc).ex
  refine ⟨_, _, _, _, _, _, e1, e2, e3, ?_⟩
  rw [h1, h2, h3]
  have l1 := ctrls_length (wordsOf ma a); rw [wordsOf_length] at l1
  have l2 := ctrls_length (wordsOf mb b); rw [wordsOf_length] at l2
  have l3 := ctrls_length (wordsOf mc c); rw [wordsOf_length] at l3
  simp only [encode]
  rw [← l1, ← l2, ← l3]
  simp only [List.take_left, List.drop_left]
  rw [hcat, ctrls_append _ _ (by rw [wordsOf_length]; exact h4), dataBytes_append]
  exact ⟨rfl, rfl⟩

/-- C28 (writing): the same for the delta writers when the second batch starts from the last number of the
first (from `prev` itself if the first batch is empty). -/
theorem C28_write_chain (f g h : Fn) {fa fb fc : Block} {a b c : U32s} {ma mb mc : Mem} (prev : U32)
    (ha : WriterPre fa a ma) (hb : WriterPre fb b mb) (hc : WriterPre fc c mc) (h4 : a.len % 4 = 0)
    (hcat : wordsOf mc c = wordsOf ma a ++ wordsOf mb b) :
    ∃ ra ma' rb mb' rc mc', run (f.writeDelta fa a prev) ma = (.ok ra, ma') ∧
      run (g.writeDelta fb b ((wordsOf ma a).getLast?.getD prev)) mb = (.ok rb, mb') ∧
      run (h.writeDelta fc c prev) mc = (.ok rc, mc') ∧
      (bytesOf mc' rc).take (ctrlLen c.len) =
        (bytesOf ma' ra).take (ctrlLen a.len) ++ (bytesOf mb' rb).take (ctrlLen b.len) ∧
      (bytesOf mc' rc).drop (ctrlLen c.len) =
        (bytesOf ma' ra).drop (ctrlLen a.len) ++ (bytesOf mb' rb).drop (ctrlLen b.len) := by
  obtain ⟨_, e1, h1, -⟩ := (writeDelta_result f prev ha).ex
  obtain ⟨_, e2, h2, -⟩ := (writeDelta_result g ((wordsOf ma a).getLast?.getD prev) hb).ex
  obtain ⟨_, e3, h3, -⟩ := (writeDelta_result h prev hc).ex
  refine ⟨_, _, _, _, _, _, e1, e2, e3, ?_⟩
  rw [h1, h2, h3]
  have l1 := ctrls_length (delta prev (wordsOf ma a)); rw [delta_length, wordsOf_length] at l1
  have l2 := ctrls_length (delta ((wordsOf ma a).getLast?.getD prev) (wordsOf mb b))
  rw [delta_length, wordsOf_length] at l2
  have l3 := ctrls_length (delta prev (wordsOf mc c)); rw [delta_length, wordsOf_length] at l3
  simp only [encode]
  rw [← l1, ← l2, ← l3]
  simp only [List.take_left, List.drop_left]
  rw [hcat, delta_append, ctrls_append _ _ (by rw [delta_length, wordsOf_length]; exact h4), dataBytes_append]
  exact ⟨rfl, rfl⟩

-- An instance of the hypotheses: `a` is four numbers, `b` three.
example : let m := memWith [1, 300, 3, 4, 9, 7, 70000] []
    WriterPre (.heap 7) ⟨.heap 0, 0, 4, 7⟩ m ∧ WriterPre (.heap 8) ⟨.heap 0, 16, 3, 3⟩ m ∧
    WriterPre (.heap 9) ⟨.heap 0, 0, 7, 7⟩ m ∧
    wordsOf m ⟨.heap 0, 0, 7, 7⟩ = wordsOf m ⟨.heap 0, 0, 4, 7⟩ ++ wordsOf m ⟨.heap 0, 16, 3, 3⟩ :=
  ⟨⟨memWith_tables _ _, ⟨by decide, rfl, by decide⟩, rfl, by decide⟩,
   ⟨memWith_tables _ _, ⟨by decide, rfl, by decide⟩, rfl, by decide⟩,
   ⟨memWith_tables _ _, ⟨by decide, rfl, by decide⟩, rfl, by decide⟩, by decide +kernel⟩

/-! ## C39: sorted input -/

/-- C39: on non-decreasing input not below `prev`, delta coding never makes the stream longer. -/
theorem C39_sorted_not_longer (f g : Fn) {fa fb : Block} {inn : U32s} {m : Mem} (prev : U32)
    (ha : WriterPre fa inn m) (hb : WriterPre fb inn m)
    (hs : (prev :: wordsOf m inn).Pairwise (fun a b => a.toNat ≤ b.toNat)) :
    ∃ r m' rd md', run (f.write fa inn) m = (.ok r, m') ∧ run (g.writeDelta fb inn prev) m = (.ok rd, md') ∧
      rd.len ≤ r.len := by
  obtain ⟨_, e1, -, -⟩ := (write_result f ha).ex
  obtain ⟨_, e2, -, -⟩ := (writeDelta_result g prev hb).ex
  refine ⟨_, _, _, _, e1, e2, ?_⟩
  simp only [encode_length_sum, delta_length]
  have := delta_sum_le prev _ hs
  omega

example : let m := memWith [1000, 1001, 70000, 70000] []
    ((1000#32) :: wordsOf m ⟨.heap 0, 0, 4, 4⟩).Pairwise (fun a b => a.toNat ≤ b.toNat) ∧
    (encode (wordsOf m ⟨.heap 0, 0, 4, 4⟩)).length = 11 ∧
    (encode (delta 1000 (wordsOf m ⟨.heap 0, 0, 4, 4⟩))).length = 7 := by decide +kernel

end SVB.Props
