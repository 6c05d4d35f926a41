import Verif.Props.RoundTrip
import Verif.Props.Blocks

/-!
# C68: delta coding sees differences only

Two inputs of the delta writers give the same stream exactly if the numbers and `prev` of one are those of the other plus a
constant; a delta reader that starts from `prev + d` delivers the numbers it delivers from `prev`, plus `d`.  Addition is
modulo 2^32.
-/

set_option autoImplicit false

namespace SVB.Props
open Spec

private theorem delta_shift (d : U32) : ∀ (prev : U32) (xs : List U32), delta (prev + d) (xs.map (· + d)) = delta prev xs
  | _, [] => rfl
  | prev, x :: xs => by
    rw [List.map_cons, delta, delta, delta_shift d x xs]
    congr 1
    bv_omega

private theorem shift_of_delta (d : U32) : ∀ (prev : U32) (xs ys : List U32), delta (prev + d) ys = delta prev xs →
    ys = xs.map (· + d)
  | _, [], [], _ => rfl
  | _, [], _ :: _, h => by cases h
  | _, _ :: _, [], h => by cases h
  | prev, x :: xs, y :: ys, h => by
    simp only [delta, List.cons.injEq] at h
    have e : y = x + d := by have := h.1; bv_omega
    rw [List.map_cons, e, shift_of_delta d x xs ys (by rw [← e]; exact h.2)]

private theorem undelta_shift (d : U32) : ∀ (prev : U32) (ds : List U32), undelta (prev + d) ds = (undelta prev ds).map (· + d)
  | _, [] => rfl
  | prev, e :: ds => by
    rw [undelta, undelta, List.map_cons, ← undelta_shift d (e + prev) ds]
    have : e + (prev + d) = e + prev + d := by bv_omega
    rw [this]

private theorem encode_inj {xs ys : List U32} (hl : xs.length = ys.length) (h : encode xs = encode ys) : xs = ys := by
  have h1 := decode_encode xs []
  have h2 := decode_encode ys []
  rw [h, hl, h2] at h1
  exact (Option.some.inj h1).symm

/-! ## Writers -/

/-- C68: numbers and `prev` shifted by the same constant give the same stream, whatever variant writes it, from whatever
slice. -/
theorem C68_write (f g : Fn) {fa fb : Block} {a b : U32s} {ma mb : Mem} (prev d : U32) (ha : WriterPre fa a ma)
    (hb : WriterPre fb b mb) (hw : wordsOf mb b = (wordsOf ma a).map (· + d)) :
    ∃ ra rb ma' mb', run (f.writeDelta fa a prev) ma = (.ok ra, ma') ∧ run (g.writeDelta fb b (prev + d)) mb = (.ok rb, mb') ∧
      bytesOf ma' ra = bytesOf mb' rb := by
  obtain ⟨ma', e1, b1, -⟩ := (writeDelta_result f prev ha).ex
  obtain ⟨mb', e2, b2, -⟩ := (writeDelta_result g (prev + d) hb).ex
  refine ⟨_, _, ma', mb', e1, e2, ?_⟩
  rw [b1, b2, hw, delta_shift]

/-- C68: nothing else gives the same stream.  Two inputs of the same length have the same delta stream exactly if their
numbers differ by the constant by which the two `prev` differ. -/
theorem C68_write_iff (f g : Fn) {fa fb : Block} {a b : U32s} {ma mb : Mem} (prev prev' : U32) (ha : WriterPre fa a ma)
    (hb : WriterPre fb b mb) (hl : a.len = b.len) {ra rb : Bytes} {ma' mb' : Mem}
    (hra : run (f.writeDelta fa a prev) ma = (.ok ra, ma')) (hrb : run (g.writeDelta fb b prev') mb = (.ok rb, mb')) :
    bytesOf ma' ra = bytesOf mb' rb ↔ wordsOf mb b = (wordsOf ma a).map (· + (prev' - prev)) := by
  obtain ⟨_, e1, b1, -⟩ := (writeDelta_result f prev ha).ex
  obtain ⟨_, e2, b2, -⟩ := (writeDelta_result g prev' hb).ex
  have hp : prev' = prev + (prev' - prev) := by bv_omega
  rw [hra] at e1; rw [hrb] at e2
  cases e1; cases e2
  rw [b1, b2]
  constructor
  · intro h
    refine shift_of_delta _ prev _ _ ?_
    rw [← hp]
    exact (encode_inj (by rw [delta_length, delta_length, wordsOf_length, wordsOf_length, hl]) h).symm
  · intro h
    have e := delta_shift (prev' - prev) prev (wordsOf ma a)
    rw [← hp] at e
    rw [h, e]

/-- C68: writing with another `prev` changes the stream, unless there are no numbers. -/
theorem C68_prev_matters (f g : Fn) {fa fb : Block} {inn : U32s} {m : Mem} {prev prev' : U32} (ha : WriterPre fa inn m)
    (hb : WriterPre fb inn m) (hn : 0 < inn.len) (hp : prev ≠ prev') {ra rb : Bytes} {ma mb : Mem}
    (hra : run (f.writeDelta fa inn prev) m = (.ok ra, ma)) (hrb : run (g.writeDelta fb inn prev') m = (.ok rb, mb)) :
    bytesOf ma ra ≠ bytesOf mb rb := by
  rw [ne_eq, C68_write_iff f g prev prev' ha hb rfl hra hrb]
  intro h
  have hl := wordsOf_length m inn
  cases e : wordsOf m inn with
  | nil => rw [e] at hl; simp at hl; omega
  | cons x xs =>
    rw [e, List.map_cons, List.cons.injEq] at h
    have := h.1
    exact hp (by bv_omega)

-- Seventeen numbers, and the same plus 2^32 - 3.
example := C68_write .fast .scalar (fb := .heap 8) (b := exIn) (mb := memWith (exNums.map (· + 0xfffffffd)) []) 5 0xfffffffd
  exWriter ⟨memWith_tables _ _, ⟨by decide, rfl, by decide⟩, rfl, by decide⟩ (by decide +kernel)
example : ∃ ra rb ma mb, run (Fn.fast.writeDelta (.heap 7) exIn 5) exMem = (.ok ra, ma) ∧
    run (Fn.scalar.writeDelta (.heap 7) exIn 6) exMem = (.ok rb, mb) ∧ bytesOf ma ra ≠ bytesOf mb rb := by
  obtain ⟨ma, e1, -⟩ := (writeDelta_result .fast 5 exWriter).ex
  obtain ⟨mb, e2, -⟩ := (writeDelta_result .scalar 6 exWriter).ex
  exact ⟨_, _, ma, mb, e1, e2, C68_prev_matters .fast .scalar exWriter exWriter (by decide) (by decide) e1 e2⟩

/-! ## Readers -/

/-- C68: on every stream, started from `prev + d` instead of `prev`, a delta reader (of whatever variant) delivers every number
plus `d`; and it panics if and only if the other does. -/
theorem C68_read (f g : Fn) {n : Nat} {st : Bytes} {out : U32s} {m : Mem} (prev d : U32) (h : ReaderPre n st out m) :
    (∃ m₁ m₂, run (f.readDelta n st out prev) m = (.ok (), m₁) ∧ run (g.readDelta n st out (prev + d)) m = (.ok (), m₂) ∧
      wordsN m₂ out n = (wordsN m₁ out n).map (· + d)) ∨
    (∃ k₁ k₂ m₁ m₂, run (f.readDelta n st out prev) m = (.panic k₁, m₁) ∧
      run (g.readDelta n st out (prev + d)) m = (.panic k₂, m₂)) := by
  have h1 := (readDelta_result f prev h).1
  have h2 := (readDelta_result g (prev + d) h).1
  unfold decodeDelta at h1 h2
  cases e : decode n (bytesOf m st) with
  | none =>
    rw [e] at h1 h2
    obtain ⟨k₁, m₁, r1, -⟩ := h1
    obtain ⟨k₂, m₂, r2, -⟩ := h2
    exact .inr ⟨k₁, k₂, m₁, m₂, r1, r2⟩
  | some ds =>
    rw [e] at h1 h2
    obtain ⟨m₁, r1, w1⟩ := h1
    obtain ⟨m₂, r2, w2⟩ := h2
    exact .inl ⟨m₁, m₂, r1, r2, by rw [w2, w1]; exact undelta_shift d prev ds⟩

/-- C68: a stream read with a `prev` it was not written with gives all numbers off by the difference of the two. -/
theorem C68_wrong_prev (w r : Fn) {fresh : Block} {inn out : U32s} {m : Mem} (prev prev' : U32) (hw : WriterPre fresh inn m)
    (ho : Valid out) (hne : out.blk ≠ fresh) (hroom : inn.len ≤ out.len) :
    ∃ m', run (w.writeDelta fresh inn prev >>= fun s => r.readDelta inn.len s out prev') m = (.ok (), m') ∧
      wordsN m' out inn.len = (wordsOf m inn).map (· + (prev' - prev)) := by
  obtain ⟨m₁, e1, b1, f1, -⟩ := (writeDelta_result w prev hw).ex
  have hsz : (encode (delta prev (wordsOf m inn))).length ≤ ctrlLen inn.len + 4 * inn.len := by
    have := (sum_bounds (delta prev (wordsOf m inn))).2
    rw [encode_length_sum, delta_length, wordsOf_length] at *; omega
  have hr := (readDelta_result r prev' (readerPre_after hw ho hne hroom hsz f1)).1
  have hd := decode_encode (delta prev (wordsOf m inn)) []
  have hd' := decodeDelta_encode prev (wordsOf m inn) []
  rw [List.append_nil, delta_length, wordsOf_length] at hd
  rw [List.append_nil, wordsOf_length, decodeDelta, hd, Option.map_some, Option.some.injEq] at hd'
  rw [b1, decodeDelta, hd] at hr
  obtain ⟨m', e2, w2⟩ := hr
  refine ⟨m', ?_, ?_⟩
  · rw [Prog.bind_eq, run_bind, e1]
    exact e2
  · have hp : prev' = prev + (prev' - prev) := by bv_omega
    have e := undelta_shift (prev' - prev) prev (delta prev (wordsOf m inn))
    rw [← hp, hd'] at e
    rw [w2, e]

example := C68_read .fast .scalar 5 0xfffffffd exReader
example := C68_wrong_prev .fast .fast (out := exIn) 5 6 exWriter ⟨by decide, rfl, by decide⟩ (by decide) (by decide)

/-! ## Eight numbers -/

/-- C68 for `Put8uint32Delta`: the control and the data bytes. -/
theorem C68_put8 (f g : Fn) {a b : U32s} {oa ob : Bytes} {ma mb : Mem} (prev d : U32) (ha : BlockPre a oa ma)
    (hb : BlockPre b ob mb) (ha8 : 8 ≤ a.len) (hb8 : 8 ≤ b.len) (hoa : 32 ≤ oa.len) (hob : 32 ≤ ob.len)
    (hw : wordsN mb b 8 = (wordsN ma a 8).map (· + d)) :
    ∃ c ma' mb', ∃ L : Nat, run (f.put8Delta a oa prev) ma = (.ok c, ma') ∧ run (g.put8Delta b ob (prev + d)) mb = (.ok c, mb') ∧
      run (controlByteToSizeTwo c) ma' = (.ok (L : Int), ma') ∧ (bytesOf ma' oa).take L = (bytesOf mb' ob).take L := by
  obtain ⟨ma', r1, b1, s1, -⟩ := C17_put8Delta f prev ha ha8 hoa
  obtain ⟨mb', r2, b2, -, -⟩ := C17_put8Delta g (prev + d) hb hb8 hob
  rw [hw, delta_shift] at r2 b2
  exact ⟨_, ma', mb', _, r1, r2, s1, b1.trans b2.symm⟩

/-- C68 for `Get8uint32Delta`. -/
theorem C68_get8 (f g : Fn) {inn : Bytes} {out : U32s} {m : Mem} (ctrl : U16) (prev d : U32) (h : BlockPre inn out m)
    (hi : 32 ≤ inn.len) (ho : 8 ≤ out.len) :
    ∃ m₁ m₂, run (f.get8Delta inn out ctrl prev) m = (.ok (), m₁) ∧ run (g.get8Delta inn out ctrl (prev + d)) m = (.ok (), m₂) ∧
      wordsN m₂ out 8 = (wordsN m₁ out 8).map (· + d) := by
  obtain ⟨m₁, r1, w1, -⟩ := C18_get8Delta f ctrl prev h hi ho
  obtain ⟨m₂, r2, w2, -⟩ := C18_get8Delta g ctrl (prev + d) h hi ho
  refine ⟨m₁, m₂, r1, r2, ?_⟩
  cases e : readNums (codeLens 8 ctrl.toNat) (bytesOf m inn) with
  | none => rw [e] at w1; cases w1
  | some ds =>
    rw [e, Option.map_some, Option.some.injEq] at w1 w2
    rw [w1, w2, undelta_shift]

example := C68_put8 .fast .scalar (b := exBlockIn) (ob := exBlockBuf) (mb := exBlockMem) 5 0 exPut exPut (by decide) (by decide)
  (by decide) (by decide) (by decide +kernel)
example := C68_get8 .fast .scalar 0xfa50 5 7 exGet (by decide) (by decide)

end SVB.Props
