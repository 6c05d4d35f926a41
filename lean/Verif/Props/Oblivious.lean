import Verif.Props.Readers
import Verif.Props.Writers
import Verif.Proofs.LockWrite
import Verif.Proofs.Blocks

/-!
# C66: which addresses are touched depends on the lengths of the numbers only

`trace` is the list of all addresses loaded and stored, in order.  Two calls on numbers of the same byte lengths (two
streams with the same control bytes) have the same trace and end the same way, whatever the values: nothing but the
lengths shows in the addresses, and no branch depends on a value.
-/

set_option autoImplicit false

namespace SVB.Props
open Spec Asm InStep

/-- Two calls touch the same addresses in the same order, and return the same value or end with the same panic. -/
def SameAccess {α : Type} (p : Prog α) (m : Mem) (q : Prog α) (m' : Mem) : Prop :=
  trace p m = trace q m' ∧ (run p m).1 = (run q m').1

/-! ## From the proof rules -/

private theorem sameAccess {α : Type} {I : Mem → Mem → Prop} {p q : Prog α} (h : Lk I p q Eq) {m m' : Mem} (hI : I m m') :
    SameAccess p m q m' := by
  obtain ⟨h1, h2, h3⟩ := h.sound hI
  refine ⟨h1, ?_⟩
  revert h2 h3
  cases (run p m).1 <;> cases (run q m').1 <;> intro h2 h3
  · rw [h3 _ _ rfl rfl]
  · exact h2.elim
  · exact h2.elim
  · rw [show _ = _ from h2]

private theorem sameUnit {I : Mem → Mem → Prop} {p q : Prog Unit} (h : Lk I p q (fun _ _ => True)) {m m' : Mem} (hI : I m m') :
    SameAccess p m q m' := sameAccess (lk_mono h fun _ _ _ => rfl) hI

/-- Tables in both memories. -/
private def Tabs (m m' : Mem) : Prop := TablesLoaded m ∧ TablesLoaded m'

private theorem Tabs.set {m m' : Mem} (h : Tabs m m') {b : Block} (hb : b.isConst = false) (o : Nat) (v w : Byte) :
    Tabs (m.set ⟨b, o⟩ v) (m'.set ⟨b, o⟩ w) := by
  have : ∀ (m : Mem) (v : Byte) (q : Ptr), q.blk.isConst = true → m.set ⟨b, o⟩ v q = m q := by
    intro m v q hq
    unfold Mem.set
    rw [if_neg]
    rintro rfl
    simp [hb] at hq
  exact ⟨h.1.frame (this m v), h.2.frame (this m' w)⟩

private theorem mask {I : Mem → Mem → Prop} (h : ∀ m m', I m m' → Tabs m m') : MaskI I where
  tab := ⟨fun k hk m m' hI => by rw [(h m m' hI).1.ctrlLen k hk, (h m m' hI).2.ctrlLen k hk], fun k hk m m' hI => by
    have e : k = 4 * (k / 4) + k % 4 := by omega
    rw [e, (h m m' hI).1.numLen _ (by omega) _ (by omega), (h m m' hI).2.numLen _ (by omega) _ (by omega)]⟩
  mask m m' hI := by
    obtain ⟨h1, h2⟩ := h m m' hI
    exact ⟨⟨h1.mask0101.1, h1.mask0101.2, h1.mask7F00.1, h1.mask7F00.2⟩, h2.mask0101.1, h2.mask0101.2, h2.mask7F00.1, h2.mask7F00.2⟩

/-! ## Readers -/

private def IR (st : Bytes) (H : Nat) (m m' : Mem) : Prop := Tabs m m' ∧ ∀ k < H, m ⟨st.blk, st.off + k⟩ = m' ⟨st.blk, st.off + k⟩

private theorem IR.free {st : Bytes} {H : Nat} {b : Block} (hb : b.isConst = false) (hne : st.blk ≠ b) : Free (IR st H) b := by
  intro m m' o v w h
  refine ⟨h.1.set hb o v w, fun k hk => ?_⟩
  simp only [Mem.set, Ptr.mk.injEq, hne, false_and, if_false]
  exact h.2 k hk

/-- C66, readers: whatever the data bytes, the addresses are those of any other stream with the same control bytes.  The
stream may be cut short or damaged. -/
theorem C66_read (f : Fn) {n : Nat} {st : Bytes} {out : U32s} {m m' : Mem} (hn : n < 2 ^ 61) (hm : TablesLoaded m)
    (hm' : TablesLoaded m') (ho : out.blk.isConst = false) (hne : st.blk ≠ out.blk)
    (hc : ∀ k < ctrlLen n, m ⟨st.blk, st.off + k⟩ = m' ⟨st.blk, st.off + k⟩) :
    SameAccess (f.read n st out) m (f.read n st out) m' := by
  have hI : IR st (ctrlLen n) m m' := ⟨⟨hm, hm'⟩, hc⟩
  have hT := (mask (I := IR st (ctrlLen n)) fun _ _ h => h.1).tab
  have hC : CtlI (IR st (ctrlLen n)) st ((n + 3) / 4) := fun k hk _ _ h => h.2 k hk
  have h1 := sameUnit (lk_readAllScalar hn hT hC (IR.free ho hne)) hI
  have h2 := sameUnit (lk_readAllFast hn hT hC (IR.free ho hne)) hI
  cases f with
  | scalar => exact h1
  | fast => exact h2
  | auto c =>
    simp only [Fn.read]
    rcases readAll_cases c n st out with e | e <;> rw [e]
    · exact h2
    · exact h1

/-- C66, readers of differences: nor does the number before the first matter. -/
theorem C66_readDelta (f : Fn) {n : Nat} {st : Bytes} {out : U32s} {m m' : Mem} (prev prev' : U32) (hn : n < 2 ^ 61)
    (hm : TablesLoaded m) (hm' : TablesLoaded m') (ho : out.blk.isConst = false) (hne : st.blk ≠ out.blk)
    (hc : ∀ k < ctrlLen n, m ⟨st.blk, st.off + k⟩ = m' ⟨st.blk, st.off + k⟩) :
    SameAccess (f.readDelta n st out prev) m (f.readDelta n st out prev') m' := by
  have hI : IR st (ctrlLen n) m m' := ⟨⟨hm, hm'⟩, hc⟩
  have hT := (mask (I := IR st (ctrlLen n)) fun _ _ h => h.1).tab
  have hC : CtlI (IR st (ctrlLen n)) st ((n + 3) / 4) := fun k hk _ _ h => h.2 k hk
  have h1 := sameUnit (lk_readAllDeltaScalar (p := prev) (q := prev') hn hT hC (IR.free ho hne)) hI
  have h2 := sameUnit (lk_readAllDeltaFast (p := prev) (q := prev') hn hT hC (IR.free ho hne)) hI
  cases f with
  | scalar => exact h1
  | fast => exact h2
  | auto c =>
    have : (∀ p, readAllDelta c n st out p = readAllDeltaFast n st out p) ∨ (∀ p, readAllDelta c n st out p = readAllDeltaScalar n st out p) := by
      rcases c with ⟨a, b, d⟩; cases a <;> cases b <;> cases d <;> simp [readAllDelta, decodeMode, onAmd64]
    simp only [Fn.readDelta]
    rcases this with e | e <;> rw [e, e]
    · exact h2
    · exact h1

/-! ## Writers -/

private def IW (inn : U32s) (n : Nat) (x y : Nat → U32) (m m' : Mem) : Prop :=
  Tabs m m' ∧ ∀ k < n, wordAt m inn.blk (inn.off + 4 * k) = x k ∧ wordAt m' inn.blk (inn.off + 4 * k) = y k

private theorem IW.free {inn : U32s} {n : Nat} {x y : Nat → U32} {b : Block} (hb : b.isConst = false) (hne : b ≠ inn.blk) :
    Free (IW inn n x y) b := by
  intro m m' o v w h
  refine ⟨h.1.set hb o v w, fun k hk => ?_⟩
  obtain ⟨h1, h2⟩ := h.2 k hk
  have : ∀ (m : Mem) (v : Byte), wordAt (m.set ⟨b, o⟩ v) inn.blk (inn.off + 4 * k) = wordAt m inn.blk (inn.off + 4 * k) := by
    intro m v
    refine wordAt_congr fun j _ => ?_
    simp only [Mem.set, Ptr.mk.injEq, Ne.symm hne, false_and, if_false]
  exact ⟨by rw [this, h1], by rw [this, h2]⟩

private theorem IW.start {inn : U32s} {n : Nat} {m m' : Mem} (h : Tabs m m') : IW inn n (fn (wordsN m inn n)) (fn (wordsN m' inn n)) m m' :=
  ⟨h, fun k hk => ⟨(wordsN_fn m inn n k hk).symm, (wordsN_fn m' inn n k hk).symm⟩⟩

private theorem lens {xs ys : List U32} {n : Nat} (hx : xs.length = n) (hy : ys.length = n) (h : xs.map byteLen = ys.map byteLen) :
    ∀ k < n, byteLen (fn xs k) = byteLen (fn ys k) := by
  intro k hk
  have := congrArg (·[k]?) h
  simp only [List.getElem?_map] at this
  rw [List.getElem?_eq_getElem (by omega), List.getElem?_eq_getElem (by omega)] at this
  simpa [fn, List.getD_eq_getElem?_getD, hx, hy, hk] using this

private theorem dlens {m m' : Mem} {inn : U32s} {n : Nat} {p q : U32}
    (h : (delta p (wordsN m inn n)).map byteLen = (delta q (wordsN m' inn n)).map byteLen) :
    DL n p q (fn (wordsN m inn n)) (fn (wordsN m' inn n)) := by
  constructor
  intro k hk
  have l : ∀ m, (wordsN m inn n).length = n := fun m => wordsN_length m inn n
  have := lens (by rw [delta_length, l]) (by rw [delta_length, l]) h k hk
  rw [delta_fn _ _ _ (by rw [l]; exact hk), delta_fn _ _ _ (by rw [l]; exact hk)] at this
  rw [dif_eq, dif_eq]
  exact this

/-- C66, writers: whatever the numbers, the addresses are those of any other numbers of the same byte lengths, and so is
the slice returned. -/
theorem C66_write (f : Fn) {fresh : Block} {inn : U32s} {m m' : Mem} (h : WriterPre fresh inn m) (h' : WriterPre fresh inn m')
    (hl : (wordsOf m inn).map byteLen = (wordsOf m' inn).map byteLen) :
    SameAccess (f.write fresh inn) m (f.write fresh inn) m' := by
  have hn : inn.len < 2 ^ 61 := by have := h.valid.len_le; have := h.valid.small; omega
  have hM := mask (I := IW inn inn.len (fn (wordsOf m inn)) (fn (wordsOf m' inn))) fun _ _ h => h.1
  have hb := IW.free (n := inn.len) (x := fn (wordsOf m inn)) (y := fn (wordsOf m' inn)) h.fresh_heap h.fresh_ne
  have hL := lens (wordsOf_length m inn) (wordsOf_length m' inn) hl
  have h1 := sameAccess (lk_writeAllScalar hn hM.tab (fun _ _ h => h.2) hb hL) (IW.start ⟨h.tables, h'.tables⟩)
  have h2 := sameAccess (lk_writeAllFast hn hM (fun _ _ h => h.2) hb hL) (IW.start ⟨h.tables, h'.tables⟩)
  cases f with
  | scalar => exact h1
  | fast => exact h2
  | auto c =>
    simp only [Fn.write]
    rcases writeAll_cases c fresh inn with e | e <;> rw [e]
    · exact h2
    · exact h1

/-- C66, writers of differences: only the byte lengths of the differences show. -/
theorem C66_writeDelta (f : Fn) {fresh : Block} {inn : U32s} {m m' : Mem} (prev prev' : U32) (h : WriterPre fresh inn m)
    (h' : WriterPre fresh inn m') (hl : (delta prev (wordsOf m inn)).map byteLen = (delta prev' (wordsOf m' inn)).map byteLen) :
    SameAccess (f.writeDelta fresh inn prev) m (f.writeDelta fresh inn prev') m' := by
  have hn : inn.len < 2 ^ 61 := by have := h.valid.len_le; have := h.valid.small; omega
  have hM := mask (I := IW inn inn.len (fn (wordsOf m inn)) (fn (wordsOf m' inn))) fun _ _ h => h.1
  have hb := IW.free (n := inn.len) (x := fn (wordsOf m inn)) (y := fn (wordsOf m' inn)) h.fresh_heap h.fresh_ne
  have hL := dlens hl
  have h1 := sameAccess (lk_writeAllDeltaScalar hn hM.tab (fun _ _ h => h.2) hb hL) (IW.start ⟨h.tables, h'.tables⟩)
  have h2 := sameAccess (lk_writeAllDeltaFast hn hM (fun _ _ h => h.2) hb hL) (IW.start ⟨h.tables, h'.tables⟩)
  cases f with
  | scalar => exact h1
  | fast => exact h2
  | auto c =>
    have : (∀ p, writeAllDelta c fresh inn p = writeAllDeltaFast fresh inn p) ∨
        (∀ p, writeAllDelta c fresh inn p = writeAllDeltaScalar fresh inn p) := by
      rcases c with ⟨a, b, d⟩; cases a <;> cases b <;> cases d <;> simp [writeAllDelta, encodeMode, onAmd64]
    simp only [Fn.writeDelta]
    rcases this with e | e <;> rw [e, e]
    · exact h2
    · exact h1

/-! ## Blocks -/

private theorem Tabs.free {b : Block} (hb : b.isConst = false) : Free Tabs b := fun _ _ o v w h => h.set hb o v w

/-- C66, decoders of eight numbers: for a control word, every content of the slices gives the same addresses. -/
theorem C66_get8 (f : Fn) {inn : Bytes} {out : U32s} (ctrl : U16) {m m' : Mem} (hm : TablesLoaded m) (hm' : TablesLoaded m')
    (ho : out.blk.isConst = false) : SameAccess (f.get8 inn out ctrl) m (f.get8 inn out ctrl) m' := by
  have hT := (mask (I := Tabs) fun _ _ h => h).tab
  have h1 := sameUnit (lk_get8 (inn := inn) hT (Tabs.free ho) ctrl) ⟨hm, hm'⟩
  have h2 := sameUnit (lk_get8F (inn := inn) hT (Tabs.free ho) ctrl) ⟨hm, hm'⟩
  cases f with
  | scalar => exact h1
  | fast => exact h2
  | auto c =>
    simp only [Fn.get8]
    rcases get8uint32_cases c inn out ctrl with e | e <;> rw [e]
    · exact h2
    · exact h1

theorem C66_get8Delta (f : Fn) {inn : Bytes} {out : U32s} (ctrl : U16) (prev prev' : U32) {m m' : Mem} (hm : TablesLoaded m)
    (hm' : TablesLoaded m') (ho : out.blk.isConst = false) :
    SameAccess (f.get8Delta inn out ctrl prev) m (f.get8Delta inn out ctrl prev') m' := by
  have hT := (mask (I := Tabs) fun _ _ h => h).tab
  have h1 := sameUnit (lk_get8D (inn := inn) hT (Tabs.free ho) ctrl prev prev') ⟨hm, hm'⟩
  have h2 := sameUnit (lk_get8DF (inn := inn) hT (Tabs.free ho) ctrl prev prev') ⟨hm, hm'⟩
  cases f with
  | scalar => exact h1
  | fast => exact h2
  | auto c =>
    have : (∀ p, get8uint32Delta c inn out ctrl p = get8uint32DeltaFast inn out ctrl p) ∨
        (∀ p, get8uint32Delta c inn out ctrl p = get8uint32DeltaScalar inn out ctrl p) := by
      rcases c with ⟨a, b, d⟩; cases a <;> cases b <;> cases d <;> simp [get8uint32Delta, decodeMode, onAmd64]
    simp only [Fn.get8Delta]
    rcases this with e | e <;> rw [e, e]
    · exact h2
    · exact h1

/-- C66, encoders of eight numbers. -/
theorem C66_put8 (f : Fn) {inn : U32s} {out : Bytes} {m m' : Mem} (hm : TablesLoaded m) (hm' : TablesLoaded m')
    (ho : out.blk.isConst = false) (hne : out.blk ≠ inn.blk) (hl : (wordsN m inn 8).map byteLen = (wordsN m' inn 8).map byteLen) :
    SameAccess (f.put8 inn out) m (f.put8 inn out) m' := by
  have hM := mask (I := IW inn 8 (fn (wordsN m inn 8)) (fn (wordsN m' inn 8))) fun _ _ h => h.1
  have hb := IW.free (n := 8) (x := fn (wordsN m inn 8)) (y := fn (wordsN m' inn 8)) ho hne
  have hL := lens (wordsN_length m inn 8) (wordsN_length m' inn 8) hl
  have h1 := sameAccess (lk_put8 (e := 0) hM.tab (fun _ _ h => h.2) ⟨rfl, rfl⟩ hb (Nat.le_refl 8) hL) (IW.start ⟨hm, hm'⟩)
  have h2 := sameAccess (lk_put8F (e := 0) hM (fun _ _ h => h.2) ⟨rfl, rfl⟩ hb (Nat.le_refl 8) hL) (IW.start ⟨hm, hm'⟩)
  cases f with
  | scalar => exact h1
  | fast => exact h2
  | auto c =>
    simp only [Fn.put8]
    rcases put8uint32_cases c inn out with e | e <;> rw [e]
    · exact h2
    · exact h1

theorem C66_put8Delta (f : Fn) {inn : U32s} {out : Bytes} {m m' : Mem} (prev prev' : U32) (hm : TablesLoaded m) (hm' : TablesLoaded m')
    (ho : out.blk.isConst = false) (hne : out.blk ≠ inn.blk)
    (hl : (delta prev (wordsN m inn 8)).map byteLen = (delta prev' (wordsN m' inn 8)).map byteLen) :
    SameAccess (f.put8Delta inn out prev) m (f.put8Delta inn out prev') m' := by
  have hM := mask (I := IW inn 8 (fn (wordsN m inn 8)) (fn (wordsN m' inn 8))) fun _ _ h => h.1
  have hb := IW.free (n := 8) (x := fn (wordsN m inn 8)) (y := fn (wordsN m' inn 8)) ho hne
  have hL := dlens hl
  have h1 := sameAccess (lk_put8D (e := 0) hM.tab (fun _ _ h => h.2) ⟨rfl, rfl⟩ hb (Nat.le_refl 8) hL) (IW.start ⟨hm, hm'⟩)
  have h2 := sameAccess (lk_put8DF (e := 0) hM (fun _ _ h => h.2) ⟨rfl, rfl⟩ hb (Nat.le_refl 8) hL) (IW.start ⟨hm, hm'⟩)
  cases f with
  | scalar => exact h1
  | fast => exact h2
  | auto c =>
    have : (∀ p, put8uint32Delta c inn out p = put8uint32DeltaFast inn out p) ∨
        (∀ p, put8uint32Delta c inn out p = put8uint32DeltaScalar inn out p) := by
      rcases c with ⟨a, b, d⟩; cases a <;> cases b <;> cases d <;> simp [put8uint32Delta, encodeMode, onAmd64]
    simp only [Fn.put8Delta]
    rcases this with e | e <;> rw [e, e]
    · exact h2
    · exact h1

/-- C66, decoders of up to four numbers; `GetUint32Scalar` also returns the same number of bytes. -/
theorem C66_get4 {inn : Bytes} {out : U32s} (ctrl : Byte) (count : Int) (prev prev' : U32) {m m' : Mem} (hm : TablesLoaded m)
    (hm' : TablesLoaded m') (ho : out.blk.isConst = false) :
    SameAccess (get4uint32Scalar inn out ctrl) m (get4uint32Scalar inn out ctrl) m' ∧
    SameAccess (get4uint32DeltaScalar inn out ctrl prev) m (get4uint32DeltaScalar inn out ctrl prev') m' ∧
    SameAccess (getUint32Scalar inn out ctrl count) m (getUint32Scalar inn out ctrl count) m' ∧
    SameAccess (getUint32DeltaScalar inn out ctrl count prev) m (getUint32DeltaScalar inn out ctrl count prev') m' := by
  have hT := (mask (I := Tabs) fun _ _ h => h).tab
  exact ⟨sameUnit (lk_get4 hT (Tabs.free ho) ctrl) ⟨hm, hm'⟩, sameUnit (lk_get4D hT (Tabs.free ho) ctrl prev prev') ⟨hm, hm'⟩,
    sameAccess (lk_getN (Tabs.free ho) ctrl count) ⟨hm, hm'⟩, sameAccess (lk_getND (Tabs.free ho) ctrl count prev prev') ⟨hm, hm'⟩⟩

/-- C66, encoders of up to four numbers. -/
theorem C66_put4 {inn : U32s} {out : Bytes} {m m' : Mem} (count : Nat) (hm : TablesLoaded m) (hm' : TablesLoaded m')
    (ho : out.blk.isConst = false) (hne : out.blk ≠ inn.blk) :
    ((wordsN m inn 4).map byteLen = (wordsN m' inn 4).map byteLen →
      SameAccess (put4uint32Scalar inn out) m (put4uint32Scalar inn out) m') ∧
    ((wordsN m inn (min count 4)).map byteLen = (wordsN m' inn (min count 4)).map byteLen →
      SameAccess (putUint32Scalar inn out count) m (putUint32Scalar inn out count) m') := by
  refine ⟨fun hl => ?_, fun hl => ?_⟩
  · have hb := IW.free (n := 4) (x := fn (wordsN m inn 4)) (y := fn (wordsN m' inn 4)) ho hne
    exact sameAccess (lk_put4 (e := 0) (fun _ _ h => h.2) ⟨rfl, rfl⟩ hb (Nat.le_refl 4)
      (lens (wordsN_length _ _ _) (wordsN_length _ _ _) hl)) (IW.start ⟨hm, hm'⟩)
  · have hb := IW.free (n := min count 4) (x := fn (wordsN m inn (min count 4))) (y := fn (wordsN m' inn (min count 4))) ho hne
    exact sameAccess (lk_putN (e := 0) (fun _ _ h => h.2) ⟨rfl, rfl⟩ hb (by omega)
      (lens (wordsN_length _ _ _) (wordsN_length _ _ _) hl)) (IW.start ⟨hm, hm'⟩)

theorem C66_put4Delta {inn : U32s} {out : Bytes} {m m' : Mem} (count : Nat) (prev prev' : U32) (hm : TablesLoaded m)
    (hm' : TablesLoaded m') (ho : out.blk.isConst = false) (hne : out.blk ≠ inn.blk) :
    ((delta prev (wordsN m inn 4)).map byteLen = (delta prev' (wordsN m' inn 4)).map byteLen →
      SameAccess (put4uint32DeltaScalar inn out prev) m (put4uint32DeltaScalar inn out prev') m') ∧
    ((delta prev (wordsN m inn (min count 4))).map byteLen = (delta prev' (wordsN m' inn (min count 4))).map byteLen →
      SameAccess (putUint32DeltaScalar inn out count prev) m (putUint32DeltaScalar inn out count prev') m') := by
  refine ⟨fun hl => ?_, fun hl => ?_⟩
  · have hb := IW.free (n := 4) (x := fn (wordsN m inn 4)) (y := fn (wordsN m' inn 4)) ho hne
    exact sameAccess (lk_put4D (e := 0) (p := prev) (q := prev') (fun _ _ h => h.2) ⟨rfl, rfl⟩ hb (Nat.le_refl 4) (dlens hl))
      (IW.start ⟨hm, hm'⟩)
  · have hb := IW.free (n := min count 4) (x := fn (wordsN m inn (min count 4))) (y := fn (wordsN m' inn (min count 4))) ho hne
    exact sameAccess (lk_putND (e := 0) (p := prev) (q := prev') (fun _ _ h => h.2) ⟨rfl, rfl⟩ hb (by omega) (dlens hl))
      (IW.start ⟨hm, hm'⟩)

/-! ## Examples -/

/-- Numbers of the same byte lengths as `exNums`, all of them different. -/
def exOther : List U32 :=
  [1, 254, 257, 65534, 65537, 16777214, 16777217, 4294967294, 2, 3, 4, 1001, 6, 70001, 8, 9, 301]

theorem exOtherWriter : WriterPre (.heap 7) exIn (memWith exOther []) :=
  ⟨memWith_tables _ _, ⟨by decide, rfl, by decide⟩, rfl, by decide⟩

example := C66_write .fast exWriter exOtherWriter (by decide +kernel)
example := C66_writeDelta .scalar 0 1 exWriter exOtherWriter (by decide +kernel)
example := C66_put8 .fast (inn := exIn) (out := ⟨.heap 3, 0, 32, 32⟩) exWriter.tables exOtherWriter.tables rfl (by decide) (by decide +kernel)

/-- Two streams with the same control bytes, every data byte different; the call is cut short and panics in both. -/
example := C66_read .scalar (n := 19) (st := { exSt with len := 33 }) (out := exOut) (m := exRMem)
  (m' := memWith [] (exStream.take 5 ++ (exStream.drop 5).map (· + 1))) (by decide) exReader.tables (memWith_tables _ _) rfl (by decide)
  (by decide +kernel)

-- The lengths do show: one number longer by a byte makes one more store.
example : (trace (put4uint32Scalar ⟨.heap 0, 0, 4, 4⟩ ⟨.heap 3, 0, 16, 16⟩) (memWith [255, 1, 1, 1] [])).length = 24 ∧
    (trace (put4uint32Scalar ⟨.heap 0, 0, 4, 4⟩ ⟨.heap 3, 0, 16, 16⟩) (memWith [256, 1, 1, 1] [])).length = 25 := by decide +kernel

end SVB.Props
