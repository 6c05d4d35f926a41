import Verif.Proofs.FlatCall
import Verif.Props.Safety

/-!
# C69: the assembly on a machine with flat memory

`Model/Flat.lean` is a machine whose addresses are 64-bit numbers, whose registers hold bits and nothing else, and whose arguments
are bytes on the stack.  On it the four assembly functions do what the model of `Model/Asm.lean` says (`C69_refines_*`), so they
encode and decode eight numbers (the other theorems, which do not mention that model's memory).
-/

set_option autoImplicit false

namespace SVB.Props
open Asm Flat Spec

/-! ## The flat machine does what the model does -/

/-- The layout has a place for every byte a run touches. -/
structure Covers {α : Type} (L : Layout) (p : Prog α) (m : Mem) : Prop where
  loads : ∀ q, Event.rd q ∈ trace p m → L.R q
  stores : ∀ q, Event.wr q ∈ trace p m → L.W q

theorem Covers.wp {α : Type} {L : Layout} {p : Prog α} {m m' : Mem} {r : α} (h : Covers L p m) (hr : run p m = (.ok r, m')) :
    SVB.wp L.ctx p m fun a m'' => a = r ∧ m'' = m' := by
  rw [wp_iff]
  refine ⟨fun e he => ?_, by rw [hr]; exact ⟨rfl, rfl⟩⟩
  cases e with
  | rd q => exact h.loads q he
  | wr q => exact h.stores q he

/-- C69: `Put8uint32FastAsm`, whatever the slices.  After the instructions the result's two bytes and all bytes of the layout
are as the model says, and nothing else has changed. -/
theorem C69_refines_put8 {inn : U32s} {out : Bytes} {m : Mem} {L : Layout} {t : Mach} (h : AnyArgs inn out m)
    (hp : Placed L (put8Args inn out) 64 2 t.fp) (hc : Called L (put8Args inn out) m t)
    (hv : Covers L (put8uint32Fast inn out) m) :
    ∃ c m', run (put8uint32Fast inn out) m = (.ok c, m') ∧
      readLE (fexec t put8uint32FastText).mem (t.arg 64) 2 = c ∧
      (∀ p, L.dom p → (fexec t put8uint32FastText).mem (L.addr p) = m' p) ∧
      Kept L 64 2 t (fexec t put8uint32FastText) := by
  obtain ⟨c, m', hr⟩ := C38_put8Fast h
  obtain ⟨_, _, ⟨rfl, rfl⟩, h'⟩ := refine_result (by decide +kernel) (by decide +kernel) hp hc (hv.wp hr)
  exact ⟨_, _, hr, h'⟩

/-- C69: `Put8uint32DeltaFastAsm`. -/
theorem C69_refines_put8Delta {inn : U32s} {out : Bytes} {prev : U32} {m : Mem} {L : Layout} {t : Mach} (h : AnyArgs inn out m)
    (hp : Placed L (put8DeltaArgs inn out prev) 72 2 t.fp) (hc : Called L (put8DeltaArgs inn out prev) m t)
    (hv : Covers L (put8uint32DeltaFast inn out prev) m) :
    ∃ c m', run (put8uint32DeltaFast inn out prev) m = (.ok c, m') ∧
      readLE (fexec t put8uint32DeltaFastText).mem (t.arg 72) 2 = c ∧
      (∀ p, L.dom p → (fexec t put8uint32DeltaFastText).mem (L.addr p) = m' p) ∧
      Kept L 72 2 t (fexec t put8uint32DeltaFastText) := by
  obtain ⟨c, m', hr⟩ := C38_put8DeltaFast prev h
  obtain ⟨_, _, ⟨rfl, rfl⟩, h'⟩ := refine_result (by decide +kernel) (by decide +kernel) hp hc (hv.wp hr)
  exact ⟨_, _, hr, h'⟩

/-- C69: `Get8uint32FastAsm`. -/
theorem C69_refines_get8 {inn : Bytes} {out : U32s} {ctrl : U16} {m : Mem} {L : Layout} {t : Mach} (h : AnyArgs inn out m)
    (hp : Placed L (get8Args inn out ctrl) 72 0 t.fp) (hc : Called L (get8Args inn out ctrl) m t)
    (hv : Covers L (get8uint32Fast inn out ctrl) m) :
    ∃ m', run (get8uint32Fast inn out ctrl) m = (.ok (), m') ∧
      (∀ p, L.dom p → (fexec t get8uint32FastText).mem (L.addr p) = m' p) ∧
      Kept L 72 0 t (fexec t get8uint32FastText) := by
  obtain ⟨m', hr⟩ := C38_get8Fast ctrl h
  obtain ⟨_, ⟨-, rfl⟩, h'⟩ := refine_unit (by decide +kernel) (by decide +kernel) hp hc (hv.wp hr)
  exact ⟨_, hr, h'⟩

/-- C69: `Get8uint32DeltaFastAsm`. -/
theorem C69_refines_get8Delta {inn : Bytes} {out : U32s} {ctrl : U16} {prev : U32} {m : Mem} {L : Layout} {t : Mach}
    (h : AnyArgs inn out m) (hp : Placed L (get8DeltaArgs inn out ctrl prev) 72 0 t.fp)
    (hc : Called L (get8DeltaArgs inn out ctrl prev) m t) (hv : Covers L (get8uint32DeltaFast inn out ctrl prev) m) :
    ∃ m', run (get8uint32DeltaFast inn out ctrl prev) m = (.ok (), m') ∧
      (∀ p, L.dom p → (fexec t get8uint32DeltaFastText).mem (L.addr p) = m' p) ∧
      Kept L 72 0 t (fexec t get8uint32DeltaFastText) := by
  obtain ⟨m', hr⟩ := C38_get8DeltaFast ctrl prev h
  obtain ⟨_, ⟨-, rfl⟩, h'⟩ := refine_unit (by decide +kernel) (by decide +kernel) hp hc (hv.wp hr)
  exact ⟨_, hr, h'⟩

/-! ## What the functions do, in terms of the machine -/

/-- C69: on a machine with the constants loaded, the address of the numbers at `in_base+0(FP)`, that of the output at
`outBytes_base+24(FP)` and the addresses of the tables at `shuffle+48(FP)` and `lenTable+56(FP)`: after the instructions of
`Put8uint32FastAsm` the control of the eight numbers is at `r+64(FP)`, their data bytes are at the output, and of the rest of memory
only the 32 bytes at the output can have changed.  The registers may have held anything. -/
theorem C69_put8 (t : Mach) (hl : Loaded t) (h48 : t.ptrArg 48 = t.sb .encShuf) (h56 : t.ptrArg 56 = t.sb .ctrlLen)
    (ha : Apart (regions t 66 (t.ptrArg 0) (t.ptrArg 24))) :
    readLE (fexec t put8uint32FastText).mem (t.arg 64) 2 = ctrl16 (words t.mem (t.ptrArg 0) 8) ∧
    bytes (fexec t put8uint32FastText).mem (t.ptrArg 24) (dataBytes (words t.mem (t.ptrArg 0) 8)).length =
      dataBytes (words t.mem (t.ptrArg 0) 8) ∧
    ∀ q, (∀ i < 32, q ≠ t.ptrArg 24 + BitVec.ofNat 64 i) → (∀ k < 2, q ≠ t.arg 64 + BitVec.ofNat 64 k) →
      (fexec t put8uint32FastText).mem q = t.mem q := by
  let inn : U32s := ⟨.heap 0, 0, (readLE t.mem (t.arg 8) 8).toNat, (readLE t.mem (t.arg 16) 8).toNat⟩
  let out : Bytes := ⟨.heap 1, 0, (readLE t.mem (t.arg 32) 8).toNat, (readLE t.mem (t.arg 40) 8).toNat⟩
  have hw : words t.mem (t.ptrArg 0) 8 = wordsN (view t (t.ptrArg 0) (t.ptrArg 24)) inn 8 := Flat.words_of rfl fun _ _ => rfl
  rw [hw]
  obtain ⟨m', hwp, hb⟩ := put8_wp (t := t) (a := t.ptrArg 0) (b := t.ptrArg 24) (inn := inn) (out := out) (tables_view hl _ _)
    rfl rfl rfl rfl
  obtain ⟨_, _, ⟨hc, rfl⟩, h'⟩ := refine_result (by decide +kernel) (by decide +kernel)
    (placed (fr := put8Args inn out) (by decide) (slots_of (by simp [put8Args, sliceArg, slotSize])) ha)
    (called (by
      simp only [put8Args, sliceArg, List.cons_append, List.nil_append, List.forall_mem_cons, Layout.holds]
      refine ⟨(BitVec.add_zero _).symm, ?_, ?_, (BitVec.add_zero _).symm, ?_, ?_, h48.trans (BitVec.add_zero _).symm,
        h56.trans (BitVec.add_zero _).symm, fun _ h => by simp at h⟩ <;> exact (ofNat_toNat64 _).symm)) hwp
  exact enc_done (data_le (wordsN_length _ _ _)) rfl rfl rfl hc hb h'

/-- C69: `Put8uint32DeltaFastAsm`, with the previous number at `prev+48(FP)`. -/
theorem C69_put8Delta (t : Mach) (hl : Loaded t) (h56 : t.ptrArg 56 = t.sb .encShuf) (h64 : t.ptrArg 64 = t.sb .ctrlLen)
    (ha : Apart (regions t 74 (t.ptrArg 0) (t.ptrArg 24))) :
    let ds := delta (readLE t.mem (t.arg 48) 4) (words t.mem (t.ptrArg 0) 8)
    readLE (fexec t put8uint32DeltaFastText).mem (t.arg 72) 2 = ctrl16 ds ∧
    bytes (fexec t put8uint32DeltaFastText).mem (t.ptrArg 24) (dataBytes ds).length = dataBytes ds ∧
    ∀ q, (∀ i < 32, q ≠ t.ptrArg 24 + BitVec.ofNat 64 i) → (∀ k < 2, q ≠ t.arg 72 + BitVec.ofNat 64 k) →
      (fexec t put8uint32DeltaFastText).mem q = t.mem q := by
  intro ds
  let prev : U32 := readLE t.mem (t.arg 48) 4
  let inn : U32s := ⟨.heap 0, 0, (readLE t.mem (t.arg 8) 8).toNat, (readLE t.mem (t.arg 16) 8).toNat⟩
  let out : Bytes := ⟨.heap 1, 0, (readLE t.mem (t.arg 32) 8).toNat, (readLE t.mem (t.arg 40) 8).toNat⟩
  have hw : words t.mem (t.ptrArg 0) 8 = wordsN (view t (t.ptrArg 0) (t.ptrArg 24)) inn 8 := Flat.words_of rfl fun _ _ => rfl
  have hd : ds = delta prev (wordsN (view t (t.ptrArg 0) (t.ptrArg 24)) inn 8) := by rw [← hw]
  rw [hd]
  obtain ⟨m', hwp, hb⟩ := put8Delta_wp (t := t) (a := t.ptrArg 0) (b := t.ptrArg 24) (inn := inn) (out := out) prev
    (tables_view hl _ _) rfl rfl rfl rfl
  obtain ⟨_, _, ⟨hc, rfl⟩, h'⟩ := refine_result (by decide +kernel) (by decide +kernel)
    (placed (fr := put8DeltaArgs inn out prev) (by decide) (slots_of (by simp [put8DeltaArgs, sliceArg, slotSize])) ha)
    (called (by
      simp only [put8DeltaArgs, sliceArg, List.cons_append, List.nil_append, List.forall_mem_cons, Layout.holds]
      refine ⟨(BitVec.add_zero _).symm, ?_, ?_, (BitVec.add_zero _).symm, ?_, ?_, rfl, h56.trans (BitVec.add_zero _).symm,
        h64.trans (BitVec.add_zero _).symm, fun _ h => by simp at h⟩ <;> exact (ofNat_toNat64 _).symm)) hwp
  exact enc_done (data_le (by rw [delta_length, wordsN_length])) rfl rfl rfl hc hb h'

/-- C69: `Get8uint32FastAsm`, with the control at `ctrl+48(FP)` and 32 bytes of data: eight numbers are at the output, and nothing
else has changed. -/
theorem C69_get8 (t : Mach) (hl : Loaded t) (h56 : t.ptrArg 56 = t.sb .decShuf) (h64 : t.ptrArg 64 = t.sb .ctrlLen)
    (ha : Apart (regions t 72 (t.ptrArg 0) (t.ptrArg 24))) :
    some (words (fexec t get8uint32FastText).mem (t.ptrArg 24) 8) =
      readNums (codeLens 8 (readLE t.mem (t.arg 48) 2).toNat) (bytes t.mem (t.ptrArg 0) 32) ∧
    ∀ q, (∀ i < 32, q ≠ t.ptrArg 24 + BitVec.ofNat 64 i) → (fexec t get8uint32FastText).mem q = t.mem q := by
  let ctrl : U16 := readLE t.mem (t.arg 48) 2
  let inn : Bytes := ⟨.heap 0, 0, (readLE t.mem (t.arg 8) 8).toNat, (readLE t.mem (t.arg 16) 8).toNat⟩
  let out : U32s := ⟨.heap 1, 0, (readLE t.mem (t.arg 32) 8).toNat, (readLE t.mem (t.arg 40) 8).toNat⟩
  have hw : bytes t.mem (t.ptrArg 0) 32 = bytesOf (view t (t.ptrArg 0) (t.ptrArg 24)) { inn with len := 32 } :=
    Flat.bytes_of rfl rfl fun _ _ => rfl
  obtain ⟨m', hwp, hb⟩ := get8_wp (t := t) (a := t.ptrArg 0) (b := t.ptrArg 24) (inn := inn) (out := out) ctrl
    (tables_view hl _ _) rfl rfl rfl rfl
  obtain ⟨_, rfl, h'⟩ := refine_unit (by decide +kernel) (by decide +kernel)
    (placed (fr := get8Args inn out ctrl) (by decide) (slots_of (by simp [get8Args, sliceArg, slotSize])) ha)
    (called (by
      simp only [get8Args, sliceArg, List.cons_append, List.nil_append, List.forall_mem_cons, Layout.holds]
      refine ⟨(BitVec.add_zero _).symm, ?_, ?_, (BitVec.add_zero _).symm, ?_, ?_, rfl, h56.trans (BitVec.add_zero _).symm,
        h64.trans (BitVec.add_zero _).symm, fun _ h => by simp at h⟩ <;> exact (ofNat_toNat64 _).symm)) hwp
  have := dec_done (out := out) rfl rfl h'
  rw [hw, this.1]
  exact ⟨hb, this.2⟩

/-- C69: `Get8uint32DeltaFastAsm`, with the control at `ctrl+48(FP)` and the previous number at `prev+52(FP)`. -/
theorem C69_get8Delta (t : Mach) (hl : Loaded t) (h56 : t.ptrArg 56 = t.sb .decShuf) (h64 : t.ptrArg 64 = t.sb .ctrlLen)
    (ha : Apart (regions t 72 (t.ptrArg 0) (t.ptrArg 24))) :
    some (words (fexec t get8uint32DeltaFastText).mem (t.ptrArg 24) 8) =
      (readNums (codeLens 8 (readLE t.mem (t.arg 48) 2).toNat) (bytes t.mem (t.ptrArg 0) 32)).map
        (undelta (readLE t.mem (t.arg 52) 4)) ∧
    ∀ q, (∀ i < 32, q ≠ t.ptrArg 24 + BitVec.ofNat 64 i) → (fexec t get8uint32DeltaFastText).mem q = t.mem q := by
  let ctrl : U16 := readLE t.mem (t.arg 48) 2
  let prev : U32 := readLE t.mem (t.arg 52) 4
  let inn : Bytes := ⟨.heap 0, 0, (readLE t.mem (t.arg 8) 8).toNat, (readLE t.mem (t.arg 16) 8).toNat⟩
  let out : U32s := ⟨.heap 1, 0, (readLE t.mem (t.arg 32) 8).toNat, (readLE t.mem (t.arg 40) 8).toNat⟩
  have hw : bytes t.mem (t.ptrArg 0) 32 = bytesOf (view t (t.ptrArg 0) (t.ptrArg 24)) { inn with len := 32 } :=
    Flat.bytes_of rfl rfl fun _ _ => rfl
  obtain ⟨m', hwp, hb⟩ := get8Delta_wp (t := t) (a := t.ptrArg 0) (b := t.ptrArg 24) (inn := inn) (out := out) ctrl prev
    (tables_view hl _ _) rfl rfl rfl rfl
  obtain ⟨_, rfl, h'⟩ := refine_unit (by decide +kernel) (by decide +kernel)
    (placed (fr := get8DeltaArgs inn out ctrl prev) (by decide) (slots_of (by simp [get8DeltaArgs, sliceArg, slotSize])) ha)
    (called (by
      simp only [get8DeltaArgs, sliceArg, List.cons_append, List.nil_append, List.forall_mem_cons, Layout.holds]
      refine ⟨(BitVec.add_zero _).symm, ?_, ?_, (BitVec.add_zero _).symm, ?_, ?_, rfl, rfl, h56.trans (BitVec.add_zero _).symm,
        h64.trans (BitVec.add_zero _).symm, fun _ h => by simp at h⟩ <;> exact (ofNat_toNat64 _).symm)) hwp
  have := dec_done (out := out) rfl rfl h'
  rw [hw, this.1]
  exact ⟨hb, this.2⟩

/-! ## A machine -/

/-- Nine pieces of 64 KiB. -/
def exSb : Block → Addr
  | .encShuf => 0x30000
  | .decShuf => 0x40000
  | .ctrlLen => 0x50000
  | .numLen => 0x60000
  | .mask0101 => 0x70000
  | .mask7F00 => 0x80000
  | .heap _ => 0

/-- Byte `o` of piece `n`. -/
def exByte (args inn : List Byte) (n o : Nat) : Byte :=
  match n with
  | 1 => inn.getD o 0
  | 2 => 0xee
  | 3 => initMem ⟨.encShuf, o⟩
  | 4 => initMem ⟨.decShuf, o⟩
  | 5 => initMem ⟨.ctrlLen, o⟩
  | 6 => initMem ⟨.numLen, o⟩
  | 7 => initMem ⟨.mask0101, o⟩
  | 8 => initMem ⟨.mask7F00, o⟩
  | 9 => args.getD o 0
  | _ => 0

/-- Arguments at 0x90000, bytes to read at 0x10000, output (of 0xee) at 0x20000; 0xdeadbeef… in the registers. -/
def exMach (args inn : List Byte) : Mach where
  gp _ := 0xdeadbeefdeadbeef
  y _ := BitVec.allOnes 256
  fp := 0x90000
  sb := exSb
  mem q := exByte args inn (q.toNat / 65536) (q.toNat % 65536)

def le8 (n : Nat) : List Byte := (List.range 8).map fun i => BitVec.ofNat 8 (n / 256 ^ i)

/-- `in`, `out`. -/
def exSlices : List Byte := le8 0x10000 ++ le8 8 ++ le8 8 ++ le8 0x20000 ++ le8 32 ++ le8 32
def exFlatNums : List Byte := ([1, 300, 70000, 0xffffffff, 0, 255, 256, 0x1000000] : List U32).flatMap fun x =>
  (List.range 4).map fun i => x.extractLsb' (8 * i) 8

def exPut8 : Mach := exMach (exSlices ++ le8 0x30000 ++ le8 0x50000) exFlatNums
def exPut8Delta : Mach := exMach (exSlices ++ le8 5 ++ le8 0x30000 ++ le8 0x50000) exFlatNums
def exGet8 : Mach := exMach (exSlices ++ le8 0xe41b ++ le8 0x40000 ++ le8 0x50000) ((List.range 32).map (BitVec.ofNat 8))
def exGet8Delta : Mach := exMach (exSlices ++ le8 (0xe41b + 2 ^ 32 * 7) ++ le8 0x40000 ++ le8 0x50000)
  ((List.range 32).map (BitVec.ofNat 8))

theorem exMach_at (args inn : List Byte) (n o : Nat) (hn : n < 16) (ho : o < 65536) :
    (exMach args inn).mem (BitVec.ofNat 64 (n * 65536) + BitVec.ofNat 64 o) = exByte args inn n o := by
  have h : (BitVec.ofNat 64 (n * 65536) + BitVec.ofNat 64 o).toNat = n * 65536 + o := by
    rw [BitVec.toNat_add, BitVec.toNat_ofNat, BitVec.toNat_ofNat]; omega
  show exByte args inn _ _ = _
  rw [h, show (n * 65536 + o) / 65536 = n by omega, show (n * 65536 + o) % 65536 = o by omega]

theorem exMach_loaded (args inn : List Byte) : Loaded (exMach args inn) where
  encShuf c hc j hj := (exMach_at args inn 3 (16 * c + j) (by omega) (by omega)).trans (initMem_tables.encShuf c hc j hj)
  decShuf c hc j hj := (exMach_at args inn 4 (16 * c + j) (by omega) (by omega)).trans (initMem_tables.decShuf c hc j hj)
  numLen c hc j hj := (exMach_at args inn 6 (4 * c + j) (by omega) (by omega)).trans (initMem_tables.numLen c hc j hj)
  ctrlLen c hc := (exMach_at args inn 5 (c) (by omega) (by omega)).trans (initMem_tables.ctrlLen c hc)
  mask0101 := ⟨(exMach_at args inn 7 0 (by omega) (by omega)).trans initMem_tables.mask0101.1,
    (exMach_at args inn 7 1 (by omega) (by omega)).trans initMem_tables.mask0101.2⟩
  mask7F00 := ⟨(exMach_at args inn 8 0 (by omega) (by omega)).trans initMem_tables.mask7F00.1,
    (exMach_at args inn 8 1 (by omega) (by omega)).trans initMem_tables.mask7F00.2⟩

theorem apart_of {rs : List (Addr × Nat)} (h : rs.Pairwise fun r s =>
    (r.1.toNat + r.2 ≤ s.1.toNat ∨ s.1.toNat + s.2 ≤ r.1.toNat) ∧ r.1.toNat + r.2 ≤ 2 ^ 64 ∧ s.1.toNat + s.2 ≤ 2 ^ 64) :
    Apart rs := h.imp fun {r s} ⟨h1, h2, h3⟩ i hi j hj he => by
  have := congrArg BitVec.toNat he
  rw [BitVec.toNat_add, BitVec.toNat_add, BitVec.toNat_ofNat, BitVec.toNat_ofNat] at this
  omega

example := C69_put8 exPut8 (exMach_loaded _ _) (by decide +kernel) (by decide +kernel) (apart_of (by decide +kernel))
example := C69_put8Delta exPut8Delta (exMach_loaded _ _) (by decide +kernel) (by decide +kernel) (apart_of (by decide +kernel))
example := C69_get8 exGet8 (exMach_loaded _ _) (by decide +kernel) (by decide +kernel) (apart_of (by decide +kernel))
example := C69_get8Delta exGet8Delta (exMach_loaded _ _) (by decide +kernel) (by decide +kernel) (apart_of (by decide +kernel))

/-- What the machine really computes. -/
example : readLE (fexec exPut8 put8uint32FastText).mem (exPut8.arg 64) 2 = 0xd0e4 ∧
    bytes (fexec exPut8 put8uint32FastText).mem 0x20000 20 =
      [1, 0x2c, 1, 0x70, 0x11, 1, 255, 255, 255, 255, 0, 255, 0, 1, 0, 0, 0, 1, 0, 0] := by decide +kernel

/-- The hypotheses of `C69_refines_put8` are those of a machine like this one. -/
example : Called (lay exPut8 0x10000 0x20000) (put8Args ⟨.heap 0, 0, 8, 8⟩ ⟨.heap 1, 0, 32, 32⟩)
    (view exPut8 0x10000 0x20000) exPut8 ∧
    Placed (lay exPut8 0x10000 0x20000) (put8Args ⟨.heap 0, 0, 8, 8⟩ ⟨.heap 1, 0, 32, 32⟩) 64 2 exPut8.fp :=
  ⟨called (by
    simp only [put8Args, sliceArg, List.cons_append, List.nil_append, List.forall_mem_cons, Layout.holds]
    refine ⟨?_, ?_, ?_, ?_, ?_, ?_, ?_, ?_, fun _ h => by simp at h⟩ <;> decide +kernel),
   placed (by decide) (slots_of (by simp [put8Args, sliceArg, slotSize])) (apart_of (by decide +kernel))⟩

end SVB.Props
