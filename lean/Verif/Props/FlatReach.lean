import Verif.Proofs.FlatReach
import Verif.Props.Flat

/-!
# C74: what the assembly can do in an arbitrary state

Nothing is assumed here: registers, memory, tables, control, lengths and pointers may be anything, and everything may overlap.
-/

set_option autoImplicit false

namespace SVB.Props
open Asm _root_.SVB.Flat Spec

/-- One of the `n` bytes from `a` on. -/
def Near (a : Addr) (n : Nat) (q : Addr) : Prop := ∃ k < n, q = a + BitVec.ofNat 64 k

/-- One of the bytes of these areas, each with its first address and its size. -/
def In (as : List (Addr × Nat)) (q : Addr) : Prop := ∃ a ∈ as, Near a.1 a.2 q

/-! ## How far it reaches -/

/-- Bytes of an area are bytes of a larger one. -/
theorem Near.of {a : Addr} {i n j N : Nat} {q : Addr} (h : Near (a + BitVec.ofNat 64 i) n q) (hj : j ≤ i) (hN : i + n ≤ j + N) :
    Near (a + BitVec.ofNat 64 j) N q := by
  obtain ⟨k, hk, rfl⟩ := h
  exact ⟨i - j + k, by omega, by rw [add_assoc64, add_assoc64]; congr 2; omega⟩

/-- All areas read (or all written) lie in the ones given. -/
def covered (w : Bool) (as : List Area) (spec : List (Org × Nat × Nat)) : Bool :=
  as.all fun a => a.wr != w || spec.any fun s => s.1 = a.org && s.2.1 ≤ a.off && a.off + a.size ≤ s.2.1 + s.2.2

theorem in_of {t : Mach} {w : Bool} {as : List Area} {spec : List (Org × Nat × Nat)} (hc : covered w as spec = true) {q : Addr}
    (h : ∃ a ∈ as, a.has t ((if w then Acc.wr else Acc.rd) q)) :
    In (spec.map fun s => (s.1.addr t + BitVec.ofNat 64 s.2.1, s.2.2)) q := by
  obtain ⟨a, ha, k, hk, he⟩ := h
  have hw : a.wr = w ∧ q = a.org.addr t + BitVec.ofNat 64 (a.off + k) := by
    cases ha' : a.wr <;> cases w <;> rw [ha'] at he <;> simp at he <;> exact ⟨rfl, he⟩
  simp only [covered, List.all_eq_true, Bool.or_eq_true, bne_iff_ne, List.any_eq_true, Bool.and_eq_true, decide_eq_true_eq] at hc
  rcases hc a ha with h | ⟨s, hs, ⟨h1, h2⟩, h3⟩
  · exact absurd hw.1 h
  · refine ⟨_, List.mem_map.2 ⟨s, hs, rfl⟩, ?_⟩
    have : Near (a.org.addr t + BitVec.ofNat 64 a.off) a.size q := ⟨k, hk, by rw [hw.2, add_assoc64]⟩
    rw [h1]; exact this.of h2 h3

/-- The areas as computed from the text. -/
theorem areas_put8 : areas 64 ⟨[], false⟩ put8uint32FastText = some [⟨false, .fp, 0, 8⟩, ⟨false, .ptr 0, 0, 16⟩,
    ⟨false, .ptr 0, 16, 16⟩, ⟨false, .sym .mask0101, 0, 2⟩, ⟨false, .sym .mask7F00, 0, 2⟩, ⟨true, .fp, 64, 2⟩, ⟨false, .fp, 48, 8⟩,
    ⟨false, .ptr 48, 0, 4096⟩, ⟨false, .ptr 48, 0, 4096⟩, ⟨false, .fp, 24, 8⟩, ⟨false, .fp, 56, 8⟩, ⟨false, .ptr 56, 0, 256⟩,
    ⟨true, .ptr 24, 0, 16⟩, ⟨true, .ptr 24, 0, 271⟩] := by decide +kernel
theorem areas_put8Delta : areas 72 ⟨[], false⟩ put8uint32DeltaFastText = some [⟨false, .fp, 0, 8⟩, ⟨false, .ptr 0, 0, 16⟩,
    ⟨false, .ptr 0, 16, 16⟩, ⟨false, .fp, 48, 4⟩, ⟨false, .sym .mask0101, 0, 2⟩, ⟨false, .sym .mask7F00, 0, 2⟩, ⟨true, .fp, 72, 2⟩,
    ⟨false, .fp, 56, 8⟩, ⟨false, .ptr 56, 0, 4096⟩, ⟨false, .ptr 56, 0, 4096⟩, ⟨false, .fp, 24, 8⟩, ⟨false, .fp, 64, 8⟩,
    ⟨false, .ptr 64, 0, 256⟩, ⟨true, .ptr 24, 0, 16⟩, ⟨true, .ptr 24, 0, 271⟩] := by decide +kernel
theorem areas_get8 : areas 72 ⟨[], false⟩ get8uint32FastText = some [⟨false, .fp, 48, 2⟩, ⟨false, .fp, 56, 8⟩, ⟨false, .fp, 0, 8⟩,
    ⟨false, .fp, 64, 8⟩, ⟨false, .ptr 64, 0, 256⟩, ⟨false, .ptr 0, 0, 16⟩, ⟨false, .ptr 0, 0, 271⟩, ⟨false, .ptr 56, 0, 4096⟩,
    ⟨false, .ptr 56, 0, 4096⟩, ⟨false, .fp, 24, 8⟩, ⟨true, .ptr 24, 0, 16⟩, ⟨true, .ptr 24, 16, 16⟩] := by decide +kernel
theorem areas_get8Delta : areas 72 ⟨[], false⟩ get8uint32DeltaFastText = some [⟨false, .fp, 48, 2⟩, ⟨false, .fp, 56, 8⟩,
    ⟨false, .fp, 0, 8⟩, ⟨false, .fp, 64, 8⟩, ⟨false, .ptr 64, 0, 256⟩, ⟨false, .ptr 0, 0, 16⟩, ⟨false, .ptr 0, 0, 271⟩,
    ⟨false, .ptr 56, 0, 4096⟩, ⟨false, .ptr 56, 0, 4096⟩, ⟨false, .fp, 52, 4⟩, ⟨false, .fp, 24, 8⟩, ⟨true, .ptr 24, 0, 16⟩,
    ⟨true, .ptr 24, 16, 16⟩] := by decide +kernel

/-- C74: what `Put8uint32FastAsm` reads: the four pointers among its arguments (never a length or a capacity), 32 bytes at the
numbers, 4096 at `shuffle`, 256 at `lenTable`, and the two masks. -/
theorem C74_put8_reads (t : Mach) (q : Addr) (h : .rd q ∈ ftrace t put8uint32FastText) :
    In [(t.arg 0, 8), (t.arg 24, 8), (t.arg 48, 8), (t.arg 56, 8), (t.ptrArg 0, 32), (t.ptrArg 48, 4096), (t.ptrArg 56, 256), (t.sb .mask0101, 2), (t.sb .mask7F00, 2)] q := by
  have := in_of (w := false) (spec := [(.fp, 0, 8), (.fp, 24, 8), (.fp, 48, 8), (.fp, 56, 8), (.ptr 0, 0, 32), (.ptr 48, 0, 4096), (.ptr 56, 0, 256), (.sym .mask0101, 0, 2), (.sym .mask7F00, 0, 2)])
    (by decide +kernel) (reach_entry t areas_put8 _ h)
  simpa only [List.map, Org.addr, Mach.arg, BitVec.add_zero] using this

/-- C74: what it writes: the result, and 271 bytes from the output on. -/
theorem C74_put8_writes (t : Mach) (q : Addr) (h : .wr q ∈ ftrace t put8uint32FastText) :
    In [(t.arg 64, 2), (t.ptrArg 24, 271)] q := by
  have := in_of (w := true) (spec := [(.fp, 64, 2), (.ptr 24, 0, 271)])
    (by decide +kernel) (reach_entry t areas_put8 _ h)
  simpa only [List.map, Org.addr, Mach.arg, BitVec.add_zero] using this

/-- C74: `Put8uint32DeltaFastAsm`, which also reads `prev`. -/
theorem C74_put8Delta_reads (t : Mach) (q : Addr) (h : .rd q ∈ ftrace t put8uint32DeltaFastText) :
    In [(t.arg 0, 8), (t.arg 24, 8), (t.arg 48, 4), (t.arg 56, 8), (t.arg 64, 8), (t.ptrArg 0, 32), (t.ptrArg 56, 4096), (t.ptrArg 64, 256), (t.sb .mask0101, 2), (t.sb .mask7F00, 2)] q := by
  have := in_of (w := false) (spec := [(.fp, 0, 8), (.fp, 24, 8), (.fp, 48, 4), (.fp, 56, 8), (.fp, 64, 8), (.ptr 0, 0, 32), (.ptr 56, 0, 4096), (.ptr 64, 0, 256), (.sym .mask0101, 0, 2), (.sym .mask7F00, 0, 2)])
    (by decide +kernel) (reach_entry t areas_put8Delta _ h)
  simpa only [List.map, Org.addr, Mach.arg, BitVec.add_zero] using this

theorem C74_put8Delta_writes (t : Mach) (q : Addr) (h : .wr q ∈ ftrace t put8uint32DeltaFastText) :
    In [(t.arg 72, 2), (t.ptrArg 24, 271)] q := by
  have := in_of (w := true) (spec := [(.fp, 72, 2), (.ptr 24, 0, 271)])
    (by decide +kernel) (reach_entry t areas_put8Delta _ h)
  simpa only [List.map, Org.addr, Mach.arg, BitVec.add_zero] using this

/-- C74: `Get8uint32FastAsm` reads the control, four pointers, 271 bytes from the data on, 4096 at `shuffle` and 256 at `lenTable`. -/
theorem C74_get8_reads (t : Mach) (q : Addr) (h : .rd q ∈ ftrace t get8uint32FastText) :
    In [(t.arg 0, 8), (t.arg 24, 8), (t.arg 48, 2), (t.arg 56, 8), (t.arg 64, 8), (t.ptrArg 0, 271), (t.ptrArg 56, 4096), (t.ptrArg 64, 256)] q := by
  have := in_of (w := false) (spec := [(.fp, 0, 8), (.fp, 24, 8), (.fp, 48, 2), (.fp, 56, 8), (.fp, 64, 8), (.ptr 0, 0, 271), (.ptr 56, 0, 4096), (.ptr 64, 0, 256)])
    (by decide +kernel) (reach_entry t areas_get8 _ h)
  simpa only [List.map, Org.addr, Mach.arg, BitVec.add_zero] using this

/-- C74: and writes 32 bytes at the output, no matter what it has read. -/
theorem C74_get8_writes (t : Mach) (q : Addr) (h : .wr q ∈ ftrace t get8uint32FastText) :
    In [(t.ptrArg 24, 32)] q := by
  have := in_of (w := true) (spec := [(.ptr 24, 0, 32)])
    (by decide +kernel) (reach_entry t areas_get8 _ h)
  simpa only [List.map, Org.addr, Mach.arg, BitVec.add_zero] using this

/-- C74: `Get8uint32DeltaFastAsm`. -/
theorem C74_get8Delta_reads (t : Mach) (q : Addr) (h : .rd q ∈ ftrace t get8uint32DeltaFastText) :
    In [(t.arg 0, 8), (t.arg 24, 8), (t.arg 48, 2), (t.arg 52, 4), (t.arg 56, 8), (t.arg 64, 8), (t.ptrArg 0, 271), (t.ptrArg 56, 4096), (t.ptrArg 64, 256)] q := by
  have := in_of (w := false) (spec := [(.fp, 0, 8), (.fp, 24, 8), (.fp, 48, 2), (.fp, 52, 4), (.fp, 56, 8), (.fp, 64, 8), (.ptr 0, 0, 271), (.ptr 56, 0, 4096), (.ptr 64, 0, 256)])
    (by decide +kernel) (reach_entry t areas_get8Delta _ h)
  simpa only [List.map, Org.addr, Mach.arg, BitVec.add_zero] using this

theorem C74_get8Delta_writes (t : Mach) (q : Addr) (h : .wr q ∈ ftrace t get8uint32DeltaFastText) :
    In [(t.ptrArg 24, 32)] q := by
  have := in_of (w := true) (spec := [(.ptr 24, 0, 32)])
    (by decide +kernel) (reach_entry t areas_get8Delta _ h)
  simpa only [List.map, Org.addr, Mach.arg, BitVec.add_zero] using this

/-- C74: so the memory outside does not change. -/
theorem C74_put8_memory (t : Mach) (q : Addr) (ho : ¬ In [(t.arg 64, 2), (t.ptrArg 24, 271)] q) :
    (fexec t put8uint32FastText).mem q = t.mem q :=
  fexec_mem _ t q fun h => ho (C74_put8_writes t q h)
theorem C74_put8Delta_memory (t : Mach) (q : Addr) (ho : ¬ In [(t.arg 72, 2), (t.ptrArg 24, 271)] q) :
    (fexec t put8uint32DeltaFastText).mem q = t.mem q :=
  fexec_mem _ t q fun h => ho (C74_put8Delta_writes t q h)
theorem C74_get8_memory (t : Mach) (q : Addr) (ho : ¬ In [(t.ptrArg 24, 32)] q) : (fexec t get8uint32FastText).mem q = t.mem q :=
  fexec_mem _ t q fun h => ho (C74_get8_writes t q h)
theorem C74_get8Delta_memory (t : Mach) (q : Addr) (ho : ¬ In [(t.ptrArg 24, 32)] q) :
    (fexec t get8uint32DeltaFastText).mem q = t.mem q :=
  fexec_mem _ t q fun h => ho (C74_get8Delta_writes t q h)

/-- A machine whose memory has nothing but ones. -/
def ones : Mach := ⟨fun _ => 0, fun _ => 0, fun _ => 0xff, 0x1000, fun _ => 0x5000⟩

/-- C74: the bound 271 is reached: with a wrong length table the encoder writes, and the decoder reads, 255 bytes too far. -/
theorem C74_reach_tight : ∃ t : Mach,
    Acc.wr (t.ptrArg 24 + BitVec.ofNat 64 270) ∈ ftrace t put8uint32FastText ∧
    Acc.wr (t.ptrArg 24 + BitVec.ofNat 64 270) ∈ ftrace t put8uint32DeltaFastText ∧
    Acc.rd (t.ptrArg 0 + BitVec.ofNat 64 270) ∈ ftrace t get8uint32FastText ∧
    Acc.rd (t.ptrArg 0 + BitVec.ofNat 64 270) ∈ ftrace t get8uint32DeltaFastText :=
  ⟨ones, by decide +kernel, by decide +kernel, by decide +kernel, by decide +kernel⟩

/-! ## Registers -/

/-- The four functions. -/
def routines : List (List Instr) := [put8uint32FastText, put8uint32DeltaFastText, get8uint32FastText, get8uint32DeltaFastText]

/-- C74: what the registers held before the call matters neither for what is touched nor for the memory afterwards. -/
theorem C74_registers_before {is : List Instr} (hi : is ∈ routines) (t t' : Mach) (hm : t.mem = t'.mem) (hf : t.fp = t'.fp)
    (hs : t.sb = t'.sb) : ftrace t is = ftrace t' is ∧ (fexec t is).mem = (fexec t' is).mem := by
  have : ∀ is ∈ routines, defined [] [] [] [] is = true := by decide +kernel
  exact like_exec ⟨hm, hf, hs, fun _ h => by simp at h, fun _ h => by simp at h⟩ (this is hi)

/-- C74: a vector register is left alone, or its upper half is zero afterwards.  So if all upper halves were zero, they are (what
`VZEROUPPER` is for, which the code does without). -/
theorem C74_upper {is : List Instr} (t : Mach) (r : XR) : (fexec t is).y r = t.y r ∨ ((fexec t is).y r).extractLsb' 128 128 = 0 :=
  (upper_exec is t r).symm.imp And.right And.right

/-- C74: the encoders leave `SI` and `DI` alone; the decoders leave `X4`, `X5` alone, and without delta also `X2`, `X3`. -/
theorem C74_registers_kept (t : Mach) :
    (∀ is ∈ [put8uint32FastText, put8uint32DeltaFastText], (fexec t is).gp .SI = t.gp .SI ∧ (fexec t is).gp .DI = t.gp .DI) ∧
    (∀ is ∈ [get8uint32FastText, get8uint32DeltaFastText], (fexec t is).y .X4 = t.y .X4 ∧ (fexec t is).y .X5 = t.y .X5) ∧
    (fexec t get8uint32FastText).y .X2 = t.y .X2 ∧ (fexec t get8uint32FastText).y .X3 = t.y .X3 := by
  have kept : ∀ {is : List Instr} {r : XR}, (∀ i ∈ is, r ∉ i.writesX) → (fexec t is).y r = t.y r := fun {is r} h => by
    rcases upper_exec is t r with ⟨⟨i, hi, hr⟩, -⟩ | ⟨-, he⟩
    · exact absurd hr (h i hi)
    · exact he
  refine ⟨?_, ?_, kept (by decide +kernel), kept (by decide +kernel)⟩
  · simp only [List.forall_mem_cons, List.not_mem_nil, false_implies, implies_true, and_true]
    exact ⟨⟨gp_exec _ _ _ (by decide +kernel), gp_exec _ _ _ (by decide +kernel)⟩, gp_exec _ _ _ (by decide +kernel), gp_exec _ _ _ (by decide +kernel)⟩
  · simp only [List.forall_mem_cons, List.not_mem_nil, false_implies, implies_true, and_true]
    exact ⟨⟨kept (by decide +kernel), kept (by decide +kernel)⟩, kept (by decide +kernel), kept (by decide +kernel)⟩

/-! ## Examples -/

example := C74_put8_memory ones 0x3000 (by unfold In Near; decide +kernel)
example (t : Mach) (g : GP → U64) (y : XR → BitVec 256) :
    (fexec t put8uint32FastText).mem = (fexec { t with gp := g, y := y } put8uint32FastText).mem :=
  (C74_registers_before (is := put8uint32FastText) List.mem_cons_self t { t with gp := g, y := y } rfl rfl rfl).2
/-- The registers do change. -/
example : (fexec exPut8 put8uint32FastText).gp .AX ≠ exPut8.gp .AX ∧ (fexec exGet8 get8uint32FastText).y .X1 ≠ exGet8.y .X1 := by
  decide +kernel
/-- An upper half is cleared. -/
example : (fexec { exGet8 with y := fun _ => -1 } get8uint32FastText).y .X0 ≠ -1 ∧
    (fexec { exGet8 with y := fun _ => -1 } get8uint32FastText).y .X5 = -1 := by decide +kernel

end SVB.Props
