import Verif.Proofs.Blocks

/-! # Properties of the run-time selection: C26 (no stub), C42 (instruction set) -/

set_option autoImplicit false

namespace SVB.Props
open Spec Asm

/-! ## C26: the `_base.go` stubs are never called -/

/-- C26: on every CPU and target the dispatching entry points call the scalar function or, on amd64 only,
the assembly-backed one; the `panic("unreachable")` stubs are not called. -/
theorem C26_no_stub (c : Cpu) :
    (encodeMode c = .fast → c.amd64 = true) ∧ (decodeMode c = .fast → c.amd64 = true) ∧
    (∀ fresh inn, writeAll c fresh inn =
      if encodeMode c = .fast then writeAllFast fresh inn else writeAllScalar fresh inn) ∧
    (∀ fresh inn prev, writeAllDelta c fresh inn prev =
      if encodeMode c = .fast then writeAllDeltaFast fresh inn prev else writeAllDeltaScalar fresh inn prev) ∧
    (∀ n st out, readAll c n st out =
      if decodeMode c = .fast then readAllFast n st out else readAllScalar n st out) ∧
    (∀ n st out prev, readAllDelta c n st out prev =
      if decodeMode c = .fast then readAllDeltaFast n st out prev else readAllDeltaScalar n st out prev) ∧
    (∀ inn out, put8uint32 c inn out =
      if encodeMode c = .fast then put8uint32Fast inn out else put8uint32Scalar inn out) ∧
    (∀ inn out prev, put8uint32Delta c inn out prev =
      if encodeMode c = .fast then put8uint32DeltaFast inn out prev else put8uint32DeltaScalar inn out prev) ∧
    (∀ inn out ctrl, get8uint32 c inn out ctrl =
      if decodeMode c = .fast then get8uint32Fast inn out ctrl else get8uint32Scalar inn out ctrl) ∧
    (∀ inn out ctrl prev, get8uint32Delta c inn out ctrl prev =
      if decodeMode c = .fast then get8uint32DeltaFast inn out ctrl prev
      else get8uint32DeltaScalar inn out ctrl prev) := by
  rcases c with ⟨a, b, d⟩
  cases a <;> cases b <;> cases d <;>
    simp [writeAll, writeAllDelta, readAll, readAllDelta, put8uint32, put8uint32Delta, get8uint32,
      get8uint32Delta, encodeMode, decodeMode, onAmd64]

/-! ## C42: selected assembly runs on the CPU it was selected for -/

/-- Instructions of the two encoders. -/
def encodeInstrs : List Instr := put8uint32FastText ++ put8uint32DeltaFastText
/-- Instructions of the two decoders. -/
def decodeInstrs : List Instr := get8uint32FastText ++ get8uint32DeltaFastText

/-- C42: when the encoders' `GetMode` answers `Fast`, every instruction of their assembly belongs to an
extension the CPU has. -/
theorem C42_encode (c : Cpu) (h : encodeMode c = .fast) : ∀ i ∈ encodeInstrs, c.supports i.isa = true := by
  have hall : ∀ i ∈ encodeInstrs, i.isa = .base ∨ i.isa = .avx ∨ i.isa = .avx2 := by
    intro i _; cases h : i.isa <;> simp
  rcases c with ⟨a, b, d⟩
  intro i hi
  cases a <;> cases b <;> cases d <;> simp [encodeMode] at h
  rcases hall i hi with e | e | e <;> simp [e, Cpu.supports]

/-- C42: when the decoders' `GetMode` answers `Fast` (which asks for AVX only), every instruction of their
assembly belongs to an extension the CPU has: none of them is AVX2. -/
theorem C42_decode (c : Cpu) (h : decodeMode c = .fast) : ∀ i ∈ decodeInstrs, c.supports i.isa = true := by
  have hall : ∀ i ∈ decodeInstrs, i.isa = .base ∨ i.isa = .avx := by decide +kernel
  rcases c with ⟨a, b, d⟩
  intro i hi
  cases a <;> cases b <;> simp [decodeMode] at h <;>
  rcases hall i hi with e | e <;> simp [e, Cpu.supports]

/-- C42: AVX2 is really needed by the encoders: AVX alone does not support their assembly, so the extra
test in the encoders' `GetMode` is not redundant. -/
theorem C42_encode_needs_avx2 (c : Cpu) (h : ∀ i ∈ encodeInstrs, c.supports i.isa = true) :
    c.amd64 = true ∧ c.avx = true ∧ c.avx2 = true := by
  have h2 : ∃ i ∈ encodeInstrs, i.isa = .avx2 := by decide +kernel
  have h1 : ∃ i ∈ encodeInstrs, i.isa = .avx := by decide +kernel
  obtain ⟨i, hi, e⟩ := h1
  obtain ⟨j, hj, e'⟩ := h2
  have := h i hi; have h' := h j hj
  rw [e] at this; rw [e'] at h'
  simp [Cpu.supports] at this h'
  exact ⟨this.1, this.2, h'.2⟩

/-- C42 for the entry points: on a CPU that lacks an extension some instruction of the encoders needs, the
dispatching entry points run the scalar code. -/
theorem C42_entry_encode (c : Cpu) (h : ¬ ∀ i ∈ encodeInstrs, c.supports i.isa = true) :
    (∀ fresh inn, writeAll c fresh inn = writeAllScalar fresh inn) ∧
    (∀ fresh inn prev, writeAllDelta c fresh inn prev = writeAllDeltaScalar fresh inn prev) ∧
    (∀ inn out, put8uint32 c inn out = put8uint32Scalar inn out) ∧
    ∀ inn out prev, put8uint32Delta c inn out prev = put8uint32DeltaScalar inn out prev := by
  have hm : encodeMode c ≠ .fast := fun e => h (C42_encode c e)
  obtain ⟨-, -, h1, h2, -, -, h3, h4, -⟩ := C26_no_stub c
  simp only [if_neg hm] at h1 h2 h3 h4
  exact ⟨h1, h2, h3, h4⟩

theorem C42_entry_decode (c : Cpu) (h : ¬ ∀ i ∈ decodeInstrs, c.supports i.isa = true) :
    (∀ n st out, readAll c n st out = readAllScalar n st out) ∧
    (∀ n st out prev, readAllDelta c n st out prev = readAllDeltaScalar n st out prev) ∧
    (∀ inn out ctrl, get8uint32 c inn out ctrl = get8uint32Scalar inn out ctrl) ∧
    ∀ inn out ctrl prev, get8uint32Delta c inn out ctrl prev = get8uint32DeltaScalar inn out ctrl prev := by
  have hm : decodeMode c ≠ .fast := fun e => h (C42_decode c e)
  obtain ⟨-, -, -, -, h1, h2, -, -, h3, h4⟩ := C26_no_stub c
  simp only [if_neg hm] at h1 h2 h3 h4
  exact ⟨h1, h2, h3, h4⟩

/-- … and on a CPU that has them all, they run the fast code (the dispatch is not vacuous). -/
theorem C42_fast_used (c : Cpu) (h : ∀ i ∈ encodeInstrs, c.supports i.isa = true) :
    (∀ fresh inn, writeAll c fresh inn = writeAllFast fresh inn) ∧
    ∀ n st out, readAll c n st out = readAllFast n st out := by
  obtain ⟨h1, h2, h3⟩ := C42_encode_needs_avx2 c h
  rcases c with ⟨a, b, d⟩
  cases h1; cases h2; cases h3
  exact ⟨fun _ _ => rfl, fun _ _ _ => rfl⟩

-- an AVX-only CPU: encoders scalar, decoders fast
example := C42_entry_encode ⟨true, true, false⟩ (by decide +kernel)
example := C42_entry_decode ⟨true, false, false⟩ (by decide +kernel)
example := C42_fast_used ⟨true, true, true⟩ (by decide +kernel)
example := C42_encode ⟨true, true, true⟩ rfl
example := C42_decode ⟨true, true, false⟩ rfl

end SVB.Props
