import Verif.Proofs.BenchRun
import Verif.Proofs.BenchText
import Verif.Proofs.TestParse
import Verif.Props.Tests

/-!
# C62: the benchmarks of `/repo` run, and measure the documented work

The claims are about the texts of the `_test.go` files (`Verif.Model.TestSources`), run by `Verif.Model.TestSem`.
-/

set_option autoImplicit false

namespace SVB.Props
open SVB.Tests SVB.Sources SVB.Go
open SVB.Spec

/-! ## Vocabulary -/

/-- The benchmarks of the five test files of `/repo` that have any, in order. -/
def benchSuite : List (List Nat × List (Nat × Need × Job)) := [
  (pkgTestGo, [(n!"BenchmarkMemCopy8Uint32", .none, .copy)]),
  (encodeTestGo, [(n!"BenchmarkPut8uint32Fast", .encode, .put false false n!"writeSinkA"),
    (n!"BenchmarkPut8uint32DeltaFast", .encode, .put true true n!"writeSinkB"),
    (n!"BenchmarkPut8uint32Scalar", .none, .put false false n!"writeSinkC"),
    (n!"BenchmarkPut8uint32DeltaScalar", .none, .put true true n!"writeSinkD"),
    (n!"BenchmarkPut8uint32Varint", .none, .putVarint false false n!"writeSinkE"),
    (n!"BenchmarkPut8uint32DeltaVarint", .none, .putVarint true true n!"writeSinkF")]),
  (decodeTestGo, [(n!"BenchmarkGet8uint32Fast", .decode, .get false n!"readSinkA"),
    (n!"BenchmarkGet8uint32DeltaFast", .decode, .get true n!"readSinkB"),
    (n!"BenchmarkGet8uint32Scalar", .none, .get false n!"readSinkC"),
    (n!"BenchmarkGet8uint32DeltaScalar", .none, .get true n!"readSinkD"),
    (n!"BenchmarkGet8uint32Varint", .none, .get false n!"readSinkE"),
    (n!"BenchmarkGet8uint32DeltaVarint", .none, .get false n!"readSinkF")]),
  (writerTestGo, [(n!"BenchmarkWriteAllFast", .encode, .writeAll false false n!"readSinkA"),
    (n!"BenchmarkWriteAllDeltaFast", .encode, .writeAll true true n!"readSinkB"),
    (n!"BenchmarkWriteAllScalar", .none, .writeAll false true n!"readSinkC"),
    (n!"BenchmarkWriteAllDeltaScalar", .none, .writeAll true true n!"readSinkD"),
    (n!"BenchmarkWriteAllVarint", .none, .writeVarint false true n!"readSinkE"),
    (n!"BenchmarkWriteAllDeltaVarint", .none, .writeVarint true true n!"readSinkE")]),
  (readerTestGo, [(n!"BenchmarkReadAllFast", .decode, .readAll false n!"readSinkA"),
    (n!"BenchmarkReadAllDeltaFast", .decode, .readAll true n!"readSinkB"),
    (n!"BenchmarkReadAllScalar", .none, .readAll true n!"readSinkC"),
    (n!"BenchmarkReadAllDeltaScalar", .none, .readAll true n!"readSinkD"),
    (n!"BenchmarkReadAllVarint", .none, .readAll true n!"readSinkB"),
    (n!"BenchmarkReadAllDeltaVarint", .none, .readAll true n!"readSinkB")]),
  (varintTestGo, [])]

/-- Does a name begin with `Benchmark`? -/
def isBenchmark (name : Nat) : Bool := Nat.beq (name / 256 ^ (name.log2 / 8 + 1 - 9)) n!"Benchmark"

/-- The benchmark of a text with a name, run on a memory in a state with a positive `b.N`, comes to its end without a panic and
without having failed.  It is skipped exactly if it has to be, else it has done its job. -/
def Measures (text : List Nat) (name : Nat) (need : Need) (job : Job) : Prop :=
  ∃ F, Script.parse text = some F ∧ ∀ W : World, W.Ok → ∀ fuel, fuel ≤ 2 ^ 63 → 8 < fuel → RoundsOk W fuel →
    ∀ N, 0 < N → N < fuel → ∀ m, TablesLoaded m → ∀ s, ∃ s' m',
    run (bench W F fuel name N s) m = (.ok s', m') ∧ s'.failed = s.failed ∧ s'.skipped = (s.skipped || need.missing W.cpu) ∧
    TablesLoaded m' ∧ (need.missing W.cpu = false → job.Done W s s' m')

/-! ## Proofs -/

/-- What all benchmarks have in common at their end. -/
private def Common (W : World) (job : Job) (s s' : St) (m' : Mem) : Prop :=
  s'.failed = s.failed ∧ s'.skipped = s.skipped ∧ TablesLoaded m' ∧ job.Done W s s' m'

private theorem common_copy {W : World} {s s' : St} {m' : Mem} (h : CopyEnds W s s' m') : Common W .copy s s' m' :=
  ⟨h.failed, h.skipped, h.tables, h.bytes, h.sinks, h.words⟩
private theorem common_put {W : World} {s s' : St} {m' : Mem} {dl so : Bool} {x : Nat} (h : PutEnds W dl so x s s' m') :
    Common W (.put dl so x) s s' m' := ⟨h.failed, h.skipped, h.tables, h.bytes, h.sinks⟩
private theorem common_putV {W : World} {s s' : St} {m' : Mem} {dl so : Bool} {x : Nat} (h : PutVarintEnds W dl so x s s' m') :
    Common W (.putVarint dl so x) s s' m' := ⟨h.failed, h.skipped, h.tables, h.bytes, h.sinks⟩
private theorem common_get {W : World} {s s' : St} {m' : Mem} {so : Bool} {x : Nat} (h : GetEnds W so x s s' m') :
    Common W (.get so x) s s' m' :=
  let ⟨out, h, hw⟩ := h; ⟨h.failed, h.skipped, h.tables, h.bytes, out, h.sinks, hw⟩
private theorem common_read {W : World} {s s' : St} {m' : Mem} {so : Bool} {x : Nat} (h : StreamEnds (ReadDone W so) x s s' m') :
    Common W (.readAll so x) s s' m' :=
  let ⟨_, hv, out, e, hw⟩ := h.sinks; ⟨h.failed, h.skipped, h.tables, h.bytes, out, by rw [hv, e], hw⟩
private theorem common_write {W : World} {s s' : St} {m' : Mem} {dl so : Bool} {x : Nat}
    (h : StreamEnds (WriteDone W dl so) x s s' m') : Common W (.writeAll dl so x) s s' m' :=
  let ⟨_, hv, out, e, hw⟩ := h.sinks; ⟨h.failed, h.skipped, h.tables, h.bytes, out, by rw [hv, e], hw⟩
private theorem common_size {W : World} {s s' : St} {m' : Mem} {dl so : Bool} {x : Nat}
    (h : StreamEnds (SizeDone W dl so) x s s' m') : Common W (.writeVarint dl so x) s s' m' :=
  let ⟨_, hv, e⟩ := h.sinks; ⟨h.failed, h.skipped, h.tables, h.bytes, by rw [hv, show _ = _ from e]; rfl⟩

private theorem measures {text : List Nat} {name : Nat} {need : Need} {job : Job} {F : Script.File}
    {x : World → Nat → Nat → M Unit} {Q : World → St → St → Mem → Prop} (hp : Script.parse text = some F)
    (ht : ∀ W fuel N s, bench W F fuel name N s = (x W fuel N).go s)
    (hc : ∀ {W s s' m'}, Q W s s' m' → Common W job s s' m')
    (hs : ∀ W fuel N s, need.missing W.cpu = true → (x W fuel N).go s = .ret { s with skipped := true })
    (h : ∀ W fuel N, W.Ok → fuel ≤ 2 ^ 63 → 8 < fuel → RoundsOk W fuel → 0 < N → N < fuel → need.missing W.cpu = false →
      Ran (x W fuel N) (Q W)) : Measures text name need job := by
  refine ⟨F, hp, fun W hW fuel hf h8 hR N h0 hN m hT s => ?_⟩
  rw [ht]
  cases hm : need.missing W.cpu
  · obtain ⟨_, s', m', hq, hr⟩ := h W fuel N hW hf h8 hR h0 hN hm s m hT
    obtain ⟨h1, h2, h3, h4⟩ := hc hq
    exact ⟨s', m', hr _ _, h1, by rw [h2, Bool.or_false], h3, fun _ => h4⟩
  · rw [hs W fuel N s hm]
    exact ⟨{ s with skipped := true }, m, rfl, rfl, by rw [Bool.or_true], hT, fun h => Bool.noConfusion h⟩

private theorem skipE {c : Cpu} {y : Unit → M Unit} {s : St} (h : Need.encode.missing c = true) :
    (skipIf (decide (encodeMode c = .normal)) >>= y).go s = .ret { s with skipped := true } := by
  have h : decide (encodeMode c = .normal) = true := h
  rw [h]; rfl
private theorem skipD {c : Cpu} {y : Unit → M Unit} {s : St} (h : Need.decode.missing c = true) :
    (skipIf (decide (decodeMode c = .normal)) >>= y).go s = .ret { s with skipped := true } := by
  have h : decide (decodeMode c = .normal) = true := h
  rw [h]; rfl
private theorem haveE {c : Cpu} (h : Need.encode.missing c = false) : encodeMode c ≠ .normal := of_decide_eq_false h
private theorem haveD {c : Cpu} (h : Need.decode.missing c = false) : decodeMode c ≠ .normal := of_decide_eq_false h
private theorem noSkip {c : Cpu} {p : Prop} (h : Need.none.missing c = true) : p := Bool.noConfusion h

/-! ## C62 -/

/-- C62: `benchSuite` lists every benchmark: the names of the functions of the test files that begin with `Benchmark`, in order. -/
theorem C62_all_benchmarks :
    benchSuite.map (fun e => (Script.parse e.1).map fun F => (F.funcs.map (·.name)).filter isBenchmark) =
    benchSuite.map fun e => some (e.2.map (·.1)) := by
  simp only [benchSuite, List.map_cons, List.map_nil, pkgTest_parsed, encTest_parsed, decTest_parsed, wrTest_parsed, rdTest_parsed,
    vintTest_parsed, Option.map_some]
  kernel_rfl

/-- C62: no benchmark fails or panics, whatever `b.N` is, whatever numbers `math/rand` draws, however `sort.Slice` orders the
numbers, on whatever CPU.  It is skipped exactly if there is no vectorised implementation; else it reports the size of the
numbers, and the work it has measured was done right. -/
theorem C62_measures : ∀ e ∈ benchSuite, ∀ t ∈ e.2, Measures e.1 t.1 t.2.1 t.2.2 := by
  simp only [benchSuite, List.forall_mem_cons, List.not_mem_nil, false_implies, implies_true, and_true]
  exact ⟨measures pkgTest_parsed bMemCopy_text common_copy (fun _ _ _ _ h => noSkip h)
      fun _ _ _ _ hf h8 _ h0 hN _ => bMemCopy_ran hf h0 hN h8,
    ⟨measures encTest_parsed bPut8Fast_text common_put (fun _ _ _ _ h => skipE h)
        fun _ _ _ _ hf _ _ h0 hN h => bPut8Fast_ran hf h0 hN (haveE h),
      measures encTest_parsed bPut8DeltaFast_text common_put (fun _ _ _ _ h => skipE h)
        fun _ _ _ hW hf _ _ h0 hN h => bPut8DeltaFast_ran hf h0 hN hW (haveE h),
      measures encTest_parsed bPut8Scalar_text common_put (fun _ _ _ _ h => noSkip h)
        fun _ _ _ _ hf _ _ h0 hN _ => bPut8Scalar_ran hf h0 hN,
      measures encTest_parsed bPut8DeltaScalar_text common_put (fun _ _ _ _ h => noSkip h)
        fun _ _ _ hW hf _ _ h0 hN _ => bPut8DeltaScalar_ran hf h0 hN hW,
      measures encTest_parsed bPutVarint_text common_putV (fun _ _ _ _ h => noSkip h)
        fun _ _ _ hW hf _ _ h0 hN _ => bPutVarint_ran hf h0 hN hW,
      measures encTest_parsed bPutDeltaVarint_text common_putV (fun _ _ _ _ h => noSkip h)
        fun _ _ _ hW hf _ _ h0 hN _ => bPutDeltaVarint_ran hf h0 hN hW⟩,
    ⟨measures decTest_parsed bGet8Fast_text common_get (fun _ _ _ _ h => skipD h)
        fun _ _ _ hW hf _ _ h0 hN h => bGet8Fast_ran hf h0 hN hW (haveD h),
      measures decTest_parsed bGet8DeltaFast_text common_get (fun _ _ _ _ h => skipD h)
        fun _ _ _ hW hf _ _ h0 hN h => bGet8DeltaFast_ran hf h0 hN hW (haveD h),
      measures decTest_parsed bGet8Scalar_text common_get (fun _ _ _ _ h => noSkip h)
        fun _ _ _ hW hf _ _ h0 hN _ => bGet8Scalar_ran hf h0 hN hW,
      measures decTest_parsed bGet8DeltaScalar_text common_get (fun _ _ _ _ h => noSkip h)
        fun _ _ _ hW hf _ _ h0 hN _ => bGet8DeltaScalar_ran hf h0 hN hW,
      measures decTest_parsed bGetVarint_text common_get (fun _ _ _ _ h => noSkip h)
        fun _ _ _ hW hf _ _ h0 hN _ => bGetVarint_ran hf h0 hN hW,
      measures decTest_parsed bGetDeltaVarint_text common_get (fun _ _ _ _ h => noSkip h)
        fun _ _ _ hW hf _ _ h0 hN _ => bGetDeltaVarint_ran hf h0 hN hW⟩,
    ⟨measures wrTest_parsed (x := fun W fuel _ => bWriteAllFast W fuel) bWriteAllFast_text common_write
        (fun _ _ _ _ h => skipE h) fun _ _ _ _ hf h8 hR _ _ h => bWriteAllFast_ran hf h8 hR (haveE h),
      measures wrTest_parsed (x := fun W fuel _ => bWriteAllDeltaFast W fuel) bWriteAllDeltaFast_text common_write
        (fun _ _ _ _ h => skipE h) fun _ _ _ hW hf h8 hR _ _ h => bWriteAllDeltaFast_ran hW hf h8 hR (haveE h),
      measures wrTest_parsed (x := fun W fuel _ => bWriteAllScalar W fuel) bWriteAllScalar_text common_write
        (fun _ _ _ _ h => noSkip h) fun _ _ _ hW hf h8 hR _ _ _ => bWriteAllScalar_ran hW hf h8 hR,
      measures wrTest_parsed (x := fun W fuel _ => bWriteAllDeltaScalar W fuel) bWriteAllDeltaScalar_text common_write
        (fun _ _ _ _ h => noSkip h) fun _ _ _ hW hf h8 hR _ _ _ => bWriteAllDeltaScalar_ran hW hf h8 hR,
      measures wrTest_parsed (x := fun W fuel _ => bWriteVarint W fuel) bWriteVarint_text common_size
        (fun _ _ _ _ h => noSkip h) fun _ _ _ hW hf h8 hR _ _ _ => bWriteVarint_ran hW hf h8 hR,
      measures wrTest_parsed (x := fun W fuel _ => bWriteDeltaVarint W fuel) bWriteDeltaVarint_text common_size
        (fun _ _ _ _ h => noSkip h) fun _ _ _ hW hf h8 hR _ _ _ => bWriteDeltaVarint_ran hW hf h8 hR⟩,
    ⟨measures rdTest_parsed (x := fun W fuel _ => bReadAllFast W fuel) bReadAllFast_text common_read
        (fun _ _ _ _ h => skipD h) fun _ _ _ hW hf h8 hR _ _ h => bReadAllFast_ran hW hf h8 hR (haveD h),
      measures rdTest_parsed (x := fun W fuel _ => bReadAllDeltaFast W fuel) bReadAllDeltaFast_text common_read
        (fun _ _ _ _ h => skipD h) fun _ _ _ hW hf h8 hR _ _ h => bReadAllDeltaFast_ran hW hf h8 hR (haveD h),
      measures rdTest_parsed (x := fun W fuel _ => bReadAllScalar W fuel) bReadAllScalar_text common_read
        (fun _ _ _ _ h => noSkip h) fun _ _ _ hW hf h8 hR _ _ _ => bReadAllScalar_ran hW hf h8 hR,
      measures rdTest_parsed (x := fun W fuel _ => bReadAllDeltaScalar W fuel) bReadAllDeltaScalar_text common_read
        (fun _ _ _ _ h => noSkip h) fun _ _ _ hW hf h8 hR _ _ _ => bReadAllDeltaScalar_ran hW hf h8 hR,
      measures rdTest_parsed (x := fun W fuel _ => bReadVarint W fuel) bReadVarint_text common_read
        (fun _ _ _ _ h => noSkip h) fun _ _ _ hW hf h8 hR _ _ _ => bReadVarint_ran hW hf h8 hR,
      measures rdTest_parsed (x := fun W fuel _ => bReadDeltaVarint W fuel) bReadDeltaVarint_text common_read
        (fun _ _ _ _ h => noSkip h) fun _ _ _ hW hf h8 hR _ _ _ => bReadDeltaVarint_ran hW hf h8 hR⟩⟩

-- a world: every function passed to `b.Run` is run with `b.N` = 1, then 100
example : RoundsOk ⟨⟨true, true, true⟩, fun _ => 0, fun _ => 0, fun _ _ => 0, List.reverse, fun _ => 0, fun _ => [1, 100]⟩ 1000 :=
  fun _ => ⟨by simp, by simp⟩
example : (benchSuite.map (·.2.length)).sum = 25 := by decide
-- four numbers drawn after two draws, in reverse order, and their differences
example : diffs true (World.nums ⟨⟨true, true, true⟩, fun _ => 0, fun k => BitVec.ofNat 32 (10 * k), fun _ _ => 0, List.reverse, fun _ => 0,
    fun _ => []⟩ true 2 4) = diffs true ((List.range 4).map fun j => randUint32 0 (BitVec.ofNat 32 (10 * (2 + 2 * j + 1)))).reverse := rfl

end SVB.Props
