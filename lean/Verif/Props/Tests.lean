import Verif.Proofs.TestRun
import Verif.Proofs.TestText
import Verif.Proofs.TestParse

/-!
# C60: the tests of `/repo` never fail

The claims are about the texts of the `_test.go` files (`Verif.Model.TestSources`), run by `Verif.Model.TestSem`.
-/

set_option autoImplicit false

namespace SVB.Props
open SVB.Tests SVB.Sources SVB.Go
open SVB.Spec

/-! ## Vocabulary -/

/-- When a test is to be skipped: never, or if the package has no vectorised implementation on this CPU. -/
inductive Need where
  | none
  | encode
  | decode

/-- Is the test to be skipped on this CPU? -/
def Need.missing (n : Need) (c : Cpu) : Bool :=
  match n with
  | .none => false
  | .encode => decide (encodeMode c = .normal)
  | .decode => decide (decodeMode c = .normal)

/-- The tests of the six test files of `/repo`, in order. -/
def suite : List (List Nat × List (Nat × Need)) := [
  (pkgTestGo, [(n!"TestRoundTripScalar", .none)]),
  (encodeTestGo, [(n!"TestPut8uint32Scalar", .none), (n!"TestPut8uint32DeltaScalar", .none), (n!"TestPut8uint32Fast", .encode),
    (n!"TestPut8uint32DeltaFast", .encode), (n!"TestPutUint32Scalar", .none), (n!"TestPutUint32DeltaScalar", .none)]),
  (decodeTestGo, [(n!"TestGet8uint32Scalar", .none), (n!"TestGet8uint32DeltaScalar", .none), (n!"TestGet8uint32Fast", .decode),
    (n!"TestGet8uint32DeltaFast", .decode), (n!"TestGetUint32Scalar", .none), (n!"TestGetUint32DeltaScalar", .none)]),
  (writerTestGo, [(n!"TestWriteAllScalar", .none), (n!"TestWriteAllDeltaScalar", .none), (n!"TestWriteAllFast", .encode),
    (n!"TestWriteAllDeltaFast", .encode)]),
  (readerTestGo, [(n!"TestReadAllScalar", .none), (n!"TestReadAllDeltaScalar", .none), (n!"TestReadAllFast", .decode),
    (n!"TestReadAllDeltaFast", .decode)]),
  (varintTestGo, [(n!"TestVarintRoundTrip", .none), (n!"TestVarintDeltaRoundTrip", .none)])]

/-- Does a name begin with `Test`? -/
def isTest (name : Nat) : Bool := Nat.beq (name / 256 ^ (name.log2 / 8 + 1 - 4)) n!"Test"

/-- The test of a text with a name, run on a memory in a state, comes to its end without a panic and without having failed; it is
skipped exactly if it has to be. -/
def NeverFails (text : List Nat) (name : Nat) (need : Need) : Prop :=
  ∃ F, Script.parse text = some F ∧ ∀ W : World, W.Ok → ∀ m, TablesLoaded m → ∀ s, ∃ s' m',
    run (test W F name s) m = (.ok s', m') ∧ s'.failed = s.failed ∧ s'.skipped = (s.skipped || need.missing W.cpu) ∧
    TablesLoaded m'

/-! ## Proofs -/

private theorem run_go {x : M Unit} (h : Passes x) (s : St) {m : Mem} (hT : TablesLoaded m) :
    ∃ s' m', run (x.go s) m = (.ok s', m') ∧ s'.failed = s.failed ∧ s'.skipped = s.skipped ∧ TablesLoaded m' := by
  obtain ⟨_, s', m', ⟨h1, h2, h3⟩, hr⟩ := h s m hT
  exact ⟨s', m', hr _ _, h1, h2, h3⟩

private theorem never {text : List Nat} {name : Nat} {F : Script.File} {x : World → M Unit} (hp : Script.parse text = some F)
    (ht : ∀ W s, test W F name s = (x W).go s) (h : ∀ W : World, W.Ok → Passes (x W)) : NeverFails text name .none := by
  refine ⟨F, hp, fun W hW m hT s => ?_⟩
  rw [ht]
  obtain ⟨s', m', hr, h1, h2, h3⟩ := run_go (h W hW) s hT
  exact ⟨s', m', hr, h1, by rw [h2]; exact (Bool.or_false _).symm, h3⟩

private theorem neverE {text : List Nat} {name : Nat} {F : Script.File} {y : World → M Unit}
    (hp : Script.parse text = some F)
    (ht : ∀ W s, test W F name s = ((skipIf (decide (encodeMode W.cpu = .normal))) >>= fun _ => y W).go s)
    (h : ∀ W : World, W.Ok → encodeMode W.cpu ≠ .normal →
      Passes (skipIf (decide (encodeMode W.cpu = .normal)) >>= fun _ => y W)) : NeverFails text name .encode := by
  refine ⟨F, hp, fun W hW m hT s => ?_⟩
  rw [ht]
  by_cases hm : encodeMode W.cpu = .normal
  · simp only [Need.missing, hm, decide_true, Bool.or_true]
    exact ⟨{ s with skipped := true }, m, rfl, rfl, rfl, hT⟩
  · obtain ⟨s', m', hr, h1, h2, h3⟩ := run_go (h W hW hm) s hT
    exact ⟨s', m', hr, h1, by simp only [Need.missing, hm, decide_false, Bool.or_false]; exact h2, h3⟩

private theorem neverD {text : List Nat} {name : Nat} {F : Script.File} {y : World → M Unit}
    (hp : Script.parse text = some F)
    (ht : ∀ W s, test W F name s = ((skipIf (decide (decodeMode W.cpu = .normal))) >>= fun _ => y W).go s)
    (h : ∀ W : World, W.Ok → decodeMode W.cpu ≠ .normal →
      Passes (skipIf (decide (decodeMode W.cpu = .normal)) >>= fun _ => y W)) : NeverFails text name .decode := by
  refine ⟨F, hp, fun W hW m hT s => ?_⟩
  rw [ht]
  by_cases hm : decodeMode W.cpu = .normal
  · simp only [Need.missing, hm, decide_true, Bool.or_true]
    exact ⟨{ s with skipped := true }, m, rfl, rfl, rfl, hT⟩
  · obtain ⟨s', m', hr, h1, h2, h3⟩ := run_go (h W hW hm) s hT
    exact ⟨s', m', hr, h1, by simp only [Need.missing, hm, decide_false, Bool.or_false]; exact h2, h3⟩

/-! ## C60 -/

/-- C60: `suite` lists every test: the names of the functions of the six files that begin with `Test`, in order. -/
theorem C60_all_tests : suite.map (fun e => (Script.parse e.1).map fun F => (F.funcs.map (·.name)).filter isTest) =
    suite.map fun e => some (e.2.map (·.1)) := by
  simp only [suite, List.map_cons, List.map_nil, pkgTest_parsed, encTest_parsed, decTest_parsed, wrTest_parsed, rdTest_parsed,
    vintTest_parsed, Option.map_some]
  kernel_rfl

/-- C60: no test fails or panics, whatever numbers `math/rand` draws, however `sort.Slice` orders the numbers, however much spare
capacity `append` allocates, on whatever CPU; a test is skipped exactly if there is no vectorised implementation. -/
theorem C60_never_fails : ∀ e ∈ suite, ∀ t ∈ e.2, NeverFails e.1 t.1 t.2 := by
  simp only [suite, List.forall_mem_cons, List.not_mem_nil, false_implies, implies_true, and_true]
  exact ⟨never pkgTest_parsed roundTripScalar_text fun _ _ => roundTripScalar_passes,
    ⟨never encTest_parsed put8Scalar_text fun _ _ => put8Scalar_passes,
      never encTest_parsed put8DeltaScalar_text fun _ h => put8DeltaScalar_passes h,
      neverE encTest_parsed put8Fast_text fun _ _ h => put8Fast_passes h,
      neverE encTest_parsed put8DeltaFast_text fun _ h => put8DeltaFast_passes h,
      never encTest_parsed putScalar_text fun _ h => putScalar_passes h,
      never encTest_parsed putDeltaScalar_text fun _ h => putDeltaScalar_passes h⟩,
    ⟨never decTest_parsed get8Scalar_text fun W _ => get8Scalar_passes W,
      never decTest_parsed get8DeltaScalar_text fun _ h => get8DeltaScalar_passes h,
      neverD decTest_parsed get8Fast_text fun _ _ h => get8Fast_passes h,
      neverD decTest_parsed get8DeltaFast_text fun _ h => get8DeltaFast_passes h,
      never decTest_parsed getScalar_text fun _ h => getScalar_passes h,
      never decTest_parsed getDeltaScalar_text fun _ h => getDeltaScalar_passes h⟩,
    ⟨never wrTest_parsed writeAllScalar_text fun W _ => writeAllScalar_passes W,
      never wrTest_parsed writeAllDeltaScalar_text fun _ h => writeAllDeltaScalar_passes h,
      neverE wrTest_parsed writeAllFast_text fun _ _ h => writeAllFast_passes h,
      neverE wrTest_parsed writeAllDeltaFast_text fun _ h => writeAllDeltaFast_passes h⟩,
    ⟨never rdTest_parsed readAllScalar_text fun W _ => readAllScalar_passes W,
      never rdTest_parsed readAllDeltaScalar_text fun _ h => readAllDeltaScalar_passes h,
      neverD rdTest_parsed readAllFast_text fun _ _ h => readAllFast_passes h,
      neverD rdTest_parsed readAllDeltaFast_text fun _ h => readAllDeltaFast_passes h⟩,
    ⟨never vintTest_parsed varintRoundTrip_text fun W _ => varintRoundTrip_passes W,
      never vintTest_parsed varintDeltaRoundTrip_text fun _ h => varintDeltaRoundTrip_passes h⟩⟩

-- a world: all draws are 0, the numbers come out of `sort.Slice` in reverse order (!), no spare capacity
example : World.Ok ⟨⟨true, true, true⟩, fun _ => 0, fun _ => 0, fun _ _ => 0, List.reverse, fun _ => 0, fun _ => []⟩ :=
  ⟨fun _ _ h => h, fun xs => List.reverse_perm xs⟩
example : suite.length = 6 ∧ (suite.map (·.2.length)).sum = 23 := by decide
example : Need.encode.missing ⟨true, true, false⟩ = true ∧ Need.decode.missing ⟨true, true, false⟩ = false := by decide

/-! The comparisons of the tests do find differences: -/

/-- C60: `reflect.DeepEqual` as the tests use it is true exactly of slices with the same contents. -/
theorem C60_deepEqual_bytes (a b : Bytes) (m : Mem) :
    run (deepEqualB a b) m = (.ok (decide (bytesOf m a = bytesOf m b)), m) := by
  by_cases h : bytesOf m a = bytesOf m b
  · rw [deepEqualB_run h, decide_eq_true h]
  · rw [decide_eq_false h]
    unfold deepEqualB
    split
    · next hl =>
      refine equalBytes_false a.len 0 (by omega) (by omega) ?_
      refine Classical.byContradiction fun hn => h (List.ext_getElem (by rw [bytesOf_length, bytesOf_length, hl]) fun i h1 h2 => ?_)
      rw [bytesOf_length] at h1
      refine Classical.byContradiction fun hne => hn ⟨i, Nat.zero_le _, by omega, ?_⟩
      simpa [bytesOf] using hne
    · rfl

/-- C60: the same for numbers. -/
theorem C60_deepEqual_words (a b : U32s) (m : Mem) :
    run (deepEqualW a b) m = (.ok (decide (wordsOf m a = wordsOf m b)), m) := by
  by_cases h : wordsOf m a = wordsOf m b
  · rw [deepEqualW_run h, decide_eq_true h]
  · rw [decide_eq_false h]
    unfold deepEqualW
    split
    · next hl =>
      refine equalWords_false a.len 0 (by omega) (by omega) ?_
      refine Classical.byContradiction fun hn => h (List.ext_getElem (by rw [wordsOf_length, wordsOf_length, hl]) fun i h1 h2 => ?_)
      rw [wordsOf_length] at h1
      refine Classical.byContradiction fun hne => hn ⟨i, Nat.zero_le _, by omega, ?_⟩
      simpa [wordsOf, wordsN, wordAt] using hne
    · rfl

/-- C60: when the condition of an `if … { t.Fatalf(…) }` is met the test ends there and has failed. -/
theorem C60_fatal (rest : M Unit) (s : St) (m : Mem) :
    run ((failIf true >>= fun _ => rest).go s) m = (.ok { s with failed := true }, m) := rfl

example : decide (bytesOf (memWith [] [1, 2, 3, 1, 2, 4]) ⟨.heap 1, 0, 3, 3⟩ =
    bytesOf (memWith [] [1, 2, 3, 1, 2, 4]) ⟨.heap 1, 3, 3, 3⟩) = false := by decide +kernel

end SVB.Props
