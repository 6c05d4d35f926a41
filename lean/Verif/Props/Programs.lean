import Verif.Proofs.ScriptParse
import Verif.Proofs.ScriptBytes
import Verif.Proofs.ScriptRand
import Verif.Props.Bench
import Verif.Props.Util

/-! # C59: the benchmark tool and the random numbers, from the texts

`parse_and_write_bench.go`, `rand.go` and `util.go` are parsed from their texts and run by the interpreter in
`ScriptSem.lean`.  So C35 and C41, which are about the models in `Util.lean` and `Bench.lean`, are about these texts. -/

set_option autoImplicit false
set_option maxRecDepth 100000

namespace SVB.Props
open Sources Script SVB.Bench
open Script.Bench (code Ending ending worldOf pathOf)

/-! ## `parse_and_write_bench.go` -/

/-- The program with the package it imports, run from its text; `input` are the lines the scanner gets. -/
def runBench (depth : Nat) (w : World) (input : List Text) : Option Ending :=
  match [utilGo, randGo, benchGo].mapM parse with
  | some files => ending (runMain depth files w { input })
  | none => none

theorem runBench_eq (depth : Nat) (w : World) (input : List Text) :
    runBench depth w input = ending (runMain depth Script.Bench.files w { input }) := by
  have h : [utilGo, randGo, benchGo].mapM parse = some Script.Bench.files := by
    simp only [List.mapM_cons, List.mapM_nil, util_parsed, rand_parsed, bench_parsed]
    rfl
  rw [runBench, h]

/-- The lines the scanner gets from the standard input `bench`: it stops at a line that is too long. -/
def scanned (bench : List Byte) : List Text :=
  (((rawLines bench []).takeWhile fun l => decide (l.length < 65536)).map dropCR).map code

/-- What the program leaves, given the result according to `Bench.lean`: `-w` or not, whether the README can be
created, how writing ends. -/
def leaves (write canCreate : Bool) (writeFails : Option Nat) (path : Text) : Result → Ending
  | .fatal => .exit 1 [] []
  | .panic => .panic
  | .written f =>
    if write then
      if canCreate then
        match writeFails with
        | none => .exit 0 [(path, code f)] []
        | some k => .exit 1 [(path, code (f.take k))] []
      else .exit 1 [] []
    else
      match writeFails with
      | none => .exit 0 [] (code f)
      | some k => .exit 1 [] (code (f.take k))

private theorem scanned_all {bench : List Byte} (h : tooLong bench = false) :
    scanned bench = ((rawLines bench []).map dropCR).map code := by
  have : ∀ ls : List (List Byte), (ls.any fun l => decide (65536 ≤ l.length)) = false →
      ls.takeWhile (fun l => decide (l.length < 65536)) = ls := by
    intro ls hl
    induction ls with
    | nil => rfl
    | cons l ls ih =>
      simp only [List.any_cons, Bool.or_eq_false_iff, decide_eq_false_iff_not] at hl
      rw [List.takeWhile_cons, if_pos (by simpa using hl.1), ih hl.2]
  rw [scanned, this _ h]

/-- C59: with and without `-w`, for every README and every input, the text of the program does what `Bench.lean` says:
`rewrite` gives the new README, which is written to the file or to the standard output. -/
theorem C59_bench (d : Nat) (write canCreate : Bool) (writeFails : Option Nat) (w : World) (readme bench : List Byte)
    (hd : w.disk (pathOf w) = some (code readme)) (hf : (scanned bench).length < w.fuel) :
    runBench (d + 51) (worldOf write canCreate true (tooLong bench) writeFails w) (scanned bench) =
      some (leaves write canCreate writeFails (pathOf w) (rewrite readme bench)) := by
  rw [runBench_eq]
  cases ht : tooLong bench with
  | true =>
    rw [Script.Bench.run_input d write canCreate true writeFails w _ hf, rewrite, ht]
    rfl
  | false =>
    have hi := scanned_all ht
    have fold : ((scanned bench).foldl Script.Bench.step (false, [])).2 = (collect bench).map code := by
      have := Script.Bench.fold_code ((rawLines bench []).map dropCR) (false, [])
      simp only [List.map_nil] at this
      rw [hi, this]
      rfl
    have hj : joinTexts [10] (((scanned bench).foldl Script.Bench.step (false, [])).2.map .str) =
        some (code (join (collect bench))) := by
      rw [fold, Script.Bench.join_code]
    have hs := Script.Bench.indexOf_code startSentinel readme 0
    have he := Script.Bench.indexOf_code endSentinel readme 0
    rw [← Script.Bench.start_code] at hs
    rw [← Script.Bench.end_code] at he
    rw [rewrite, ht, if_neg (by decide)]
    cases h1 : index startSentinel readme with
    | none =>
      rw [h1] at hs
      rw [Script.Bench.run_start d write canCreate writeFails w _ hf hd hs]
      rfl
    | some a =>
      rw [h1] at hs
      have ha : a ≤ (code readme).length := by rw [Script.Bench.code_length]; exact Script.Bench.index_le h1
      cases h2 : index endSentinel readme with
      | none =>
        rw [h2] at he
        rw [Script.Bench.run_end d write canCreate writeFails w _ hf hd hs ha he hj]
        rfl
      | some b =>
        rw [h2] at he
        have hb : b ≤ (code readme).length := by rw [Script.Bench.code_length]; exact Script.Bench.index_le h2
        rw [Script.Bench.run_done d write canCreate writeFails w _ hf hd hs ha he hb hj]
        have e : Script.Bench.newText (code readme) (code (join (collect bench))) a b =
            code (readme.take a ++ startSentinel ++ join (collect bench) ++ [10] ++ readme.drop b) := by
          simp only [Script.Bench.newText, Script.Bench.code_append, Script.Bench.start_code]
          simp only [code, List.map_take, List.map_drop, List.map_cons, List.map_nil]
          rfl
        simp only [Nat.add_zero, e, leaves]
        cases write <;> cases canCreate <;> cases writeFails <;>
          simp only [Script.Bench.done, if_true, if_false, Bool.false_eq_true, code, List.map_take]

/-- C59: if there is no README, it cannot be read, or the standard input ends with an error, the program ends with
status 1 and has written nothing. -/
theorem C59_bench_fail (d : Nat) (write canCreate : Bool) (writeFails : Option Nat) (w : World) (input : List Text)
    (hf : input.length < w.fuel) :
    (∀ canRead, runBench (d + 51) (worldOf write canCreate canRead true writeFails w) input = some (.exit 1 [] [])) ∧
    (w.disk (pathOf w) = none → ∀ canRead,
      runBench (d + 51) (worldOf write canCreate canRead false writeFails w) input = some (.exit 1 [] [])) ∧
    (∀ t, w.disk (pathOf w) = some t →
      runBench (d + 51) (worldOf write canCreate false false writeFails w) input = some (.exit 1 [] [])) := by
  simp only [runBench_eq]
  exact ⟨fun cr => Script.Bench.run_input d write canCreate cr writeFails w input hf,
    fun h cr => Script.Bench.run_open d write canCreate cr writeFails w input hf h,
    fun t h => Script.Bench.run_read d write canCreate writeFails w input hf h⟩

/-- C59, with C41: without a start sentinel in the README (or with a line of 64 KiB or more on the standard input) the program
ends with status 1 and has written nothing; with a start sentinel, but without an end sentinel, it panics. -/
theorem C59_sentinels (d : Nat) (write canCreate : Bool) (writeFails : Option Nat) (w : World) (readme bench : List Byte)
    (hd : w.disk (pathOf w) = some (code readme)) (hf : (scanned bench).length < w.fuel) :
    (tooLong bench = true ∨ ¬ Occurs startSentinel readme →
      runBench (d + 51) (worldOf write canCreate true (tooLong bench) writeFails w) (scanned bench) = some (.exit 1 [] [])) ∧
    (tooLong bench = false → Occurs startSentinel readme → ¬ Occurs endSentinel readme →
      runBench (d + 51) (worldOf write canCreate true (tooLong bench) writeFails w) (scanned bench) = some .panic) := by
  rw [C59_bench d write canCreate writeFails w readme bench hd hf]
  exact ⟨fun h => by rw [(C41_ends readme bench).1.2 h]; rfl,
    fun h1 h2 h3 => by rw [(C41_ends readme bench).2.2 ⟨h1, h2, h3⟩]; rfl⟩

/-- C59: a flag other than `-w` ends the program with status 2 before anything is read or written. -/
theorem C59_flags (d : Nat) (w : World) (input : List Text) (n v : Text) (rest : List (Text × Text)) (hn : n ≠ asc "w".toList) :
    runBench (d + 51) { w with args := (n, v) :: rest } input = some (.exit 2 [] []) := by
  rw [runBench_eq]
  exact Script.Bench.run_flags d w input n v rest hn

/-- C59, with C41: with `-w`, on a README of the expected shape, the text of the program replaces the benchmark section
and nothing else. -/
theorem C59_replace (d : Nat) (w : World) {pre mid post bench : List Byte} (h : Shape pre mid post)
    (hb : tooLong bench = false)
    (hd : w.disk (pathOf w) = some (code (pre ++ (startSentinel ++ (mid ++ (endSentinel ++ post))))))
    (hf : (scanned bench).length < w.fuel) :
    runBench (d + 51) (worldOf true true true false none w) (scanned bench) =
      some (.exit 0 [(pathOf w, code (pre ++ (startSentinel ++ (newSection bench ++ (endSentinel ++ post)))))] []) := by
  have := C59_bench d true true none w _ bench hd hf
  rw [hb, C41_replace_partial h hb] at this
  exact this

/-- C59: when writing fails the old README is lost: the file has only the first bytes of the new one. -/
theorem C59_lost (d k : Nat) (w : World) {readme bench f : List Byte} (h : rewrite readme bench = .written f)
    (hd : w.disk (pathOf w) = some (code readme)) (hf : (scanned bench).length < w.fuel) :
    runBench (d + 51) (worldOf true true true (tooLong bench) (some k) w) (scanned bench) =
      some (.exit 1 [(pathOf w, code (f.take k))] []) := by
  rw [C59_bench d true true (some k) w readme bench hd hf, h]
  rfl

/-! ## `rand.go` and `util.go` -/

/-- A call of a function of package `util`, from the texts; `n`: this many random numbers have been drawn before. -/
def callUtil (depth : Nat) (f : Nat) (vs : List V) (n : Nat) (w : World) : Option (Res (List V)) :=
  match [utilGo, randGo].mapM parse with
  | some files =>
    match initVars depth files (globals files) [] w {} with
    | .ok vars s => some ((Interp.depth ⟨files, vars⟩ depth).apply (.fn n!"util" f) vs w { s with draws := n })
    | _ => none
  | none => none

theorem callUtil_eq (d f : Nat) (vs : List V) (n : Nat) (w : World) :
    callUtil (d + 10) f vs n w = some ((Interp.depth Rand.ctx (d + 10)).apply (.fn n!"util" f) vs w (Rand.st {} n)) := by
  have h : [utilGo, randGo].mapM parse = some Rand.files := by
    simp only [List.mapM_cons, List.mapM_nil, util_parsed, rand_parsed]
    rfl
  simp only [callUtil, h, Rand.init w d]
  rfl

/-- What a call returned, and how many random numbers have been drawn then; `none`: a panic. -/
inductive Returned where
  | values (vs : List V) (draws : Nat)
  | panic

def utilReturned : Option (Res (List V)) → Option Returned
  | some (.ok vs s) => some (.values vs s.draws)
  | some .panic => some .panic
  | _ => none

/-- C59: `RandUint32()` draws an `int` `k` and then a `uint32` `r`, and returns `randUint32 k r` (C35). -/
theorem C59_rand (d n : Nat) (w : World) :
    utilReturned (callUtil (d + 25) n!"RandUint32" [] n w) =
      some (.values [.int .u32 (randUint32 (w.int63 n) (w.uint32 (n + 1))).toNat] (n + 2)) := by
  rw [callUtil_eq (d + 15), Rand.rand_run d]
  rfl

/-- C59: `GenUint32(m)` returns `m` such numbers, one after the other, and panics if `m` is negative. -/
theorem C59_gen (d n : Nat) (w : World) :
    (∀ m : Nat, m < 2 ^ 63 → m < w.fuel → utilReturned (callUtil (d + 40) n!"GenUint32" [.int .int m] n w) =
      some (.values [.list ((genUint32 m fun j => (w.int63 (n + 2 * j), w.uint32 (n + 2 * j + 1))).map
        fun x => .int .u32 x.toNat)] (n + 2 * m))) ∧
    (∀ x : Int, x < 0 → utilReturned (callUtil (d + 40) n!"GenUint32" [.int .int x] n w) = some .panic) := by
  refine ⟨fun m hm hf => ?_, fun x hx => ?_⟩
  · rw [callUtil_eq (d + 30), Rand.gen_run_all d w {} n m (by omega) hf, Rand.drawn_eq]
    rfl
  · rw [callUtil_eq (d + 30), Rand.gen_negative d w {} n x hx]
    rfl

/-- C59, with C35: every list of numbers is what `GenUint32` returns for some random numbers. -/
theorem C59_reachable (xs : List U32) (hx : xs.length < 2 ^ 63) (w : World) (hf : xs.length < w.fuel) (d : Nat) :
    ∃ int63 uint32, utilReturned (callUtil (d + 40) n!"GenUint32" [.int .int xs.length] 0 { w with int63, uint32 }) =
      some (.values [.list (xs.map fun x => .int .u32 x.toNat)] (2 * xs.length)) := by
  obtain ⟨draws, h⟩ := C35_gen xs
  refine ⟨fun k => (draws (k / 2)).1, fun k => (draws (k / 2)).2, ?_⟩
  have g := (C59_gen d 0 { w with int63 := fun k => (draws (k / 2)).1, uint32 := fun k => (draws (k / 2)).2 }).1 xs.length hx hf
  rw [g]
  have e : (fun j => ((draws (2 * j / 2)).1, (draws ((2 * j + 1) / 2)).2)) = draws := by
    funext j
    rw [show 2 * j / 2 = j by omega, show (2 * j + 1) / 2 = j by omega]
  simp only [Nat.zero_add]
  rw [e, h]

/-! ## Concrete cases -/

/-- The README of `C41_exShape` on the disk. -/
def benchExampleWorld : World :=
  { args := [], canCreate := true, canRead := true, writeFails := none,
    disk := fun p => if p = asc "/src/README.md".toList then
      some (code ([65, 10] ++ (startSentinel ++ ([66, 10] ++ (endSentinel ++ [67, 10]))))) else none,
    getenv := fun n => if n = asc "SBYTE_HOME".toList then asc "/src/".toList else [], inputErr := false,
    uint32 := fun _ => 0, int63 := fun _ => 0, fuel := 10 }

example : pathOf benchExampleWorld = asc "/src/README.md".toList := by decide +kernel

example : runBench 51 (worldOf true true true false none benchExampleWorld) (scanned exBench) =
    some (.exit 0 [(asc "/src/README.md".toList,
      code ([65, 10] ++ (startSentinel ++ (newSection exBench ++ (endSentinel ++ [67, 10])))))] []) := by
  have h := C59_replace 0 benchExampleWorld (bench := exBench) C41_exShape (by decide +kernel) (by decide +kernel)
    (by decide +kernel)
  rw [h, show pathOf benchExampleWorld = asc "/src/README.md".toList by decide +kernel]

/-- A README without sentinels. -/
example : runBench 51 (worldOf true true true false none { benchExampleWorld with disk := fun _ => some [65] })
    (scanned exBench) = some (.exit 1 [] []) := by
  have h := C59_bench 0 true true none { benchExampleWorld with disk := fun _ => some [65] } [65] exBench rfl
    (by decide +kernel)
  rw [show tooLong exBench = false by decide +kernel, show rewrite [65] exBench = .fatal by decide +kernel] at h
  exact h

/-- A README with a start sentinel only. -/
example : runBench 51 (worldOf true true true false none { benchExampleWorld with disk := fun _ => some (code startSentinel) })
    (scanned exBench) = some .panic := by
  obtain ⟨h1, h2, h3⟩ := (C41_ends startSentinel exBench).2.1 (by decide +kernel)
  have h := (C59_sentinels 0 true true none { benchExampleWorld with disk := fun _ => some (code startSentinel) } startSentinel
    exBench rfl (by decide +kernel)).2 h1 h2 h3
  rw [h1] at h
  exact h

/-- An unknown flag. -/
example : runBench 51 { benchExampleWorld with args := [(asc "x".toList, asc "1".toList)] } [] = some (.exit 2 [] []) :=
  C59_flags 0 benchExampleWorld [] _ _ [] (by decide)

/-- The first draw chooses the length, the second the number. -/
example : utilReturned (callUtil 25 n!"RandUint32" [] 0 { benchExampleWorld with int63 := fun _ => 6, uint32 := fun n => n + 3 }) =
    some (.values [.int .u32 65540] 2) := by
  exact C59_rand 0 0 _

example : utilReturned (callUtil 40 n!"GenUint32" [.int .int 2] 0 { benchExampleWorld with uint32 := fun n => n + 3 }) =
    some (.values [.list [.int .u32 4, .int .u32 6]] 4) := by
  exact (C59_gen 0 0 _).1 2 (by decide) (by decide)

example : utilReturned (callUtil 40 n!"GenUint32" [.int .int (-1)] 0 benchExampleWorld) = some .panic :=
  (C59_gen 0 0 _).2 _ (by decide)

end SVB.Props
