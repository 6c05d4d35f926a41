import Verif.Props.Benchmarks

/-!
# C75: every benchmark times the function it is named after

The claims are about the texts of the `_test.go` files, parsed.
-/

set_option autoImplicit false

namespace SVB.Props
open SVB.Tests SVB.Sources
open SVB.Script (Stmt Expr)

/-! ## Vocabulary -/

/-- Is the statement `b.ResetTimer()`? -/
def resetsTimer : Stmt → Bool
  | .expr (.call (.dot (.var b) f) [] false) => Nat.beq b n!"b" && Nat.beq f n!"ResetTimer"
  | _ => false

/-- The statements that do the measurement: those of the benchmark, or, if it ends with a loop that ends with
`b.Run(…, func(b *testing.B) { … })`, those of that function. -/
def measuring (body : List Stmt) : List Stmt :=
  match body.getLast? with
  | some (.loop _ _ _ inner) =>
    match inner.getLast? with
    | some (.expr (.call (.dot (.var b) r) [_, .func [(b', .ptr (.qual p q))] [] rounds] false)) =>
      if Nat.beq b n!"b" && Nat.beq r n!"Run" && Nat.beq b' n!"b" && Nat.beq p n!"testing" && Nat.beq q n!"B" then rounds else body
    | _ => body
  | _ => body

/-- The statements behind the last `b.ResetTimer()`. -/
def afterReset (ss : List Stmt) : Option (List Stmt) :=
  if ss.any resetsTimer then some (ss.reverse.takeWhile fun s => !resetsTimer s).reverse else none

/-- `i := 0`, `i < b.N`, `i++` -/
def countsToN : List Stmt → Expr → List Stmt → Bool
  | [.define [i] (.num 0)], .bin .lt (.var j) (.dot (.var b) n), [.update .add (.var k) (.num 1)] =>
    Nat.beq i n!"i" && Nat.beq j n!"i" && Nat.beq k n!"i" && Nat.beq b n!"b" && Nat.beq n n!"N"
  | _, _, _ => false

/-- An argument whose evaluation takes no time: a variable or a number. -/
def plainArg : Expr → Bool
  | .var _ => true
  | .num _ => true
  | _ => false

/-- A call with plain arguments: package (0: none) and function. -/
def plainCall : Expr → Option (Nat × Nat)
  | .call (.var f) as false => if as.all plainArg then some (0, f) else none
  | .call (.dot (.var p) f) as false => if as.all plainArg then some (p, f) else none
  | _ => none

/-- The call that a statement consists of: the result is not used or assigned to a variable. -/
def callOf : Stmt → Option (Nat × Nat)
  | .expr e => plainCall e
  | .assign [.var _] e => plainCall e
  | _ => none

/-- An assignment of a variable to a variable. -/
def plainAssign : Stmt → Bool
  | .assign [.var _] (.var _) => true
  | _ => false

/-- The call that a benchmark times: behind the last `b.ResetTimer()` there is a loop that runs `b.N` times and consists of this
call, and at most an assignment of a variable. -/
def timedCall (body : List Stmt) : Option (Nat × Nat) :=
  match afterReset (measuring body) with
  | some [.loop i c p [s]] => if countsToN i c p then callOf s else none
  | some [.loop i c p [s], last] => if countsToN i c p && plainAssign last then callOf s else none
  | _ => none

/-- The name of the benchmark of a function. -/
def benchmarkOf (f : Nat) : Nat := n!"Benchmark" * 256 ^ (f.log2 / 8 + 1) + f

/-- The functions of the package under test that have a benchmark, in the order of the benchmarks; and the benchmarks of other
functions. -/
def timedSuite : List (List Nat × List Nat × List (Nat × Nat × Nat)) := [
  (pkgTestGo, [], [(n!"BenchmarkMemCopy8Uint32", 0, n!"copy")]),
  (encodeTestGo, [n!"Put8uint32Fast", n!"Put8uint32DeltaFast", n!"Put8uint32Scalar", n!"Put8uint32DeltaScalar"],
    [(n!"BenchmarkPut8uint32Varint", n!"util", n!"PutVarint"), (n!"BenchmarkPut8uint32DeltaVarint", n!"util", n!"PutDeltaVarint")]),
  (decodeTestGo, [n!"Get8uint32Fast", n!"Get8uint32DeltaFast", n!"Get8uint32Scalar", n!"Get8uint32DeltaScalar"],
    [(n!"BenchmarkGet8uint32Varint", n!"util", n!"GetVarint"), (n!"BenchmarkGet8uint32DeltaVarint", n!"util", n!"GetDeltaVarint")]),
  (writerTestGo, [n!"WriteAllFast", n!"WriteAllDeltaFast", n!"WriteAllScalar", n!"WriteAllDeltaScalar"],
    [(n!"BenchmarkWriteAllVarint", n!"util", n!"PutVarint"), (n!"BenchmarkWriteAllDeltaVarint", n!"util", n!"PutDeltaVarint")]),
  (readerTestGo, [n!"ReadAllFast", n!"ReadAllDeltaFast", n!"ReadAllScalar", n!"ReadAllDeltaScalar"],
    [(n!"BenchmarkReadAllVarint", n!"util", n!"GetVarint"), (n!"BenchmarkReadAllDeltaVarint", n!"util", n!"GetDeltaVarint")])]

/-! ## C75 -/

/-- C75: in every file with benchmarks, these are the benchmarks with the calls that they time, in order: `BenchmarkF` times `F` of
the package under test, those of the `Varint` benchmarks time the function of `util`, `BenchmarkMemCopy8Uint32` times `copy`. -/
theorem C75_timed :
    timedSuite.map (fun e => (Script.parse e.1).map fun F =>
      (F.funcs.filter fun f => isBenchmark f.name).map fun f => (f.name, timedCall f.body)) =
    timedSuite.map fun e => some (e.2.1.map (fun f => (benchmarkOf f, some (0, f))) ++ e.2.2.map fun t => (t.1, some t.2)) := by
  simp only [timedSuite, List.map_cons, List.map_nil, pkgTest_parsed, encTest_parsed, decTest_parsed, wrTest_parsed, rdTest_parsed,
    Option.map_some]
  kernel_rfl

/-- C75: the files and benchmarks are those of C62. -/
theorem C75_all_benchmarks :
    timedSuite.map (fun e => (e.1, e.2.1.map benchmarkOf ++ e.2.2.map (·.1))) ++ [(varintTestGo, [])] =
    benchSuite.map fun e => (e.1, e.2.map (·.1)) := by
  kernel_rfl

/-- C75: in the packages under test, the name without package stands for the function of the package: no test file declares it. -/
theorem C75_not_redeclared :
    timedSuite.map (fun e => (Script.parse e.1).map fun F =>
      e.2.1.all fun f => !((F.funcs.map (·.name)) ++ F.vars.map (·.1) ++ F.consts.map (·.1) ++ F.types).any (Nat.beq f)) =
    timedSuite.map fun _ => some true := by
  simp only [timedSuite, List.map_cons, List.map_nil, pkgTest_parsed, encTest_parsed, decTest_parsed, wrTest_parsed, rdTest_parsed,
    Option.map_some]
  kernel_rfl

example : benchmarkOf n!"ReadAllFast" = n!"BenchmarkReadAllFast" := by decide
-- a loop around something else than a call with plain arguments, or another call in the loop, is not accepted
example : timedCall [.expr (.call (.dot (.var n!"b") n!"ResetTimer") [] false),
    .loop [.define [n!"i"] (.num 0)] (.bin .lt (.var n!"i") (.dot (.var n!"b") n!"N")) [.update .add (.var n!"i") (.num 1)]
      [.expr (.call (.var n!"f") [.var n!"x"] false)]] = some (0, n!"f") := by rfl
example : timedCall [.expr (.call (.dot (.var n!"b") n!"ResetTimer") [] false),
    .loop [.define [n!"i"] (.num 0)] (.bin .lt (.var n!"i") (.dot (.var n!"b") n!"N")) [.update .add (.var n!"i") (.num 1)]
      [.expr (.call (.var n!"f") [.call (.var n!"g") [] false] false)]] = none := by rfl
example : timedCall [.expr (.call (.dot (.var n!"b") n!"ResetTimer") [] false),
    .loop [.define [n!"i"] (.num 0)] (.bin .lt (.var n!"i") (.dot (.var n!"b") n!"N")) [.update .add (.var n!"i") (.num 1)]
      [.expr (.call (.var n!"f") [] false), .expr (.call (.var n!"g") [] false)]] = none := by rfl

end SVB.Props
