import Verif.Props.GoText
import Verif.Proofs.GoStart

/-!
# C57: which builds of the library compile, and that what compiles does not go wrong

`compiles P pkgs` (`GoTypes.lean`) checks the packages `pkgs` of the program `P`: declarations, types, assignments, calls,
missing returns, unused variables and imports, import cycles.  The interpreter answers `.fault` wherever it meets something
the Go compiler rejects (a missing name, an operator on the wrong types, a wrong number of results, …).
-/

set_option autoImplicit false

namespace SVB.Props
open SVB.Go

/-- The packages of the library: `/repo/pkg/shared`, `encode`, `decode`, `stream/writer`, `stream/reader`. -/
def libPkgs : List Nat := [n!"shared", n!"encode", n!"decode", n!"writer", n!"reader"]

/-! ### Which builds compile -/

/-- C57: a build for amd64 compiles. -/
theorem C57_amd64 (c : Cpu) (hc : c.amd64 = true) (P : Program) (h : goProgram c = some P) : compiles P libPkgs = true := by
  rw [goProgram_eq, filesFor, hc, if_pos rfl] at h
  cases h
  decide +kernel

/-- C57: a build for any other target does not. -/
theorem C57_other (c : Cpu) (hc : c.amd64 = false) (P : Program) (h : goProgram c = some P) : compiles P libPkgs = false := by
  rw [goProgram_eq, filesFor, hc] at h
  cases h
  decide +kernel

/-- The full claim "every build compiles" is false. -/
theorem C57_full_false : ¬ ∀ (c : Cpu) (P : Program), goProgram c = some P → compiles P libPkgs = true := by
  intro h
  have h1 := h ⟨false, false, false⟩ _ (goProgram_eq _)
  rw [C57_other ⟨false, false, false⟩ rfl _ (goProgram_eq _)] at h1
  cases h1

/-- The functions of the packages that do not check, with their packages. -/
def rejected (P : Program) (pkgs : List Nat) : List (Nat × Nat) :=
  (P.filter fun F => pkgs.contains F.pkg).flatMap fun F =>
    (F.funcs.filter fun f => !checkFunc ⟨P, pkgs, F.pkg, F.imports.map importName⟩ F f).map fun f => (F.pkg, f.name)

/-- C57: off amd64 exactly three functions are rejected. -/
theorem C57_other_where (c : Cpu) (hc : c.amd64 = false) (P : Program) (h : goProgram c = some P) :
    rejected P libPkgs =
      [(n!"decode", n!"init"), (n!"writer", n!"WriteAllDelta"), (n!"reader", n!"ReadAllDelta")] := by
  rw [goProgram_eq, filesFor, hc] at h
  cases h
  decide +kernel

/-- C57: the reasons.  `WriteAllDelta` calls `WriteAllDeltaFast` and `ReadAllDelta` calls `ReadAllDeltaFast`, which
`/repo/pkg/stream/writer/writer_base.go` and `/repo/pkg/stream/reader/reader_base.go` do not declare; the stub
`Get8uint32Fast` of `/repo/pkg/decode/decode_base.go` has a result, the function type `Get8Impl` it is assigned to has none. -/
theorem C57_other_why (c : Cpu) (hc : c.amd64 = false) (P : Program) (h : goProgram c = some P) :
    P.func n!"writer" n!"WriteAllDeltaFast" = none ∧ P.func n!"reader" n!"ReadAllDeltaFast" = none ∧
      sigOf P libPkgs n!"decode" n!"Get8uint32Fast" = some ([.bytes, .words, .u16], [.int]) ∧
      sigOf P libPkgs n!"decode" n!"Get8uint32Scalar" = some ([.bytes, .words, .u16], []) ∧
      fnName P n!"decode" n!"Get8Impl" = some ([.bytes, .words, .u16], []) := by
  rw [goProgram_eq, filesFor, hc] at h
  cases h
  refine ⟨?_, ?_, ?_, ?_, ?_⟩
  · kernel_rfl
  · kernel_rfl
  all_goals decide +kernel

/-- The stub `func name(params) { panic("unreachable") }`. -/
def stub (name : Nat) (params : List (Nat × GoType)) : Func :=
  ⟨name, params, [], some [.expr (.call (.var n!"panic") [.str [117, 110, 114, 101, 97, 99, 104, 97, 98, 108, 101]])]⟩

/-- The files for other targets with the stubs corrected: the two of `decode_base.go` without results, `ReadAllDeltaFast` added
to `reader_base.go` and `WriteAllDeltaFast` to `writer_base.go`. -/
def repaired : Program :=
  [Files.gen, Files.mode, Files.enc, Files.encBase, Files.dec,
    { Files.decBase with funcs := Files.decBase.funcs.map fun f => if f.name = n!"GetMode" then f else { f with results := [] } },
    Files.wr,
    { Files.wrBase with funcs := Files.wrBase.funcs ++
        [{ stub n!"WriteAllDeltaFast" [(n!"in", .slice (.named n!"uint32")), (n!"prev", .named n!"uint32")] with
            results := [(0, .slice (.named n!"byte"))] }] },
    Files.rd,
    { Files.rdBase with funcs := Files.rdBase.funcs ++
        [stub n!"ReadAllDeltaFast" [(n!"count", .named n!"int"), (n!"stream", .slice (.named n!"byte")),
          (n!"out", .slice (.named n!"uint32")), (n!"prev", .named n!"uint32")]] },
    Files.vint, Files.util]

/-- C57: these corrections are enough. -/
theorem C57_repaired : compiles repaired libPkgs = true := by decide +kernel

/-! ### What compiles does not go wrong -/

/-- C57: in a program that compiles, whose variables have values of their types, a call with arguments of the declared types
never ends with `.fault`: it returns values of the declared types or ends with a Go panic (or exhausts a bound on loops or the
depth of calls). -/
theorem C57_sound (W : World) (pkgs : List Nat) (hP : compiles W.prog pkgs = true) (hv : VarsOk W.prog pkgs W.vars)
    (d pkg f : Nat) (params results : List Ty) (hs : sigOf W.prog pkgs pkg f = some (params, results)) (args : List Val)
    (ha : HasTypes W.prog pkgs args params) (m : Mem) :
    (∃ rs, (run (W.call d pkg f args) m).1 = .ok rs ∧ HasTypes W.prog pkgs rs results) ∨
      (∃ k, (run (W.call d pkg f args) m).1 = .panic k ∧ k ≠ .fault) :=
  Safe.run (call_sound hP hv d pkg f params results args params hs ha ⟨.inr rfl, assignableAll_sig hs⟩) m

/-- C57: in particular the library built for amd64, on every CPU. -/
theorem C57_library (W : World) (hW : Started W) (hc : W.cpu.amd64 = true) (d pkg f : Nat) (params results : List Ty)
    (hs : sigOf W.prog libPkgs pkg f = some (params, results)) (args : List Val)
    (ha : HasTypes W.prog libPkgs args params) (m : Mem) :
    (∃ rs, (run (W.call d pkg f args) m).1 = .ok rs ∧ HasTypes W.prog libPkgs rs results) ∨
      (∃ k, (run (W.call d pkg f args) m).1 = .panic k ∧ k ≠ .fault) :=
  C57_sound W libPkgs (C57_amd64 W.cpu hc W.prog hW.text) (started_varsOk hW hc) d pkg f params results hs args ha m

/-- C57, as far as it is true: builds for amd64 compile and no call goes wrong in them. -/
theorem C57_partial (c : Cpu) (hc : c.amd64 = true) :
    ∃ P, goProgram c = some P ∧ compiles P libPkgs = true ∧
      ∀ (W : World), Started W → W.cpu = c → ∀ (d pkg f : Nat) (params results : List Ty),
        sigOf W.prog libPkgs pkg f = some (params, results) → ∀ args, HasTypes W.prog libPkgs args params →
        ∀ m, (run (W.call d pkg f args) m).1 ≠ .panic .fault := by
  refine ⟨_, goProgram_eq c, C57_amd64 c hc _ (goProgram_eq c), ?_⟩
  rintro W hW rfl d pkg f params results hs args ha m h
  rcases C57_library W hW hc d pkg f params results hs args ha m with ⟨rs, h1, _⟩ | ⟨k, h1, h2⟩
  · rw [h1] at h; cases h
  · rw [h1] at h; cases h; exact h2 rfl

/-- The signatures of the four functions of the stream packages. -/
example : sigOf exWorld.prog libPkgs n!"writer" n!"WriteAll" = some ([.words], [.bytes]) ∧
    sigOf exWorld.prog libPkgs n!"writer" n!"WriteAllDelta" = some ([.words, .u32], [.bytes]) ∧
    sigOf exWorld.prog libPkgs n!"reader" n!"ReadAll" = some ([.int, .bytes, .words], []) ∧
    sigOf exWorld.prog libPkgs n!"reader" n!"ReadAllDelta" = some ([.int, .bytes, .words, .u32], []) := by decide +kernel

/-- The hypotheses of `C57_library` hold of a call of `WriteAll`. -/
example (s : U32s) (m : Mem) : (run (exWorld.call 9 n!"writer" n!"WriteAll" [.words s]) m).1 ≠ .panic .fault := by
  intro h
  rcases C57_library exWorld exWorld_started rfl 9 n!"writer" n!"WriteAll" [.words] [.bytes] (by decide +kernel) [.words s]
    ⟨rfl, trivial⟩ m with ⟨rs, h1, _⟩ | ⟨k, h1, h2⟩
  · rw [h1] at h; cases h
  · rw [h1] at h; cases h; exact h2 rfl

/-- A wrong call does reach `.fault`. -/
example (m : Mem) : (run (exWorld.call 9 n!"shared" n!"ControlByteToSize" [.bool true]) m).1 = .panic .fault := by
  kernel_rfl

/-! ### What is rejected

Packages of one file. -/

/-- `func f(x uint32, s []byte) int { … }` as a package of its own. -/
def single (body : List Stmt) : Program :=
  [{ pkg := n!"p", funcs := [⟨n!"f", [(n!"x", .named n!"uint32"), (n!"s", .slice (.named n!"byte"))], [(0, .named n!"int")],
      some body⟩] }]

/-- `return len(s)` -/
example : compiles (single [.ret [.call (.var n!"len") [.var n!"s"]]]) [n!"p"] = true := by decide +kernel
/-- `return x`: the type is wrong. -/
example : compiles (single [.ret [.var n!"x"]]) [n!"p"] = false := by decide +kernel
/-- `return int(x)` -/
example : compiles (single [.ret [.call (.var n!"int") [.var n!"x"]]]) [n!"p"] = true := by decide +kernel
/-- `return y`: not declared. -/
example : compiles (single [.ret [.var n!"y"]]) [n!"p"] = false := by decide +kernel
/-- `return int(x + len(s))`: operands of different types. -/
example : compiles (single [.ret [.call (.var n!"int") [.bin .add (.var n!"x") (.call (.var n!"len") [.var n!"s"])]]]) [n!"p"]
    = false := by decide +kernel
/-- `s[0] = 256; return 0`: the constant does not fit. -/
example : compiles (single [.assign (.index (.var n!"s") (.num 0)) (.num 256), .ret [.num 0]]) [n!"p"] = false := by
  decide +kernel
/-- `s[0] = 255; return 0` -/
example : compiles (single [.assign (.index (.var n!"s") (.num 0)) (.num 255), .ret [.num 0]]) [n!"p"] = true := by
  decide +kernel
/-- `y := x; return 0`: `y` is not used. -/
example : compiles (single [.define [n!"y"] (.var n!"x"), .ret [.num 0]]) [n!"p"] = false := by decide +kernel
/-- `y := x; return int(y)` -/
example : compiles (single [.define [n!"y"] (.var n!"x"), .ret [.call (.var n!"int") [.var n!"y"]]]) [n!"p"] = true := by
  decide +kernel
/-- `if x == 0 { return 0 }`: missing return. -/
example : compiles (single [.ite (.bin .eq (.var n!"x") (.num 0)) [.ret [.num 0]] []]) [n!"p"] = false := by decide +kernel
/-- `if x == 0 { return 0 } else { return 1 }` -/
example : compiles (single [.ite (.bin .eq (.var n!"x") (.num 0)) [.ret [.num 0]] [.ret [.num 1]]]) [n!"p"] = true := by
  decide +kernel
/-- `return bits.LeadingZeros32(x)` without the import. -/
example : compiles (single [.ret [.call (.dot (.var n!"bits") n!"LeadingZeros32") [.var n!"x"]]]) [n!"p"] = false := by
  decide +kernel
/-- … and with it. -/
example : compiles ((single [.ret [.call (.dot (.var n!"bits") n!"LeadingZeros32") [.var n!"x"]]]).map
    fun F => { F with imports := [n!"math/bits"] }) [n!"p"] = true := by decide +kernel
/-- An import that is not used. -/
example : compiles ((single [.ret [.num 0]]).map fun F => { F with imports := [n!"math/bits"] }) [n!"p"] = false := by
  decide +kernel
/-- Two functions of the same name. -/
example : compiles (single [.ret [.num 0]] ++ single [.ret [.num 0]]) [n!"p"] = false := by decide +kernel

end SVB.Props
