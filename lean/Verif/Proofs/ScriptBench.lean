import Verif.Proofs.ScriptTables

/-! # `parse_and_write_bench.go` as the interpreter runs it -/

set_option autoImplicit false
set_option maxRecDepth 100000

namespace SVB.Script.Bench

open SVB.Sources

/-- The files of the program: package `util`, then `main`. -/
def files : List File := [Files.util, Files.rand, Files.bench]

def goos : Text := asc "goos".toList
def goarch : Text := asc "goarch".toList
def pkg : Text := asc "pkg".toList
def cpu : Text := asc "cpu".toList
def benchmark : Text := asc "Benchmark".toList
def dashes : Text := asc "--".toList
def startSentinel : Text := asc "## Benchmarks\n\n```text\n".toList
def endSentinel : Text := asc "```\n".toList

/-- The name of the README. -/
def pathOf (w : World) : Text := joinPath (w.getenv (asc "SBYTE_HOME".toList)) (asc "README.md".toList)

/-- Package-level variables and constants after initialisation, last first. -/
def vars (path : Text) : List ((Nat × Nat) × V) :=
  [((n!"main", n!"fWriteOut"), .flag (asc "w".toList) (.bool false)),
    ((n!"main", n!"readmeFile"), .str path),
    ((n!"main", n!"validPrefixes"), .list [.str goos, .str goarch, .str pkg, .str cpu, .str benchmark]),
    ((n!"main", n!"endSentinel"), .str endSentinel),
    ((n!"main", n!"startSentinel"), .str startSentinel),
    ((n!"main", n!"dashes"), .str dashes),
    ((n!"main", n!"benchmark"), .str benchmark),
    ((n!"main", n!"cpu"), .str cpu),
    ((n!"main", n!"pkg"), .str pkg),
    ((n!"main", n!"goarch"), .str goarch),
    ((n!"main", n!"goos"), .str goos),
    ((n!"util", n!"generators"), .list [.clos 0, .clos 1, .clos 2, .clos 3])]

def ctx (path : Text) : Ctx := ⟨files, vars path⟩

/-- A state of the program. -/
def st (ds : List (V × List V)) (parsed : Bool) (fs : List (Text × Text)) (out : Text) (input : List Text) (line : Text) : St :=
  ⟨Tables.genClosures, [], ds, [asc "w".toList], parsed, fs, out, input, line, 0, [], [], false⟩

theorem init (w : World) (d : Nat) (input : List Text) :
    initVars (d + 10) files (globals files) [] w { input } = .ok (vars (pathOf w)) (st [] false [] [] input []) := by
  kernel_rfl

/-! ## `anyPrefix` -/

def anyPrefix (line : Text) : Bool := [goos, goarch, pkg, cpu, benchmark].any (hasPrefix line)

def anyBody : List Stmt :=
  match Files.bench_anyPrefix.body with
  | [.range _ _ _ b, _] => b
  | _ => []

theorem any_body (path : Text) (d : Nat) (w : World) (s : St) (q line : Text) :
    (Interp.depth (ctx path) (d + 10)).execs n!"main" anyBody [(n!"p", .str q), (n!"in", .str line)] w s =
      .ok (if hasPrefix line q then .ret [.bool true] [(n!"p", .str q), (n!"in", .str line)]
        else .next [(n!"p", .str q), (n!"in", .str line)]) s := by
  have c : (Interp.depth (ctx path) (d + 8)).eval n!"main" [(n!"p", .str q), (n!"in", .str line)]
      (.call (.dot (.var n!"strings") n!"HasPrefix") [.var n!"in", .var n!"p"] false) w s = .ok (.bool (hasPrefix line q)) s := by
    kernel_rfl
  have e : anyBody = [.ite [] (.call (.dot (.var n!"strings") n!"HasPrefix") [.var n!"in", .var n!"p"] false)
      [.ret [.var n!"true"]] []] := by kernel_rfl
  have x := exec_if (n := d + 7) c (thn := [.ret [.var n!"true"]]) (els := [])
  rw [e]
  revert x
  generalize hasPrefix line q = b
  intro x
  cases b
  · exact (execs_next (n := d + 9) (s' := s) (env' := [(n!"p", .str q), (n!"in", .str line)]) (x.trans (by kernel_rfl))).trans
      (by kernel_rfl)
  · exact execs_ret (n := d + 9) (x.trans (by kernel_rfl))

theorem any_loop (path : Text) (d : Nat) (w : World) (s : St) (line : Text) (qs : List Text) (i : Nat) :
    ∃ e, rangeLoop n!"_" n!"p" ((Interp.depth (ctx path) (d + 10)).execs n!"main" anyBody) (qs.map .str) i
      [(n!"in", .str line)] w s =
      .ok (if qs.any (hasPrefix line) then .ret [.bool true] e else .next [(n!"in", .str line)]) s := by
  induction qs generalizing i with
  | nil => exact ⟨[], rfl⟩
  | cons q qs ih =>
    have h : ∀ k, rangeLoop n!"_" n!"p" ((Interp.depth (ctx path) (d + 10)).execs n!"main" anyBody) ((q :: qs).map .str) k
        [(n!"in", .str line)] w s =
        M.bind ((Interp.depth (ctx path) (d + 10)).execs n!"main" anyBody [(n!"p", .str q), (n!"in", .str line)])
          (fun f => f.andThen fun e => rangeLoop n!"_" n!"p" ((Interp.depth (ctx path) (d + 10)).execs n!"main" anyBody)
            (qs.map .str) (k + 1) (e.leave 1)) w s := fun k => by kernel_rfl
    rw [h]
    simp only [M.bind, any_body]
    cases hp : hasPrefix line q
    · obtain ⟨e, he⟩ := ih (i + 1)
      refine ⟨e, ?_⟩
      simp only [Bool.false_eq_true, if_false, Flow.andThen, List.any_cons, hp, Bool.false_or]
      exact he
    · refine ⟨[(n!"p", .str q), (n!"in", .str line)], ?_⟩
      simp only [if_true, Flow.andThen, List.any_cons, hp, Bool.true_or]
      rfl

theorem any_apply (path : Text) (d : Nat) (w : World) (fs : List (Text × Text)) (out : Text) (input : List Text) (line l : Text) :
    (Interp.depth (ctx path) (d + 13)).apply (.fn n!"main" n!"anyPrefix") [.str l] w (st [] true fs out input line) =
      .ok [.bool (anyPrefix l)] (st [] true fs out input line) := by
  have b : Files.bench_anyPrefix.body = [.range n!"_" n!"p" (.var n!"validPrefixes") anyBody, .ret [.var n!"false"]] := by
    kernel_rfl
  obtain ⟨e, he⟩ := any_loop path d w (st [] true fs out input line) l [goos, goarch, pkg, cpu, benchmark] 0
  have x : (Interp.depth (ctx path) (d + 11)).exec n!"main" [(n!"in", .str l)]
      (.range n!"_" n!"p" (.var n!"validPrefixes") anyBody) w (st [] true fs out input line) =
      rangeLoop n!"_" n!"p" ((Interp.depth (ctx path) (d + 10)).execs n!"main" anyBody)
        ([goos, goarch, pkg, cpu, benchmark].map .str) 0 [(n!"in", .str l)] w (st [] true fs out input line) := by
    kernel_rfl
  rw [he, show [goos, goarch, pkg, cpu, benchmark].any (hasPrefix l) = anyPrefix l from rfl] at x
  have f : ∀ c : Bool, ∃ e', (Interp.depth (ctx path) (d + 11)).exec n!"main" [(n!"in", .str l)]
      (.range n!"_" n!"p" (.var n!"validPrefixes") anyBody) w (st [] true fs out input line) =
      .ok (if c = true then .ret [.bool true] e else .next [(n!"in", .str l)]) (st [] true fs out input line) →
      (Interp.depth (ctx path) (d + 12)).execs n!"main" Files.bench_anyPrefix.body [(n!"in", .str l)] w
        (st [] true fs out input line) = .ok (.ret [.bool c] e') (st [] true fs out input line) := by
    intro c
    rw [b]
    cases c
    · exact ⟨[(n!"in", .str l)], fun h => (execs_next (n := d + 11) h).trans (by kernel_rfl)⟩
    · exact ⟨e, fun h => execs_ret (n := d + 11) h⟩
  obtain ⟨e', f⟩ := f (anyPrefix l)
  exact apply_fn (n := d + 12) (g := Files.bench_anyPrefix) (env := [(n!"in", .str l)]) (res := []) (r := ([.bool (anyPrefix l)], e'))
    (by kernel_rfl) rfl rfl rfl (f x) rfl rfl

/-! ## The loop -/

/-- The statements of `main`. -/
def stmt (j : Nat) : Stmt := Files.bench_main.body[j]?.getD (.ret [])

def loopParts : Expr × List Stmt :=
  match stmt 4 with
  | .loop _ c _ b => (c, b)
  | _ => (.num 0, [])

/-- The statements under `if anyPrefix(line)`. -/
def inner : List Stmt :=
  match loopParts.2 with
  | [_, .ite _ _ t _] => t
  | _ => []

/-- Variables at the loop. -/
def env (hb : Bool) (vs : List V) : Env := [(n!"scanner", .scanner), (n!"hasBench", .bool hb), (n!"lines", .list vs)]

def trim (l : Text) : Text := bif hasPrefix l benchmark then l.drop benchmark.length else l

/-- What an iteration does with `hasBench` and `lines`. -/
def step (s : Bool × List Text) (l : Text) : Bool × List Text :=
  if anyPrefix l then
    let hb := s.1 || hasPrefix l benchmark
    (hb, ((if hb && hasPrefix l goos then s.2 ++ [[]] else s.2) ++ [if hb then trim l else l]) ++
      (if hasPrefix l cpu then [dashes] else []))
  else s

section
variable (path : Text) (d : Nat) (w : World) (s : St) (l : Text) (vs : List V)

theorem inner₁ (hb : Bool) (ss : List Stmt) :
    (Interp.depth (ctx path) (d + 20)).execs n!"main" (inner.take 2 ++ ss) ((n!"line", .str l) :: env hb vs) w s =
      (Interp.depth (ctx path) (d + 18)).execs n!"main" ss ((n!"emitDash", .bool (hasPrefix l cpu)) :: (n!"line", .str l) ::
        env (hb || hasPrefix l benchmark) vs) w s := by
  cases hb <;> kernel_rfl

theorem inner₂ (hb dash : Bool) (ss : List Stmt) :
    (Interp.depth (ctx path) (d + 18)).execs n!"main" ((inner.drop 2).take 1 ++ ss) ((n!"emitDash", .bool dash) ::
        (n!"line", .str l) :: env hb vs) w s =
      (Interp.depth (ctx path) (d + 17)).execs n!"main" ss ((n!"emitNewline", .bool (hb && hasPrefix l goos)) ::
        (n!"emitDash", .bool dash) :: (n!"line", .str l) :: env hb vs) w s := by
  cases hb <;> kernel_rfl

theorem inner₃ (hb dash nl : Bool) :
    (Interp.depth (ctx path) (d + 17)).execs n!"main" (inner.drop 3) ((n!"emitNewline", .bool nl) ::
        (n!"emitDash", .bool dash) :: (n!"line", .str l) :: env hb vs) w s =
      .ok (.next ((n!"emitNewline", .bool nl) :: (n!"emitDash", .bool dash) ::
        (n!"line", .str (if hb then trim l else l)) ::
        env hb (if dash then ((if nl then vs ++ [.str []] else vs) ++ [.str (if hb then trim l else l)]) ++ [.str dashes]
          else (if nl then vs ++ [.str []] else vs) ++ [.str (if hb then trim l else l)]))) s := by
  cases hb <;> cases dash <;> cases nl <;> kernel_rfl

end

theorem body_run (path : Text) (d : Nat) (w : World) (fs : List (Text × Text)) (out : Text) (ls : List Text) (l : Text)
    (c : Bool × List Text) :
    loopBody (Interp.depth (ctx path) (d + 23)) n!"main" [] loopParts.2 (env c.1 (c.2.map .str)) w (st [] true fs out ls l) =
      .ok (.next (env (step c l).1 ((step c l).2.map .str))) (st [] true fs out ls l) := by
  have b : loopParts.2 = [.define [n!"line"] (.call (.dot (.var n!"scanner") n!"Text") [] false),
      .ite [] (.call (.var n!"anyPrefix") [.var n!"line"] false) inner []] := by kernel_rfl
  have x₁ : (Interp.depth (ctx path) (d + 22)).exec n!"main" (env c.1 (c.2.map .str))
      (.define [n!"line"] (.call (.dot (.var n!"scanner") n!"Text") [] false)) w (st [] true fs out ls l) =
      .ok (.next ((n!"line", .str l) :: env c.1 (c.2.map .str))) (st [] true fs out ls l) := by kernel_rfl
  have x₂ : (Interp.depth (ctx path) (d + 20)).eval n!"main" ((n!"line", .str l) :: env c.1 (c.2.map .str))
      (.call (.var n!"anyPrefix") [.var n!"line"] false) w (st [] true fs out ls l) =
      .ok (.bool (anyPrefix l)) (st [] true fs out ls l) := by
    have f : (Interp.depth (ctx path) (d + 20)).multi n!"main" ((n!"line", .str l) :: env c.1 (c.2.map .str))
      (.call (.var n!"anyPrefix") [.var n!"line"] false) w (st [] true fs out ls l) =
      (Interp.depth (ctx path) (d + 19)).apply (.fn n!"main" n!"anyPrefix") [.str l] w (st [] true fs out ls l) := by
      kernel_rfl
    rw [any_apply path (d + 6)] at f
    simp only [Interp.eval, bind, M.bind, f]
    rfl
  have x₃ := exec_if (n := d + 19) x₂ (thn := inner) (els := [])
  have x₄ : (Interp.depth (ctx path) (d + 21)).exec n!"main" ((n!"line", .str l) :: env c.1 (c.2.map .str))
      (.ite [] (.call (.var n!"anyPrefix") [.var n!"line"] false) inner []) w (st [] true fs out ls l) =
      .ok (.next ((if anyPrefix l then ((n!"line", .str (if (step c l).1 then trim l else l))) else (n!"line", .str l)) ::
        env (step c l).1 ((step c l).2.map .str))) (st [] true fs out ls l) := by
    refine x₃.trans ?_
    cases h : anyPrefix l
    · have : step c l = c := by simp only [step, h, Bool.false_eq_true, if_false]
      rw [this]
      rfl
    · have i₁ : inner = inner.take 2 ++ ((inner.drop 2).take 1 ++ inner.drop 3) := by kernel_rfl
      have r : (Interp.depth (ctx path) (d + 20)).execs n!"main" inner ((n!"line", .str l) :: env c.1 (c.2.map .str)) w
          (st [] true fs out ls l) = .ok (.next ((n!"emitNewline", .bool ((c.1 || hasPrefix l benchmark) && hasPrefix l goos)) ::
            (n!"emitDash", .bool (hasPrefix l cpu)) :: (n!"line", .str (if (step c l).1 then trim l else l)) ::
            env (step c l).1 ((step c l).2.map .str))) (st [] true fs out ls l) := by
        rw [i₁, inner₁, inner₂, inner₃]
        simp only [step, h, if_true]
        have e : ∀ (dash nl : Bool) (x : Text) (ls : List Text),
            (if dash = true then ((if nl = true then ls.map V.str ++ [.str []] else ls.map V.str) ++ [.str x]) ++ [.str dashes]
              else (if nl = true then ls.map V.str ++ [.str []] else ls.map V.str) ++ [.str x]) =
            (((if nl = true then ls ++ [[]] else ls) ++ [x]) ++ (if dash = true then [dashes] else [])).map V.str := by
          intro dash nl x ls
          cases dash <;> cases nl <;> simp
        rw [e]
      simp only [if_true, r]
      rfl
  have y : (Interp.depth (ctx path) (d + 23)).execs n!"main" loopParts.2 (env c.1 (c.2.map .str)) w (st [] true fs out ls l) =
      .ok (.next ((if anyPrefix l then ((n!"line", .str (if (step c l).1 then trim l else l))) else (n!"line", .str l)) ::
        env (step c l).1 ((step c l).2.map .str))) (st [] true fs out ls l) := by
    rw [b]
    refine (execs_next (n := d + 22) x₁).trans ?_
    exact (execs_next (n := d + 21) x₄).trans rfl
  simp only [loopBody, inScope, bind, M.bind, y, Flow.andThen, pure, M.pure]
  rfl

theorem loop_run (path : Text) (d : Nat) (w : World) (fs : List (Text × Text)) (out : Text) (ls : List Text) (l : Text)
    (c : Bool × List Text) (n : Nat) (hn : ls.length < n) :
    ∃ l', forLoop (loopCond (Interp.depth (ctx path) (d + 23)) n!"main" loopParts.1)
        (loopBody (Interp.depth (ctx path) (d + 23)) n!"main" [] loopParts.2) n (env c.1 (c.2.map .str)) w
        (st [] true fs out ls l) =
      .ok (.next (env (ls.foldl step c).1 ((ls.foldl step c).2.map .str))) (st [] true fs out [] l') := by
  induction ls generalizing l c n with
  | nil =>
    obtain ⟨n, rfl⟩ : ∃ k, n = k + 1 := ⟨n - 1, by simp at hn; omega⟩
    have h : loopCond (Interp.depth (ctx path) (d + 23)) n!"main" loopParts.1 (env c.1 (c.2.map .str)) w
        (st [] true fs out [] l) = .ok false (st [] true fs out [] l) := by kernel_rfl
    refine ⟨l, ?_⟩
    simp only [forLoop, bind, M.bind, h]
    rfl
  | cons x ls ih =>
    obtain ⟨n, rfl⟩ : ∃ k, n = k + 1 := ⟨n - 1, by simp at hn; omega⟩
    have h : loopCond (Interp.depth (ctx path) (d + 23)) n!"main" loopParts.1 (env c.1 (c.2.map .str)) w
        (st [] true fs out (x :: ls) l) = .ok true (st [] true fs out ls x) := by kernel_rfl
    obtain ⟨l', hl⟩ := ih x (step c x) n (by simp at hn; omega)
    refine ⟨l', ?_⟩
    simp only [forLoop, bind, M.bind, h, if_true, body_run, Flow.andThen, hl, List.foldl_cons]

/-! ## The rest of `main` -/

/-- A world with these answers; `wr`: the flag `-w`. -/
def worldOf (wr cc cr ie : Bool) (wf : Option Nat) (w : World) : World :=
  ⟨bif wr then [(asc "w".toList, asc "true".toList)] else [], cc, cr, wf, w.disk, w.getenv, ie, w.uint32, w.int63, w.fuel⟩

section
variable (path : Text) (d : Nat) (wr cc cr ie : Bool) (wf : Option Nat) (w : World) (l : Text) (ss : List Stmt) (hb : Bool)
  (vs : List V)

/-- Up to the loop. -/
theorem part₀ (input : List Text) :
    (Interp.depth (ctx path) (d + 50)).execs n!"main" (Files.bench_main.body.take 4 ++ ss) [] (worldOf wr cc cr ie wf w)
        (st [] false [] [] input []) =
      (Interp.depth (ctx path) (d + 46)).execs n!"main" ss (env false []) (worldOf wr cc cr ie wf w)
        (st [] true [] [] input []) := by
  cases wr <;> kernel_rfl

theorem part₄ (input : List Text) (hf : input.length < w.fuel) :
    ∃ l, (Interp.depth (ctx path) (d + 46)).execs n!"main" (stmt 4 :: ss) (env false []) (worldOf wr cc cr ie wf w)
        (st [] true [] [] input []) =
      (Interp.depth (ctx path) (d + 45)).execs n!"main" ss
        (env (input.foldl step (false, [])).1 ((input.foldl step (false, [])).2.map .str)) (worldOf wr cc cr ie wf w)
        (st [] true [] [] [] l) := by
  obtain ⟨l, h⟩ := loop_run path (d + 21) (worldOf wr cc cr ie wf w) [] [] input [] (false, []) w.fuel hf
  refine ⟨l, execs_next (n := d + 45) ?_⟩
  have e : stmt 4 = .loop [] loopParts.1 [] loopParts.2 := by kernel_rfl
  have i : (Interp.depth (ctx path) (d + 44)).execs n!"main" [] (env false []) (worldOf wr cc cr ie wf w)
    (st [] true [] [] input []) = .ok (.next (env false [])) (st [] true [] [] input []) := rfl
  rw [e, depth_exec (ctx path) (d + 44)]
  have h' : forLoop (loopCond (Interp.depth (ctx path) (d + 44)) n!"main" loopParts.1)
        (loopBody (Interp.depth (ctx path) (d + 44)) n!"main" [] loopParts.2) (worldOf wr cc cr ie wf w).fuel (env false [])
        (worldOf wr cc cr ie wf w) (st [] true [] [] input []) = _ := h
  simp only [execStep, inScope, bind, M.bind, i, Flow.andThen, h', pure, M.pure]
  rfl

/-- `scanner.Err()` -/
theorem part₅ : (Interp.depth (ctx path) (d + 45)).execs n!"main" (stmt 5 :: ss) (env hb vs) (worldOf wr cc cr false wf w)
      (st [] true [] [] [] l) =
    (Interp.depth (ctx path) (d + 44)).execs n!"main" ss (env hb vs) (worldOf wr cc cr false wf w) (st [] true [] [] [] l) := by
  kernel_rfl

theorem part₅_exit : (Interp.depth (ctx path) (d + 45)).execs n!"main" (stmt 5 :: ss) (env hb vs) (worldOf wr cc cr true wf w)
      (st [] true [] [] [] l) = .exit 1 (st [] true [] [] [] l) := by
  kernel_rfl

/-- `os.Open` -/
theorem open_eq (w : World) (s : St) : libFn n!"os" n!"Open" [.str path] w s =
    (match w.disk path with
    | some _ => M.pure [.opened path, .nil]
    | none => M.pure [.nil, .err] : M (List V)) w s := by
  kernel_rfl

def openCall : Expr := .call (.dot (.var n!"os") n!"Open") [.var n!"readmeFile"] false

theorem open_multi (w : World) (s : St) : (Interp.depth (ctx path) (d + 42)).multi n!"main" (env hb vs) openCall w s =
    libFn n!"os" n!"Open" [.str path] w s := by
  kernel_rfl

theorem part₆ (t : Text) (h : w.disk path = some t) :
    (Interp.depth (ctx path) (d + 44)).execs n!"main" (stmt 6 :: stmt 7 :: ss) (env hb vs) (worldOf wr cc cr ie wf w)
      (st [] true [] [] [] l) =
    (Interp.depth (ctx path) (d + 42)).execs n!"main" ss ((n!"err", .nil) :: (n!"outputFile", .opened path) :: env hb vs)
      (worldOf wr cc cr ie wf w) (st [] true [] [] [] l) := by
  have e : stmt 6 = .define [n!"outputFile", n!"err"] openCall := by kernel_rfl
  have h' : (worldOf wr cc cr ie wf w).disk path = some t := h
  have m := (open_multi path d hb vs (worldOf wr cc cr ie wf w) (st [] true [] [] [] l)).trans
    (open_eq path (worldOf wr cc cr ie wf w) (st [] true [] [] [] l))
  rw [h'] at m
  have x : (Interp.depth (ctx path) (d + 43)).exec n!"main" (env hb vs) (stmt 6) (worldOf wr cc cr ie wf w)
      (st [] true [] [] [] l) = .ok (.next ((n!"err", .nil) :: (n!"outputFile", .opened path) :: env hb vs))
      (st [] true [] [] [] l) := by
    rw [e, depth_exec (ctx path) (d + 42)]
    simp only [execStep, bind, M.bind, m]
    rfl
  exact (execs_next (n := d + 43) x).trans (by kernel_rfl)

theorem part₆_exit (h : w.disk path = none) :
    (Interp.depth (ctx path) (d + 44)).execs n!"main" (stmt 6 :: stmt 7 :: ss) (env hb vs) (worldOf wr cc cr ie wf w)
      (st [] true [] [] [] l) = .exit 1 (st [] true [] [] [] l) := by
  have e : stmt 6 = .define [n!"outputFile", n!"err"] openCall := by kernel_rfl
  have h' : (worldOf wr cc cr ie wf w).disk path = none := h
  have m := (open_multi path d hb vs (worldOf wr cc cr ie wf w) (st [] true [] [] [] l)).trans
    (open_eq path (worldOf wr cc cr ie wf w) (st [] true [] [] [] l))
  rw [h'] at m
  have x : (Interp.depth (ctx path) (d + 43)).exec n!"main" (env hb vs) (stmt 6) (worldOf wr cc cr ie wf w)
      (st [] true [] [] [] l) = .ok (.next ((n!"err", .err) :: (n!"outputFile", .nil) :: env hb vs))
      (st [] true [] [] [] l) := by
    rw [e, depth_exec (ctx path) (d + 42)]
    simp only [execStep, bind, M.bind, m]
    rfl
  exact (execs_next (n := d + 43) x).trans (by kernel_rfl)

/-- Variables after the file has been opened, and after it has been read. -/
def env₆ : Env := (n!"err", .nil) :: (n!"outputFile", .opened path) :: env hb vs
def env₈ (t : Text) : Env := (n!"err", .nil) :: (n!"allData", .bytes t) :: env₆ path hb vs

/-- `io.ReadAll` -/
def readCall : Expr := .call (.dot (.var n!"io") n!"ReadAll") [.var n!"outputFile"] false

theorem read_eq (w : World) (s : St) : libFn n!"io" n!"ReadAll" [.opened path] w s =
    (match w.canRead, w.disk path with
    | true, some t => M.pure [.bytes t, .nil]
    | _, _ => M.pure [.bytes [], .err] : M (List V)) w s := by
  kernel_rfl

theorem read_multi (w : World) (s : St) : (Interp.depth (ctx path) (d + 40)).multi n!"main" (env₆ path hb vs) readCall w s =
    libFn n!"io" n!"ReadAll" [.opened path] w s := by
  kernel_rfl

theorem part₈ (t : Text) (h : w.disk path = some t) :
    (Interp.depth (ctx path) (d + 42)).execs n!"main" (stmt 8 :: stmt 9 :: stmt 10 :: ss) (env₆ path hb vs)
      (worldOf wr cc true ie wf w) (st [] true [] [] [] l) =
    (Interp.depth (ctx path) (d + 39)).execs n!"main" ss (env₈ path hb vs t) (worldOf wr cc true ie wf w)
      (st [] true [] [] [] l) := by
  have e : stmt 8 = .define [n!"allData", n!"err"] readCall := by kernel_rfl
  have h' : (worldOf wr cc true ie wf w).disk path = some t := h
  have c : (worldOf wr cc true ie wf w).canRead = true := rfl
  have m := (read_multi path d hb vs (worldOf wr cc true ie wf w) (st [] true [] [] [] l)).trans
    (read_eq path (worldOf wr cc true ie wf w) (st [] true [] [] [] l))
  rw [h', c] at m
  have x : (Interp.depth (ctx path) (d + 41)).exec n!"main" (env₆ path hb vs) (stmt 8) (worldOf wr cc true ie wf w)
      (st [] true [] [] [] l) = .ok (.next (env₈ path hb vs t)) (st [] true [] [] [] l) := by
    rw [e, depth_exec (ctx path) (d + 40)]
    simp only [execStep, bind, M.bind, m]
    rfl
  exact (execs_next (n := d + 41) x).trans (by kernel_rfl)

theorem part₈_exit (t : Text) (h : w.disk path = some t) :
    (Interp.depth (ctx path) (d + 42)).execs n!"main" (stmt 8 :: stmt 9 :: stmt 10 :: ss) (env₆ path hb vs)
      (worldOf wr cc false ie wf w) (st [] true [] [] [] l) = .exit 1 (st [] true [] [] [] l) := by
  have e : stmt 8 = .define [n!"allData", n!"err"] readCall := by kernel_rfl
  have h' : (worldOf wr cc false ie wf w).disk path = some t := h
  have c : (worldOf wr cc false ie wf w).canRead = false := rfl
  have m := (read_multi path d hb vs (worldOf wr cc false ie wf w) (st [] true [] [] [] l)).trans
    (read_eq path (worldOf wr cc false ie wf w) (st [] true [] [] [] l))
  rw [h', c] at m
  have x : (Interp.depth (ctx path) (d + 41)).exec n!"main" (env₆ path hb vs) (stmt 8) (worldOf wr cc false ie wf w)
      (st [] true [] [] [] l) = .ok (.next ((n!"err", .err) :: (n!"allData", .bytes []) :: env₆ path hb vs))
      (st [] true [] [] [] l) := by
    rw [e, depth_exec (ctx path) (d + 40)]
    simp only [execStep, bind, M.bind, m]
    rfl
  exact (execs_next (n := d + 41) x).trans (by kernel_rfl)

/-- What `bytes.Index` returns. -/
def posOf (p t : Text) : Int := match indexOf p t 0 with | some k => k | none => -1

def env₁₃ (t : Text) (x : Int) : Env :=
  (n!"start", .int .int x) :: (n!"bEnd", .bytes endSentinel) :: (n!"bStart", .bytes startSentinel) :: env₈ path hb vs t

theorem part₁₁ (t : Text) (w : World) :
    (Interp.depth (ctx path) (d + 39)).execs n!"main" (stmt 11 :: stmt 12 :: stmt 13 :: ss) (env₈ path hb vs t) w
      (st [] true [] [] [] l) =
    (Interp.depth (ctx path) (d + 36)).execs n!"main" ss (env₁₃ path hb vs t (posOf startSentinel t)) w
      (st [] true [] [] [] l) := by
  kernel_rfl

/-- `if start < 0` -/
theorem part₁₄ (t : Text) (x : Int) (w : World) :
    (Interp.depth (ctx path) (d + 36)).execs n!"main" (stmt 14 :: ss) (env₁₃ path hb vs t x) w (st [] true [] [] [] l) =
      if x < 0 then .exit 1 (st [] true [] [] [] l)
      else (Interp.depth (ctx path) (d + 35)).execs n!"main" ss (env₁₃ path hb vs t x) w (st [] true [] [] [] l) := by
  have e : stmt 14 = .ite [] (.bin .lt (.var n!"start") (.num 0)) [.expr (.call (.dot (.var n!"log") n!"Fatalf")
    [.str (asc "couldn't find start sentinel".toList)] false)] [] := by kernel_rfl
  have c : (Interp.depth (ctx path) (d + 34)).eval n!"main" (env₁₃ path hb vs t x) (.bin .lt (.var n!"start") (.num 0)) w
      (st [] true [] [] [] l) = .ok (.bool (decide (x < 0))) (st [] true [] [] [] l) := by kernel_rfl
  have i := exec_if (n := d + 33) c (thn := [.expr (.call (.dot (.var n!"log") n!"Fatalf")
    [.str (asc "couldn't find start sentinel".toList)] false)]) (els := [])
  rw [e]
  by_cases h : x < 0
  · rw [decide_eq_true h] at i
    rw [if_pos h]
    exact execs_exit (n := d + 35) (i.trans (by kernel_rfl))
  · rw [decide_eq_false h] at i
    rw [if_neg h]
    exact execs_next (n := d + 35) (i.trans (by kernel_rfl))

/-- Variables while `final` is put together. -/
def envF (t : Text) (x y : Int) (f : Text) : Env :=
  (n!"final", .bytes f) :: (n!"restStart", .int .int y) :: env₁₃ path hb vs t x

theorem part₁₅ (t : Text) (x : Int) (w : World) :
    (Interp.depth (ctx path) (d + 35)).execs n!"main" (stmt 15 :: stmt 16 :: ss) (env₁₃ path hb vs t x) w
      (st [] true [] [] [] l) =
    (Interp.depth (ctx path) (d + 33)).execs n!"main" ss (envF path hb vs t x (posOf endSentinel t) []) w
      (st [] true [] [] [] l) := by
  kernel_rfl

/-- `final = append(final, e...)` -/
def appendStmt (e : Expr) : Stmt := .assign [.var n!"final"] (.call (.var n!"append") [.var n!"final", e] true)

theorem append_exec {t f u : Text} {x y : Int} {w : World} {s : St} {e : Expr}
    (h : (Interp.depth (ctx path) (d + 20)).eval n!"main" (envF path hb vs t x y f) e w s = .ok (.bytes u) s) :
    (Interp.depth (ctx path) (d + 24)).exec n!"main" (envF path hb vs t x y f) (appendStmt e) w s =
      .ok (.next (envF path hb vs t x y (f ++ u))) s := by
  have v : (Interp.depth (ctx path) (d + 21)).eval n!"main" (envF path hb vs t x y f) (.var n!"final") w s =
      .ok (.bytes f) s := by kernel_rfl
  have es : (Interp.depth (ctx path) (d + 21)).evals n!"main" (envF path hb vs t x y f) [e] w s = .ok [.bytes u] s := by
    show evalsStep (Interp.depth (ctx path) (d + 20)) n!"main" (envF path hb vs t x y f) [e] w s = _
    simp only [evalsStep, bind, M.bind, h]
    rfl
  have es' : (Interp.depth (ctx path) (d + 22)).evals n!"main" (envF path hb vs t x y f) [.var n!"final", e] w s =
      .ok [.bytes f, .bytes u] s := by
    show evalsStep (Interp.depth (ctx path) (d + 21)) n!"main" (envF path hb vs t x y f) [.var n!"final", e] w s = _
    simp only [evalsStep, bind, M.bind, v, es]
    rfl
  have m : (Interp.depth (ctx path) (d + 23)).multi n!"main" (envF path hb vs t x y f)
      (.call (.var n!"append") [.var n!"final", e] true) w s = .ok [.bytes (f ++ u)] s := by
    rw [depth_multi (ctx path) (d + 22)]
    simp only [multiStep, callArgs, bind, M.bind, es', show Nat.beq n!"append" n!"append" = true from rfl, cond_true]
    rfl
  rw [appendStmt, depth_exec (ctx path) (d + 23)]
  simp only [execStep, bind, M.bind, m]
  show _ = _
  kernel_rfl

theorem append_panic {t f : Text} {x y : Int} {w : World} {s : St} {e : Expr}
    (h : (Interp.depth (ctx path) (d + 20)).eval n!"main" (envF path hb vs t x y f) e w s = .panic) :
    (Interp.depth (ctx path) (d + 24)).exec n!"main" (envF path hb vs t x y f) (appendStmt e) w s = .panic := by
  have v : (Interp.depth (ctx path) (d + 21)).eval n!"main" (envF path hb vs t x y f) (.var n!"final") w s =
      .ok (.bytes f) s := by kernel_rfl
  have es : (Interp.depth (ctx path) (d + 21)).evals n!"main" (envF path hb vs t x y f) [e] w s = .panic := by
    show evalsStep (Interp.depth (ctx path) (d + 20)) n!"main" (envF path hb vs t x y f) [e] w s = _
    simp only [evalsStep, bind, M.bind, h]
  have es' : (Interp.depth (ctx path) (d + 22)).evals n!"main" (envF path hb vs t x y f) [.var n!"final", e] w s = .panic := by
    show evalsStep (Interp.depth (ctx path) (d + 21)) n!"main" (envF path hb vs t x y f) [.var n!"final", e] w s = _
    simp only [evalsStep, bind, M.bind, v, es]
  have m : (Interp.depth (ctx path) (d + 23)).multi n!"main" (envF path hb vs t x y f)
      (.call (.var n!"append") [.var n!"final", e] true) w s = .panic := by
    rw [depth_multi (ctx path) (d + 22)]
    simp only [multiStep, callArgs, bind, M.bind, es', show Nat.beq n!"append" n!"append" = true from rfl, cond_true]
  rw [appendStmt, depth_exec (ctx path) (d + 23)]
  simp only [execStep, bind, M.bind, m]

def slice₁ : Expr := .slice (.var n!"allData") none (some (.var n!"start"))
def slice₂ : Expr := .slice (.var n!"allData") (some (.var n!"restStart")) none
def joinE : Expr := .call (.type (.slice (.named n!"byte")))
  [.call (.dot (.var n!"strings") n!"Join") [.var n!"lines", .str [10]] false] false

theorem stmts : stmt 17 = appendStmt slice₁ ∧ stmt 18 = appendStmt (.var n!"bStart") ∧ stmt 19 = appendStmt joinE ∧
    stmt 21 = appendStmt slice₂ := by
  exact ⟨by kernel_rfl, by kernel_rfl, by kernel_rfl, by kernel_rfl⟩

theorem slice₁_eval (t f : Text) (y : Int) (k : Nat) (hk : k ≤ t.length) (w : World) (s : St) :
    (Interp.depth (ctx path) (d + 20)).eval n!"main" (envF path hb vs t k y f) slice₁ w s = .ok (.bytes (t.take k)) s := by
  have h : (Interp.depth (ctx path) (d + 20)).multi n!"main" (envF path hb vs t k y f) slice₁ w s =
      M.bind (sliceOf (.bytes t) none (some (.int .int k))) (fun v => M.pure [v]) w s := by kernel_rfl
  have e : sliceOf (.bytes t) none (some (.int .int k)) = M.pure (.bytes (t.take k)) := by
    simp only [sliceOf]
    rw [if_pos (by omega)]
    simp only [Int.toNat_natCast, Int.toNat_zero, List.drop_zero]
    rfl
  rw [e] at h
  simp only [Interp.eval, bind, M.bind, h]
  rfl

theorem slice₂_eval (t f : Text) (x : Int) (k : Nat) (hk : k ≤ t.length) (w : World) (s : St) :
    (Interp.depth (ctx path) (d + 20)).eval n!"main" (envF path hb vs t x k f) slice₂ w s = .ok (.bytes (t.drop k)) s := by
  have h : (Interp.depth (ctx path) (d + 20)).multi n!"main" (envF path hb vs t x k f) slice₂ w s =
      M.bind (sliceOf (.bytes t) (some (.int .int k)) none) (fun v => M.pure [v]) w s := by kernel_rfl
  have e : sliceOf (.bytes t) (some (.int .int k)) none = M.pure (.bytes (t.drop k)) := by
    simp only [sliceOf]
    rw [if_pos (by omega)]
    simp only [Int.toNat_natCast, List.take_length]
    rfl
  rw [e] at h
  simp only [Interp.eval, bind, M.bind, h]
  rfl

theorem slice₂_panic (t f : Text) (x : Int) (w : World) (s : St) :
    (Interp.depth (ctx path) (d + 20)).eval n!"main" (envF path hb vs t x (-1) f) slice₂ w s = .panic := by
  have h : (Interp.depth (ctx path) (d + 20)).multi n!"main" (envF path hb vs t x (-1) f) slice₂ w s =
      M.bind (sliceOf (.bytes t) (some (.int .int (-1))) none) (fun v => M.pure [v]) w s := by kernel_rfl
  have e : sliceOf (.bytes t) (some (.int .int (-1))) none = panicking := by
    simp only [sliceOf]
    rw [if_neg (by omega)]
  rw [e] at h
  simp only [Interp.eval, bind, M.bind, h]
  rfl

theorem join_eval (t f : Text) (x y : Int) (j : Text) (hj : joinTexts [10] vs = some j) (w : World) (s : St) :
    (Interp.depth (ctx path) (d + 20)).eval n!"main" (envF path hb vs t x y f) joinE w s = .ok (.bytes j) s := by
  have h : (Interp.depth (ctx path) (d + 20)).multi n!"main" (envF path hb vs t x y f) joinE w s =
      M.bind (M.bind (orStuck (joinTexts [10] vs)) (fun j => M.pure [.str j]))
        (fun vs => (Interp.depth (ctx path) (d + 19)).apply (.type (.slice (.named n!"byte"))) vs) w s := by
    kernel_rfl
  rw [hj] at h
  simp only [Interp.eval, bind, M.bind, h]
  show _ = _
  kernel_rfl

/-- `final` is put together. -/
theorem part₁₇ (t j : Text) (a b : Nat) (ha : a ≤ t.length) (hb' : b ≤ t.length) (hj : joinTexts [10] vs = some j) (w : World) :
    (Interp.depth (ctx path) (d + 33)).execs n!"main" (stmt 17 :: stmt 18 :: stmt 19 :: stmt 20 :: stmt 21 :: ss)
      (envF path hb vs t a b []) w (st [] true [] [] [] l) =
    (Interp.depth (ctx path) (d + 28)).execs n!"main" ss (envF path hb vs t a b
      (((([] ++ t.take a) ++ startSentinel) ++ j) ++ [10] ++ t.drop b)) w (st [] true [] [] [] l) := by
  rw [stmts.1, stmts.2.1, stmts.2.2.1, stmts.2.2.2]
  refine (execs_next (n := d + 32) (append_exec path (d + 8) hb vs (slice₁_eval path (d + 8) hb vs t [] b a ha w _))).trans ?_
  refine (execs_next (n := d + 31) (append_exec path (d + 7) hb vs (u := startSentinel) (by kernel_rfl))).trans ?_
  refine (execs_next (n := d + 30) (append_exec path (d + 6) hb vs (join_eval path (d + 6) hb vs t _ a b j hj w _))).trans ?_
  refine (execs_next (n := d + 29) (env' := envF path hb vs t a b (((([] ++ t.take a) ++ startSentinel) ++ j) ++ [10]))
    (s' := st [] true [] [] [] l) (by kernel_rfl)).trans ?_
  exact execs_next (n := d + 28) (append_exec path (d + 4) hb vs (slice₂_eval path (d + 4) hb vs t _ a b hb' w _))

theorem part₁₇_panic (t j : Text) (a : Nat) (ha : a ≤ t.length) (hj : joinTexts [10] vs = some j) (w : World) :
    (Interp.depth (ctx path) (d + 33)).execs n!"main" (stmt 17 :: stmt 18 :: stmt 19 :: stmt 20 :: stmt 21 :: ss)
      (envF path hb vs t a (-1) []) w (st [] true [] [] [] l) = .panic := by
  rw [stmts.1, stmts.2.1, stmts.2.2.1, stmts.2.2.2]
  refine (execs_next (n := d + 32) (append_exec path (d + 8) hb vs (slice₁_eval path (d + 8) hb vs t [] (-1) a ha w _))).trans ?_
  refine (execs_next (n := d + 31) (append_exec path (d + 7) hb vs (u := startSentinel) (by kernel_rfl))).trans ?_
  refine (execs_next (n := d + 30) (append_exec path (d + 6) hb vs (join_eval path (d + 6) hb vs t _ a (-1) j hj w _))).trans ?_
  refine (execs_next (n := d + 29) (env' := envF path hb vs t a (-1) (((([] ++ t.take a) ++ startSentinel) ++ j) ++ [10]))
    (s' := st [] true [] [] [] l) (by kernel_rfl)).trans ?_
  exact execs_panic (n := d + 28) (append_panic path (d + 4) hb vs (slice₂_panic path (d + 4) hb vs t _ a w _))

/-! ### Writing -/

def closeCall : V × List V := (.fn n!"util" n!"SilentClose", [.file 0])

theorem write_file (t f : Text) (x y : Int) :
    (Interp.depth (ctx path) (d + 28)).execs n!"main" (Files.bench_main.body.drop 22) (envF path hb vs t x y f)
      (worldOf true true cr ie none w) (st [] true [] [] [] l) =
    .ok (.next ((n!"out", .file 0) :: (n!"final", .bytes f) :: (n!"restStart", .int .int y) :: (n!"start", .int .int x) ::
        (n!"bEnd", .bytes endSentinel) :: (n!"bStart", .bytes startSentinel) :: (n!"err", .nil) :: (n!"allData", .bytes t) ::
        (n!"err", .nil) :: (n!"outputFile", .file 0) :: env hb vs))
      (st [closeCall] true [(path, [] ++ f)] [] [] l) := by
  kernel_rfl

theorem write_file_fail (t f : Text) (x y : Int) (k : Nat) :
    (Interp.depth (ctx path) (d + 28)).execs n!"main" (Files.bench_main.body.drop 22) (envF path hb vs t x y f)
      (worldOf true true cr ie (some k) w) (st [] true [] [] [] l) =
    .exit 1 (st [closeCall] true [(path, [] ++ f.take k)] [] [] l) := by
  kernel_rfl

theorem write_file_create (t f : Text) (x y : Int) :
    (Interp.depth (ctx path) (d + 28)).execs n!"main" (Files.bench_main.body.drop 22) (envF path hb vs t x y f)
      (worldOf true false cr ie wf w) (st [] true [] [] [] l) =
    .exit 1 (st [] true [] [] [] l) := by
  kernel_rfl

theorem write_out (t f : Text) (x y : Int) :
    ∃ e, (Interp.depth (ctx path) (d + 28)).execs n!"main" (Files.bench_main.body.drop 22) (envF path hb vs t x y f)
      (worldOf false cc cr ie none w) (st [] true [] [] [] l) = .ok (.next e) (st [] true [] ([] ++ f) [] l) := by
  exact ⟨(n!"out", .stdout) :: envF path hb vs t x y f, by kernel_rfl⟩

theorem write_out_fail (t f : Text) (x y : Int) (k : Nat) :
    (Interp.depth (ctx path) (d + 28)).execs n!"main" (Files.bench_main.body.drop 22) (envF path hb vs t x y f)
      (worldOf false cc cr ie (some k) w) (st [] true [] [] [] l) = .exit 1 (st [] true [] ([] ++ f.take k) [] l) := by
  kernel_rfl

end

/-! ## The whole program -/

theorem apply_main {path : Text} {n : Nat} {w : World} {s s' s'' : St} {e : Env}
    (hx : (Interp.depth (ctx path) n).execs n!"main" Files.bench_main.body [] w { s with defers := [] } = .ok (.next e) s')
    (hd : runDefers (Interp.depth (ctx path) n) s'.defers w s' = .ok () s'') :
    (Interp.depth (ctx path) (n + 1)).apply (.fn n!"main" n!"main") [] w s = .ok [] { s'' with defers := s.defers } := by
  show applyStep (ctx path) (Interp.depth (ctx path) n) (.fn n!"main" n!"main") [] w s = _
  have hg : (ctx path).func n!"main" n!"main" = some Files.bench_main := by kernel_rfl
  have he : bindAll Files.bench_main.params [] = some [] := rfl
  have hr : resultVars Files.bench_main.results = some [] := rfl
  have hf : results Files.bench_main.results (.next e) = some ([], e) := rfl
  simp only [applyStep, bind, M.bind, pure, M.pure, orStuck, runBody, get, set, hg, he, hr, List.append_nil, hx, hf, hd]

theorem apply_main_exit {path : Text} {n : Nat} {w : World} {s s' : St} {c : Nat}
    (hx : (Interp.depth (ctx path) n).execs n!"main" Files.bench_main.body [] w { s with defers := [] } = .exit c s') :
    (Interp.depth (ctx path) (n + 1)).apply (.fn n!"main" n!"main") [] w s = .exit c s' := by
  show applyStep (ctx path) (Interp.depth (ctx path) n) (.fn n!"main" n!"main") [] w s = _
  have hg : (ctx path).func n!"main" n!"main" = some Files.bench_main := by kernel_rfl
  have he : bindAll Files.bench_main.params [] = some [] := rfl
  have hr : resultVars Files.bench_main.results = some [] := rfl
  simp only [applyStep, bind, M.bind, pure, M.pure, orStuck, runBody, get, set, hg, he, hr, List.append_nil, hx]

theorem apply_main_panic {path : Text} {n : Nat} {w : World} {s : St}
    (hx : (Interp.depth (ctx path) n).execs n!"main" Files.bench_main.body [] w { s with defers := [] } = .panic) :
    (Interp.depth (ctx path) (n + 1)).apply (.fn n!"main" n!"main") [] w s = .panic := by
  show applyStep (ctx path) (Interp.depth (ctx path) n) (.fn n!"main" n!"main") [] w s = _
  have hg : (ctx path).func n!"main" n!"main" = some Files.bench_main := by kernel_rfl
  have he : bindAll Files.bench_main.params [] = some [] := rfl
  have hr : resultVars Files.bench_main.results = some [] := rfl
  simp only [applyStep, bind, M.bind, pure, M.pure, orStuck, runBody, get, set, hg, he, hr, List.append_nil, hx]

theorem runMain_eq (d : Nat) (w : World) (input : List Text) :
    runMain (d + 51) files w { input } =
      (Interp.depth (ctx (pathOf w)) (d + 51)).apply (.fn n!"main" n!"main") [] w (st [] false [] [] input []) := by
  have e : initVars (d + 51) files (globals files) [] w { input } = .ok (vars (pathOf w)) (st [] false [] [] input []) :=
    init w (d + 41) input
  simp only [runMain, bind, M.bind, e, ctx]

/-- How the program ends: exit status, files written, standard output; or a panic. -/
inductive Ending where
  | exit (code : Nat) (files : List (Text × Text)) (stdout : Text)
  | panic

def ending {α : Type} : Res α → Option Ending
  | .ok _ s => some (.exit 0 s.files s.stdout)
  | .exit c s => some (.exit c s.files s.stdout)
  | .panic => some .panic
  | _ => none

section
variable (d : Nat) (wr cc cr ie : Bool) (wf : Option Nat) (w : World) (input : List Text)

theorem body_split : Files.bench_main.body = Files.bench_main.body.take 4 ++ (stmt 4 :: stmt 5 :: stmt 6 :: stmt 7 :: stmt 8 ::
    stmt 9 :: stmt 10 :: stmt 11 :: stmt 12 :: stmt 13 :: stmt 14 :: stmt 15 :: stmt 16 :: stmt 17 :: stmt 18 :: stmt 19 ::
    stmt 20 :: stmt 21 :: Files.bench_main.body.drop 22) := by
  kernel_rfl

theorem ends_exit {r : Res Flow} {c : Nat} {s : St} (hr : r = .exit c s)
    (h : (Interp.depth (ctx (pathOf (worldOf wr cc cr ie wf w))) (d + 50)).execs n!"main" Files.bench_main.body []
      (worldOf wr cc cr ie wf w) (st [] false [] [] input []) = r) :
    ending (runMain (d + 51) files (worldOf wr cc cr ie wf w) { input }) = some (.exit c s.files s.stdout) := by
  rw [runMain_eq, apply_main_exit (n := d + 50) (c := c) (s' := s) (h.trans hr)]
  rfl

/-- A flag that is not known. -/
theorem run_flags (n v : Text) (rest : List (Text × Text)) (hn : n ≠ asc "w".toList) :
    ending (runMain (d + 51) files { w with args := (n, v) :: rest } { input }) = some (.exit 2 [] []) := by
  have e : ({ w with args := (n, v) :: rest } : World).args.all
      (fun a => (st [] false [] [] input []).flags.any (· == a.1)) = false := by
    have h₁ : (asc "w".toList == n) = false := by simpa using Ne.symm hn
    simp only [List.all_cons, st, List.any_cons, List.any_nil, h₁, Bool.or_false, Bool.false_and]
  have g : libFn n!"flag" n!"Parse" [] { w with args := (n, v) :: rest } (st [] false [] [] input []) =
      .exit 2 (st [] false [] [] input []) := by
    show (if (({ w with args := (n, v) :: rest } : World).args.all
      fun a => (st [] false [] [] input []).flags.any (· == a.1)) = true then _ else _ : M (List V)) _ _ = _
    rw [e]
    rfl
  have c : (Interp.depth (ctx (pathOf w)) (d + 49)).exec n!"main" [] (.expr (.call (.dot (.var n!"flag") n!"Parse") [] false))
      { w with args := (n, v) :: rest } (st [] false [] [] input []) = .exit 2 (st [] false [] [] input []) := by
    have : (Interp.depth (ctx (pathOf w)) (d + 49)).exec n!"main" []
        (.expr (.call (.dot (.var n!"flag") n!"Parse") [] false)) { w with args := (n, v) :: rest } (st [] false [] [] input []) =
        M.bind (libFn n!"flag" n!"Parse" []) (fun _ => M.pure (.next [])) { w with args := (n, v) :: rest }
          (st [] false [] [] input []) := by
      kernel_rfl
    rw [this]
    simp only [M.bind, g]
  have b : Files.bench_main.body = .expr (.call (.dot (.var n!"flag") n!"Parse") [] false) ::
      Files.bench_main.body.drop 1 := by kernel_rfl
  have h : (Interp.depth (ctx (pathOf w)) (d + 50)).execs n!"main" Files.bench_main.body [] { w with args := (n, v) :: rest }
      (st [] false [] [] input []) = .exit 2 (st [] false [] [] input []) := by
    rw [b]
    show M.bind ((Interp.depth (ctx (pathOf w)) (d + 49)).exec n!"main" [] _) _ _ _ = _
    simp only [M.bind, c]
  rw [runMain_eq]
  have := apply_main_exit (path := pathOf w) (n := d + 50) (w := { w with args := (n, v) :: rest })
    (s := st [] false [] [] input []) (c := 2) (s' := st [] false [] [] input []) h
  exact congrArg ending this

/-- An error on the standard input. -/
theorem run_input (hf : input.length < w.fuel) :
    ending (runMain (d + 51) files (worldOf wr cc cr true wf w) { input }) = some (.exit 1 [] []) := by
  obtain ⟨l, h₄⟩ := part₄ (pathOf w) d wr cc cr true wf w (stmt 5 :: stmt 6 :: stmt 7 :: stmt 8 ::
    stmt 9 :: stmt 10 :: stmt 11 :: stmt 12 :: stmt 13 :: stmt 14 :: stmt 15 :: stmt 16 :: stmt 17 :: stmt 18 :: stmt 19 ::
    stmt 20 :: stmt 21 :: Files.bench_main.body.drop 22) input hf
  refine ends_exit d wr cc cr true wf w input (s := st [] true [] [] [] l) rfl ?_
  rw [body_split, part₀]
  exact h₄.trans (part₅_exit _ d wr cc cr wf w l _ _ _)

/-- No README. -/
theorem run_open (hf : input.length < w.fuel) (h : w.disk (pathOf w) = none) :
    ending (runMain (d + 51) files (worldOf wr cc cr false wf w) { input }) = some (.exit 1 [] []) := by
  obtain ⟨l, h₄⟩ := part₄ (pathOf w) d wr cc cr false wf w (stmt 5 :: stmt 6 :: stmt 7 :: stmt 8 ::
    stmt 9 :: stmt 10 :: stmt 11 :: stmt 12 :: stmt 13 :: stmt 14 :: stmt 15 :: stmt 16 :: stmt 17 :: stmt 18 :: stmt 19 ::
    stmt 20 :: stmt 21 :: Files.bench_main.body.drop 22) input hf
  refine ends_exit d wr cc cr false wf w input (s := st [] true [] [] [] l) rfl ?_
  rw [body_split, part₀]
  refine h₄.trans ?_
  refine (part₅ _ d wr cc cr wf w l _ _ _).trans ?_
  exact part₆_exit _ d wr cc cr false wf w l _ _ _ h

/-- The README cannot be read. -/
theorem run_read (hf : input.length < w.fuel) {t : Text} (h : w.disk (pathOf w) = some t) :
    ending (runMain (d + 51) files (worldOf wr cc false false wf w) { input }) = some (.exit 1 [] []) := by
  obtain ⟨l, h₄⟩ := part₄ (pathOf w) d wr cc false false wf w (stmt 5 :: stmt 6 :: stmt 7 :: stmt 8 ::
    stmt 9 :: stmt 10 :: stmt 11 :: stmt 12 :: stmt 13 :: stmt 14 :: stmt 15 :: stmt 16 :: stmt 17 :: stmt 18 :: stmt 19 ::
    stmt 20 :: stmt 21 :: Files.bench_main.body.drop 22) input hf
  refine ends_exit d wr cc false false wf w input (s := st [] true [] [] [] l) rfl ?_
  rw [body_split, part₀]
  refine h₄.trans ?_
  refine (part₅ _ d wr cc false wf w l _ _ _).trans ?_
  refine (part₆ _ d wr cc false false wf w l _ _ _ t h).trans ?_
  exact part₈_exit _ d wr cc false wf w l _ _ _ t h

/-- Up to `if start < 0`. -/
theorem to_start (hf : input.length < w.fuel) {t : Text} (h : w.disk (pathOf w) = some t) :
    ∃ l, (Interp.depth (ctx (pathOf w)) (d + 50)).execs n!"main" Files.bench_main.body []
      (worldOf wr cc true false wf w) (st [] false [] [] input []) =
      (Interp.depth (ctx (pathOf w)) (d + 36)).execs n!"main" (stmt 14 :: stmt 15 :: stmt 16 :: stmt 17 :: stmt 18 :: stmt 19 ::
        stmt 20 :: stmt 21 :: Files.bench_main.body.drop 22) (env₁₃ (pathOf w) (input.foldl step (false, [])).1
          ((input.foldl step (false, [])).2.map .str) t (posOf startSentinel t)) (worldOf wr cc true false wf w)
        (st [] true [] [] [] l) := by
  obtain ⟨l, h₄⟩ := part₄ (pathOf w) d wr cc true false wf w (stmt 5 :: stmt 6 :: stmt 7 :: stmt 8 ::
    stmt 9 :: stmt 10 :: stmt 11 :: stmt 12 :: stmt 13 :: stmt 14 :: stmt 15 :: stmt 16 :: stmt 17 :: stmt 18 :: stmt 19 ::
    stmt 20 :: stmt 21 :: Files.bench_main.body.drop 22) input hf
  refine ⟨l, ?_⟩
  rw [body_split, part₀]
  refine h₄.trans ?_
  refine (part₅ _ d wr cc true wf w l _ _ _).trans ?_
  refine (part₆ _ d wr cc true false wf w l _ _ _ t h).trans ?_
  refine (part₈ _ d wr cc false wf w l _ _ _ t h).trans ?_
  exact part₁₁ _ d l _ _ _ t _

/-- No start sentinel. -/
theorem run_start (hf : input.length < w.fuel) {t : Text} (h : w.disk (pathOf w) = some t)
    (hs : indexOf startSentinel t 0 = none) :
    ending (runMain (d + 51) files (worldOf wr cc true false wf w) { input }) = some (.exit 1 [] []) := by
  obtain ⟨l, e⟩ := to_start d wr cc wf w input hf h
  refine ends_exit d wr cc true false wf w input (s := st [] true [] [] [] l) rfl ?_
  refine e.trans ?_
  rw [part₁₄, posOf, hs]
  rfl

/-- No end sentinel. -/
theorem run_end (hf : input.length < w.fuel) {t : Text} (h : w.disk (pathOf w) = some t) {a : Nat}
    (hs : indexOf startSentinel t 0 = some a) (ha : a ≤ t.length) (he : indexOf endSentinel t 0 = none) {j : Text}
    (hj : joinTexts [10] ((input.foldl step (false, [])).2.map .str) = some j) :
    ending (runMain (d + 51) files (worldOf wr cc true false wf w) { input }) = some .panic := by
  obtain ⟨l, e⟩ := to_start d wr cc wf w input hf h
  have p : posOf startSentinel t = a := by rw [posOf, hs]
  have p' : posOf endSentinel t = -1 := by rw [posOf, he]
  rw [part₁₄, p, if_neg (by omega), part₁₅, p', part₁₇_panic _ _ _ _ _ _ t j a ha hj] at e
  rw [runMain_eq, apply_main_panic (n := d + 50) e]
  rfl

/-- The text that is written. -/
def newText (t j : Text) (a b : Nat) : Text := t.take a ++ startSentinel ++ j ++ [10] ++ t.drop b

/-- Up to the writing. -/
theorem to_write (hf : input.length < w.fuel) {t : Text} (h : w.disk (pathOf w) = some t) {a b : Nat}
    (hs : indexOf startSentinel t 0 = some a) (ha : a ≤ t.length) (he : indexOf endSentinel t 0 = some b) (hb : b ≤ t.length)
    {j : Text} (hj : joinTexts [10] ((input.foldl step (false, [])).2.map .str) = some j) :
    ∃ l c vs, (Interp.depth (ctx (pathOf w)) (d + 50)).execs n!"main" Files.bench_main.body []
      (worldOf wr cc true false wf w) (st [] false [] [] input []) =
      (Interp.depth (ctx (pathOf w)) (d + 28)).execs n!"main" (Files.bench_main.body.drop 22)
        (envF (pathOf w) c vs t a b (newText t j a b)) (worldOf wr cc true false wf w) (st [] true [] [] [] l) := by
  obtain ⟨l, e⟩ := to_start d wr cc wf w input hf h
  have p : posOf startSentinel t = a := by rw [posOf, hs]
  have p' : posOf endSentinel t = b := by rw [posOf, he]
  rw [part₁₄, p, if_neg (by omega), part₁₅, p', part₁₇ _ _ _ _ _ _ t j a b ha hb hj, List.nil_append] at e
  exact ⟨l, _, _, e⟩

/-- What is left when this text has been written. -/
def done (path f : Text) : Bool → Bool → Option Nat → Ending
  | true, true, none => .exit 0 [(path, f)] []
  | true, true, some k => .exit 1 [(path, f.take k)] []
  | true, false, _ => .exit 1 [] []
  | false, _, none => .exit 0 [] f
  | false, _, some k => .exit 1 [] (f.take k)

/-- The new text is written. -/
theorem run_done (hf : input.length < w.fuel) {t : Text} (h : w.disk (pathOf w) = some t) {a b : Nat}
    (hs : indexOf startSentinel t 0 = some a) (ha : a ≤ t.length) (he : indexOf endSentinel t 0 = some b) (hb : b ≤ t.length)
    {j : Text} (hj : joinTexts [10] ((input.foldl step (false, [])).2.map .str) = some j) :
    ending (runMain (d + 51) files (worldOf wr cc true false wf w) { input }) =
      some (done (pathOf w) (newText t j a b) wr cc wf) := by
  obtain ⟨l, c, vs, e⟩ := to_write d wr cc wf w input hf h hs ha he hb hj
  generalize newText t j a b = f at e ⊢
  have r : runMain (d + 51) files (worldOf wr cc true false wf w) { input } = _ := runMain_eq d (worldOf wr cc true false wf w) input
  rw [show pathOf (worldOf wr cc true false wf w) = pathOf w from rfl] at r
  rw [r]
  clear r
  cases wr <;> cases wf
  · obtain ⟨e', he'⟩ := write_out (pathOf w) d cc true false w l c vs t f a b
    have x := apply_main (n := d + 50) (s := st [] false [] [] input []) (e.trans he') (s'' := st [] true [] ([] ++ f) [] l) rfl
    rw [x]
    rfl
  · rename_i k
    have x := apply_main_exit (n := d + 50) (s := st [] false [] [] input [])
      (e.trans (write_out_fail (pathOf w) d cc true false w l c vs t f a b k))
    rw [x]
    rfl
  · cases cc
    · have x := apply_main_exit (n := d + 50) (s := st [] false [] [] input [])
        (e.trans (write_file_create (pathOf w) d true false none w l c vs t f a b))
      rw [x]
      rfl
    · have x := apply_main (n := d + 50) (s := st [] false [] [] input [])
        (e.trans (write_file (pathOf w) d true false w l c vs t f a b))
        (s'' := st [closeCall] true [(pathOf w, [] ++ f)] [] [] l) (by kernel_rfl)
      rw [x]
      rfl
  · rename_i k
    cases cc
    · have x := apply_main_exit (n := d + 50) (s := st [] false [] [] input [])
        (e.trans (write_file_create (pathOf w) d true false (some k) w l c vs t f a b))
      rw [x]
      rfl
    · have x := apply_main_exit (n := d + 50) (s := st [] false [] [] input [])
        (e.trans (write_file_fail (pathOf w) d true false w l c vs t f a b k))
      rw [x]
      rfl

end

end SVB.Script.Bench
