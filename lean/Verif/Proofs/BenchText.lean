import Verif.Model.Benchmarks
import Verif.Model.TestFiles
import Verif.Proofs.GoParse

/-! # The benchmarks of `Benchmarks.lean` are what the texts of the test files say -/

set_option autoImplicit false

namespace SVB.Tests
open SVB.Go

/-- A `for` loop of the interpreter whose variables are described by `i` and `a`. -/
theorem forLoop_upto {α : Type} {cond : Env → M Val} {post body : Env → M Env} {n : Int} {f : Int → α → M α} (E : Int → α → Env)
    (hc : ∀ i a, cond (E i a) = pure (.bool (decide (i < n))))
    (hb : ∀ i a, (body (E i a) >>= fun env' => post (env'.leave (E i a))) =
      f i a >>= fun a' => pure (E (int64 (i + 1)) a'))
    {old : Env} {E' : α → Env} (hl : ∀ i a, (E i a).leave old = E' a) :
    ∀ fuel i a, (forLoop cond post body fuel (E i a) >>= fun env => pure (env.leave old)) =
      (forUpto n f fuel i a >>= fun a => pure (E' a)) := by
  intro fuel
  induction fuel with
  | zero => intro i a; rfl
  | succ fuel ih =>
    intro i a
    have e1 : forLoop cond post body (fuel + 1) (E i a) =
        branch (decide (i < n)) ((body (E i a) >>= fun env' => post (env'.leave (E i a))) >>= forLoop cond post body fuel)
          (pure (E i a)) := by
      show (cond (E i a) >>= _) = _
      rw [hc]; rfl
    rw [e1, hb]
    cases h : decide (i < n)
    · show (pure ((E i a).leave old) : M Env) = branch (decide (i < n)) _ _ >>= _
      rw [h, hl]; rfl
    · have e2 : (forUpto n f (fuel + 1) i a >>= fun a => pure (E' a)) =
          (f i a >>= fun a' => forUpto n f fuel (int64 (i + 1)) a' >>= fun a => pure (E' a)) := by
        show (branch (decide (i < n)) _ _ >>= _) = _
        rw [h]; rfl
      rw [e2]
      show (f i a >>= fun a' => forLoop cond post body fuel (E (int64 (i + 1)) a') >>= fun env => pure (env.leave old)) = _
      congr 1
      funext a'
      exact ih _ _

theorem runRounds_eq {α : Type} {W : World} {f : Nat → Env → M Env} {g : Nat → α → M α} (E : α → Env)
    (h : ∀ n a, f n (E a) = g n a >>= fun a' => pure (E a')) (a : α) :
    runRounds W f (E a) = (bRun W g a >>= fun a' => pure (E a')) := by
  have h' : ∀ ns a, eachRound f ns (E a) = (eachN g ns a >>= fun a' => pure (E a')) := by
    intro ns
    induction ns with
    | nil => intro a; rfl
    | cons n ns ih =>
      intro a
      show (f n (E a) >>= eachRound f ns) = _
      rw [h]
      show (g n a >>= fun a' => eachRound f ns (E a')) = (g n a >>= fun a' => eachN g ns a' >>= fun a' => pure (E a'))
      congr 1
      funext a'
      exact ih a'
  funext e k s
  show eachRound f (W.rounds s) (E a) _ k s = _
  rw [h']
  rfl

/-- The statements of a function. -/
def bodyOf (F : Script.File) (name : Nat) : List Script.Stmt :=
  match F.funcs.find? fun f => Nat.beq f.name name with
  | some f => f.body
  | none => []

/-- Statement `k`. -/
def nth (ss : List Script.Stmt) (k : Nat) : Script.Stmt := ss.getD k (.ret [])

def loopCond : Script.Stmt → Script.Expr
  | .loop _ c _ _ => c
  | _ => .num 0
def loopPost : Script.Stmt → Script.Stmt
  | .loop _ _ [p] _ => p
  | _ => .ret []
def loopBody : Script.Stmt → List Script.Stmt
  | .loop _ _ _ b => b
  | _ => []
/-- The body of the function passed to `b.Run`. -/
def runBody : Script.Stmt → List Script.Stmt
  | .expr (.call _ [_, .func _ _ b] _) => b
  | _ => []

/-! ## `/repo/pkg/encode/encode_test.go` -/

theorem bPut8Fast_text (W : World) (fuel N : Nat) (s : St) :
    bench W Files.encTest fuel n!"BenchmarkPut8uint32Fast" N s = (bPut8Fast W fuel N).go s := by
  have hl : ∀ out nums, (ev W Files.encTest fuel 52).exec
      [(n!"ctrl", .u16 0#16), (n!"nums", .words nums), (n!"out", .bytes out), (n!"count", .int 8), (n!"b", .bench N)]
      (nth (bodyOf Files.encTest n!"BenchmarkPut8uint32Fast") 7) =
      repeatSet fuel N (call (onAmd64 W.cpu (put8uint32Fast nums out))) 0#16 >>= fun a =>
        pure [(n!"ctrl", .u16 a), (n!"nums", .words nums), (n!"out", .bytes out), (n!"count", .int 8), (n!"b", .bench N)] := by
    intro out nums
    refine Eq.trans ?_ (forLoop_upto (fun i (a : U16) => [(n!"i", .int i), (n!"ctrl", .u16 a), (n!"nums", .words nums), (n!"out", .bytes out), (n!"count", .int 8), (n!"b", .bench N)])
      (cond := fun env => (ev W Files.encTest fuel 51).eval env (loopCond (nth (bodyOf Files.encTest n!"BenchmarkPut8uint32Fast") 7)))
      (post := fun env => (ev W Files.encTest fuel 51).exec env (loopPost (nth (bodyOf Files.encTest n!"BenchmarkPut8uint32Fast") 7)))
      (body := fun env => (ev W Files.encTest fuel 51).execs env (loopBody (nth (bodyOf Files.encTest n!"BenchmarkPut8uint32Fast") 7)))
      (old := [(n!"ctrl", .u16 0#16), (n!"nums", .words nums), (n!"out", .bytes out), (n!"count", .int 8), (n!"b", .bench N)])
      (n := N) ?_ ?_ ?_ fuel 0 0#16)
    · kernel_rfl
    · intro i a; kernel_rfl
    · intro i a; kernel_rfl
    · intro i a; kernel_rfl
  refine Eq.trans (b := M.go (do
    skipIf (decide (encodeMode W.cpu = .normal))
    let out ← makeB 32
    let nums ← gen W 8
    setBytes 32
    let env ← (ev W Files.encTest fuel 52).exec
      [(n!"ctrl", .u16 0#16), (n!"nums", .words nums), (n!"out", .bytes out), (n!"count", .int 8), (n!"b", .bench N)]
      (nth (bodyOf Files.encTest n!"BenchmarkPut8uint32Fast") 7)
    let _ ← (ev W Files.encTest fuel 52).execs env [nth (bodyOf Files.encTest n!"BenchmarkPut8uint32Fast") 8]
    pure ()) s) ?_ ?_
  · kernel_rfl
  · simp only [hl]
    kernel_rfl

theorem bPut8DeltaFast_text (W : World) (fuel N : Nat) (s : St) :
    bench W Files.encTest fuel n!"BenchmarkPut8uint32DeltaFast" N s = (bPut8DeltaFast W fuel N).go s := by
  have hl : ∀ out nums, (ev W Files.encTest fuel 51).exec
      [(n!"ctrl", .u16 0#16), (n!"nums", .words nums), (n!"out", .bytes out), (n!"count", .int 8), (n!"b", .bench N)]
      (nth (bodyOf Files.encTest n!"BenchmarkPut8uint32DeltaFast") 8) =
      repeatSet fuel N (call (onAmd64 W.cpu (put8uint32DeltaFast nums out 0))) 0#16 >>= fun a =>
        pure [(n!"ctrl", .u16 a), (n!"nums", .words nums), (n!"out", .bytes out), (n!"count", .int 8), (n!"b", .bench N)] := by
    intro out nums
    refine Eq.trans ?_ (forLoop_upto (fun i (a : U16) => [(n!"i", .int i), (n!"ctrl", .u16 a), (n!"nums", .words nums), (n!"out", .bytes out), (n!"count", .int 8), (n!"b", .bench N)])
      (cond := fun env => (ev W Files.encTest fuel 50).eval env (loopCond (nth (bodyOf Files.encTest n!"BenchmarkPut8uint32DeltaFast") 8)))
      (post := fun env => (ev W Files.encTest fuel 50).exec env (loopPost (nth (bodyOf Files.encTest n!"BenchmarkPut8uint32DeltaFast") 8)))
      (body := fun env => (ev W Files.encTest fuel 50).execs env (loopBody (nth (bodyOf Files.encTest n!"BenchmarkPut8uint32DeltaFast") 8)))
      (old := [(n!"ctrl", .u16 0#16), (n!"nums", .words nums), (n!"out", .bytes out), (n!"count", .int 8), (n!"b", .bench N)])
      (n := N) ?_ ?_ ?_ fuel 0 0#16)
    · kernel_rfl
    · intro i a; kernel_rfl
    · intro i a; kernel_rfl
    · intro i a; kernel_rfl
  refine Eq.trans (b := M.go (do
    skipIf (decide (encodeMode W.cpu = .normal))
    let out ← makeB 32
    let nums ← gen W 8
    call (sortWords W nums)
    setBytes 32
    let env ← (ev W Files.encTest fuel 51).exec
      [(n!"ctrl", .u16 0#16), (n!"nums", .words nums), (n!"out", .bytes out), (n!"count", .int 8), (n!"b", .bench N)]
      (nth (bodyOf Files.encTest n!"BenchmarkPut8uint32DeltaFast") 8)
    let _ ← (ev W Files.encTest fuel 51).execs env [nth (bodyOf Files.encTest n!"BenchmarkPut8uint32DeltaFast") 9]
    pure ()) s) ?_ ?_
  · kernel_rfl
  · simp only [hl]
    kernel_rfl

theorem bPut8Scalar_text (W : World) (fuel N : Nat) (s : St) :
    bench W Files.encTest fuel n!"BenchmarkPut8uint32Scalar" N s = (bPut8Scalar W fuel N).go s := by
  have hl : ∀ out nums, (ev W Files.encTest fuel 53).exec
      [(n!"ctrl", .u16 0#16), (n!"nums", .words nums), (n!"out", .bytes out), (n!"count", .int 8), (n!"b", .bench N)]
      (nth (bodyOf Files.encTest n!"BenchmarkPut8uint32Scalar") 6) =
      repeatSet fuel N (call (put8uint32Scalar nums out)) 0#16 >>= fun a =>
        pure [(n!"ctrl", .u16 a), (n!"nums", .words nums), (n!"out", .bytes out), (n!"count", .int 8), (n!"b", .bench N)] := by
    intro out nums
    refine Eq.trans ?_ (forLoop_upto (fun i (a : U16) => [(n!"i", .int i), (n!"ctrl", .u16 a), (n!"nums", .words nums), (n!"out", .bytes out), (n!"count", .int 8), (n!"b", .bench N)])
      (cond := fun env => (ev W Files.encTest fuel 52).eval env (loopCond (nth (bodyOf Files.encTest n!"BenchmarkPut8uint32Scalar") 6)))
      (post := fun env => (ev W Files.encTest fuel 52).exec env (loopPost (nth (bodyOf Files.encTest n!"BenchmarkPut8uint32Scalar") 6)))
      (body := fun env => (ev W Files.encTest fuel 52).execs env (loopBody (nth (bodyOf Files.encTest n!"BenchmarkPut8uint32Scalar") 6)))
      (old := [(n!"ctrl", .u16 0#16), (n!"nums", .words nums), (n!"out", .bytes out), (n!"count", .int 8), (n!"b", .bench N)])
      (n := N) ?_ ?_ ?_ fuel 0 0#16)
    · kernel_rfl
    · intro i a; kernel_rfl
    · intro i a; kernel_rfl
    · intro i a; kernel_rfl
  refine Eq.trans (b := M.go (do
    let out ← makeB 32
    let nums ← gen W 8
    setBytes 32
    let env ← (ev W Files.encTest fuel 53).exec
      [(n!"ctrl", .u16 0#16), (n!"nums", .words nums), (n!"out", .bytes out), (n!"count", .int 8), (n!"b", .bench N)]
      (nth (bodyOf Files.encTest n!"BenchmarkPut8uint32Scalar") 6)
    let _ ← (ev W Files.encTest fuel 53).execs env [nth (bodyOf Files.encTest n!"BenchmarkPut8uint32Scalar") 7]
    pure ()) s) ?_ ?_
  · kernel_rfl
  · simp only [hl]
    kernel_rfl

theorem bPut8DeltaScalar_text (W : World) (fuel N : Nat) (s : St) :
    bench W Files.encTest fuel n!"BenchmarkPut8uint32DeltaScalar" N s = (bPut8DeltaScalar W fuel N).go s := by
  have hl : ∀ out nums, (ev W Files.encTest fuel 52).exec
      [(n!"ctrl", .u16 0#16), (n!"nums", .words nums), (n!"out", .bytes out), (n!"count", .int 8), (n!"b", .bench N)]
      (nth (bodyOf Files.encTest n!"BenchmarkPut8uint32DeltaScalar") 7) =
      repeatSet fuel N (call (put8uint32DeltaScalar nums out 0)) 0#16 >>= fun a =>
        pure [(n!"ctrl", .u16 a), (n!"nums", .words nums), (n!"out", .bytes out), (n!"count", .int 8), (n!"b", .bench N)] := by
    intro out nums
    refine Eq.trans ?_ (forLoop_upto (fun i (a : U16) => [(n!"i", .int i), (n!"ctrl", .u16 a), (n!"nums", .words nums), (n!"out", .bytes out), (n!"count", .int 8), (n!"b", .bench N)])
      (cond := fun env => (ev W Files.encTest fuel 51).eval env (loopCond (nth (bodyOf Files.encTest n!"BenchmarkPut8uint32DeltaScalar") 7)))
      (post := fun env => (ev W Files.encTest fuel 51).exec env (loopPost (nth (bodyOf Files.encTest n!"BenchmarkPut8uint32DeltaScalar") 7)))
      (body := fun env => (ev W Files.encTest fuel 51).execs env (loopBody (nth (bodyOf Files.encTest n!"BenchmarkPut8uint32DeltaScalar") 7)))
      (old := [(n!"ctrl", .u16 0#16), (n!"nums", .words nums), (n!"out", .bytes out), (n!"count", .int 8), (n!"b", .bench N)])
      (n := N) ?_ ?_ ?_ fuel 0 0#16)
    · kernel_rfl
    · intro i a; kernel_rfl
    · intro i a; kernel_rfl
    · intro i a; kernel_rfl
  refine Eq.trans (b := M.go (do
    let out ← makeB 32
    let nums ← gen W 8
    call (sortWords W nums)
    setBytes 32
    let env ← (ev W Files.encTest fuel 52).exec
      [(n!"ctrl", .u16 0#16), (n!"nums", .words nums), (n!"out", .bytes out), (n!"count", .int 8), (n!"b", .bench N)]
      (nth (bodyOf Files.encTest n!"BenchmarkPut8uint32DeltaScalar") 7)
    let _ ← (ev W Files.encTest fuel 52).execs env [nth (bodyOf Files.encTest n!"BenchmarkPut8uint32DeltaScalar") 8]
    pure ()) s) ?_ ?_
  · kernel_rfl
  · simp only [hl]
    kernel_rfl

theorem bPutVarint_text (W : World) (fuel N : Nat) (s : St) :
    bench W Files.encTest fuel n!"BenchmarkPut8uint32Varint" N s = (bPutVarint W fuel N).go s := by
  have hl : ∀ out nums, (ev W Files.encTest fuel 53).exec
      [(n!"written", .int 0), (n!"nums", .words nums), (n!"out", .bytes out), (n!"count", .int 8), (n!"b", .bench N)]
      (nth (bodyOf Files.encTest n!"BenchmarkPut8uint32Varint") 6) =
      repeatSet fuel N (call (putVarint nums out)) 0 >>= fun a =>
        pure [(n!"written", .int a), (n!"nums", .words nums), (n!"out", .bytes out), (n!"count", .int 8), (n!"b", .bench N)] := by
    intro out nums
    refine Eq.trans ?_ (forLoop_upto (fun i (a : Int) => [(n!"i", .int i), (n!"written", .int a), (n!"nums", .words nums), (n!"out", .bytes out), (n!"count", .int 8), (n!"b", .bench N)])
      (cond := fun env => (ev W Files.encTest fuel 52).eval env (loopCond (nth (bodyOf Files.encTest n!"BenchmarkPut8uint32Varint") 6)))
      (post := fun env => (ev W Files.encTest fuel 52).exec env (loopPost (nth (bodyOf Files.encTest n!"BenchmarkPut8uint32Varint") 6)))
      (body := fun env => (ev W Files.encTest fuel 52).execs env (loopBody (nth (bodyOf Files.encTest n!"BenchmarkPut8uint32Varint") 6)))
      (old := [(n!"written", .int 0), (n!"nums", .words nums), (n!"out", .bytes out), (n!"count", .int 8), (n!"b", .bench N)])
      (n := N) ?_ ?_ ?_ fuel 0 0)
    · kernel_rfl
    · intro i a; kernel_rfl
    · intro i a; kernel_rfl
    · intro i a; kernel_rfl
  refine Eq.trans (b := M.go (do
    let out ← makeB 40
    let nums ← gen W 8
    setBytes 32
    let env ← (ev W Files.encTest fuel 53).exec
      [(n!"written", .int 0), (n!"nums", .words nums), (n!"out", .bytes out), (n!"count", .int 8), (n!"b", .bench N)]
      (nth (bodyOf Files.encTest n!"BenchmarkPut8uint32Varint") 6)
    let _ ← (ev W Files.encTest fuel 53).execs env [nth (bodyOf Files.encTest n!"BenchmarkPut8uint32Varint") 7]
    pure ()) s) ?_ ?_
  · kernel_rfl
  · simp only [hl]
    kernel_rfl

theorem bPutDeltaVarint_text (W : World) (fuel N : Nat) (s : St) :
    bench W Files.encTest fuel n!"BenchmarkPut8uint32DeltaVarint" N s = (bPutDeltaVarint W fuel N).go s := by
  have hl : ∀ out nums, (ev W Files.encTest fuel 52).exec
      [(n!"written", .int 0), (n!"nums", .words nums), (n!"out", .bytes out), (n!"count", .int 8), (n!"b", .bench N)]
      (nth (bodyOf Files.encTest n!"BenchmarkPut8uint32DeltaVarint") 7) =
      repeatSet fuel N (call (putDeltaVarint nums out 0)) 0 >>= fun a =>
        pure [(n!"written", .int a), (n!"nums", .words nums), (n!"out", .bytes out), (n!"count", .int 8), (n!"b", .bench N)] := by
    intro out nums
    refine Eq.trans ?_ (forLoop_upto (fun i (a : Int) => [(n!"i", .int i), (n!"written", .int a), (n!"nums", .words nums), (n!"out", .bytes out), (n!"count", .int 8), (n!"b", .bench N)])
      (cond := fun env => (ev W Files.encTest fuel 51).eval env (loopCond (nth (bodyOf Files.encTest n!"BenchmarkPut8uint32DeltaVarint") 7)))
      (post := fun env => (ev W Files.encTest fuel 51).exec env (loopPost (nth (bodyOf Files.encTest n!"BenchmarkPut8uint32DeltaVarint") 7)))
      (body := fun env => (ev W Files.encTest fuel 51).execs env (loopBody (nth (bodyOf Files.encTest n!"BenchmarkPut8uint32DeltaVarint") 7)))
      (old := [(n!"written", .int 0), (n!"nums", .words nums), (n!"out", .bytes out), (n!"count", .int 8), (n!"b", .bench N)])
      (n := N) ?_ ?_ ?_ fuel 0 0)
    · kernel_rfl
    · intro i a; kernel_rfl
    · intro i a; kernel_rfl
    · intro i a; kernel_rfl
  refine Eq.trans (b := M.go (do
    let out ← makeB 40
    let nums ← gen W 8
    call (sortWords W nums)
    setBytes 32
    let env ← (ev W Files.encTest fuel 52).exec
      [(n!"written", .int 0), (n!"nums", .words nums), (n!"out", .bytes out), (n!"count", .int 8), (n!"b", .bench N)]
      (nth (bodyOf Files.encTest n!"BenchmarkPut8uint32DeltaVarint") 7)
    let _ ← (ev W Files.encTest fuel 52).execs env [nth (bodyOf Files.encTest n!"BenchmarkPut8uint32DeltaVarint") 8]
    pure ()) s) ?_ ?_
  · kernel_rfl
  · simp only [hl]
    kernel_rfl

/-! ## `/repo/pkg/decode/decode_test.go` -/

theorem bGet8Fast_text (W : World) (fuel N : Nat) (s : St) :
    bench W Files.decTest fuel n!"BenchmarkGet8uint32Fast" N s = (bGet8Fast W fuel N).go s := by
  have hl : ∀ out nums inn ctrl, (ev W Files.decTest fuel 51).exec
      [(n!"ctrl", .u16 ctrl), (n!"in", .bytes inn), (n!"nums", .words nums), (n!"out", .words out), (n!"count", .int 8), (n!"b", .bench N)]
      (nth (bodyOf Files.decTest n!"BenchmarkGet8uint32Fast") 8) =
      repeatN fuel N (call (onAmd64 W.cpu (get8uint32Fast inn out ctrl))) >>= fun _ =>
        pure [(n!"ctrl", .u16 ctrl), (n!"in", .bytes inn), (n!"nums", .words nums), (n!"out", .words out), (n!"count", .int 8), (n!"b", .bench N)] := by
    intro out nums inn ctrl
    refine Eq.trans ?_ (forLoop_upto (fun i _ => [(n!"i", .int i), (n!"ctrl", .u16 ctrl), (n!"in", .bytes inn), (n!"nums", .words nums), (n!"out", .words out), (n!"count", .int 8), (n!"b", .bench N)])
      (cond := fun env => (ev W Files.decTest fuel 50).eval env (loopCond (nth (bodyOf Files.decTest n!"BenchmarkGet8uint32Fast") 8)))
      (post := fun env => (ev W Files.decTest fuel 50).exec env (loopPost (nth (bodyOf Files.decTest n!"BenchmarkGet8uint32Fast") 8)))
      (body := fun env => (ev W Files.decTest fuel 50).execs env (loopBody (nth (bodyOf Files.decTest n!"BenchmarkGet8uint32Fast") 8)))
      (old := [(n!"ctrl", .u16 ctrl), (n!"in", .bytes inn), (n!"nums", .words nums), (n!"out", .words out), (n!"count", .int 8), (n!"b", .bench N)])
      (n := N) ?_ ?_ ?_ fuel 0 ())
    · kernel_rfl
    · intro i a; kernel_rfl
    · intro i a; kernel_rfl
    · intro i a; kernel_rfl
  refine Eq.trans (b := M.go (do
    skipIf (decide (decodeMode W.cpu = .normal))
    let out ← makeW 8
    let nums ← gen W 8
    let inn ← makeB 32
    let ctrl ← call (put8uint32Scalar nums inn)
    setBytes 32
    let env ← (ev W Files.decTest fuel 51).exec
      [(n!"ctrl", .u16 ctrl), (n!"in", .bytes inn), (n!"nums", .words nums), (n!"out", .words out), (n!"count", .int 8), (n!"b", .bench N)]
      (nth (bodyOf Files.decTest n!"BenchmarkGet8uint32Fast") 8)
    let _ ← (ev W Files.decTest fuel 51).execs env [nth (bodyOf Files.decTest n!"BenchmarkGet8uint32Fast") 9]
    pure ()) s) ?_ ?_
  · kernel_rfl
  · simp only [hl]
    kernel_rfl

theorem bGet8DeltaFast_text (W : World) (fuel N : Nat) (s : St) :
    bench W Files.decTest fuel n!"BenchmarkGet8uint32DeltaFast" N s = (bGet8DeltaFast W fuel N).go s := by
  have hl : ∀ out nums inn ctrl, (ev W Files.decTest fuel 50).exec
      [(n!"ctrl", .u16 ctrl), (n!"in", .bytes inn), (n!"nums", .words nums), (n!"out", .words out), (n!"count", .int 8), (n!"b", .bench N)]
      (nth (bodyOf Files.decTest n!"BenchmarkGet8uint32DeltaFast") 9) =
      repeatN fuel N (call (onAmd64 W.cpu (get8uint32DeltaFast inn out ctrl 0))) >>= fun _ =>
        pure [(n!"ctrl", .u16 ctrl), (n!"in", .bytes inn), (n!"nums", .words nums), (n!"out", .words out), (n!"count", .int 8), (n!"b", .bench N)] := by
    intro out nums inn ctrl
    refine Eq.trans ?_ (forLoop_upto (fun i _ => [(n!"i", .int i), (n!"ctrl", .u16 ctrl), (n!"in", .bytes inn), (n!"nums", .words nums), (n!"out", .words out), (n!"count", .int 8), (n!"b", .bench N)])
      (cond := fun env => (ev W Files.decTest fuel 49).eval env (loopCond (nth (bodyOf Files.decTest n!"BenchmarkGet8uint32DeltaFast") 9)))
      (post := fun env => (ev W Files.decTest fuel 49).exec env (loopPost (nth (bodyOf Files.decTest n!"BenchmarkGet8uint32DeltaFast") 9)))
      (body := fun env => (ev W Files.decTest fuel 49).execs env (loopBody (nth (bodyOf Files.decTest n!"BenchmarkGet8uint32DeltaFast") 9)))
      (old := [(n!"ctrl", .u16 ctrl), (n!"in", .bytes inn), (n!"nums", .words nums), (n!"out", .words out), (n!"count", .int 8), (n!"b", .bench N)])
      (n := N) ?_ ?_ ?_ fuel 0 ())
    · kernel_rfl
    · intro i a; kernel_rfl
    · intro i a; kernel_rfl
    · intro i a; kernel_rfl
  refine Eq.trans (b := M.go (do
    skipIf (decide (decodeMode W.cpu = .normal))
    let out ← makeW 8
    let nums ← gen W 8
    call (sortWords W nums)
    let inn ← makeB 32
    let ctrl ← call (put8uint32DeltaScalar nums inn 0)
    setBytes 32
    let env ← (ev W Files.decTest fuel 50).exec
      [(n!"ctrl", .u16 ctrl), (n!"in", .bytes inn), (n!"nums", .words nums), (n!"out", .words out), (n!"count", .int 8), (n!"b", .bench N)]
      (nth (bodyOf Files.decTest n!"BenchmarkGet8uint32DeltaFast") 9)
    let _ ← (ev W Files.decTest fuel 50).execs env [nth (bodyOf Files.decTest n!"BenchmarkGet8uint32DeltaFast") 10]
    pure ()) s) ?_ ?_
  · kernel_rfl
  · simp only [hl]
    kernel_rfl

theorem bGet8Scalar_text (W : World) (fuel N : Nat) (s : St) :
    bench W Files.decTest fuel n!"BenchmarkGet8uint32Scalar" N s = (bGet8Scalar W fuel N).go s := by
  have hl : ∀ out nums inn ctrl, (ev W Files.decTest fuel 52).exec
      [(n!"ctrl", .u16 ctrl), (n!"in", .bytes inn), (n!"nums", .words nums), (n!"out", .words out), (n!"count", .int 8), (n!"b", .bench N)]
      (nth (bodyOf Files.decTest n!"BenchmarkGet8uint32Scalar") 7) =
      repeatN fuel N (call (get8uint32Scalar inn out ctrl)) >>= fun _ =>
        pure [(n!"ctrl", .u16 ctrl), (n!"in", .bytes inn), (n!"nums", .words nums), (n!"out", .words out), (n!"count", .int 8), (n!"b", .bench N)] := by
    intro out nums inn ctrl
    refine Eq.trans ?_ (forLoop_upto (fun i _ => [(n!"i", .int i), (n!"ctrl", .u16 ctrl), (n!"in", .bytes inn), (n!"nums", .words nums), (n!"out", .words out), (n!"count", .int 8), (n!"b", .bench N)])
      (cond := fun env => (ev W Files.decTest fuel 51).eval env (loopCond (nth (bodyOf Files.decTest n!"BenchmarkGet8uint32Scalar") 7)))
      (post := fun env => (ev W Files.decTest fuel 51).exec env (loopPost (nth (bodyOf Files.decTest n!"BenchmarkGet8uint32Scalar") 7)))
      (body := fun env => (ev W Files.decTest fuel 51).execs env (loopBody (nth (bodyOf Files.decTest n!"BenchmarkGet8uint32Scalar") 7)))
      (old := [(n!"ctrl", .u16 ctrl), (n!"in", .bytes inn), (n!"nums", .words nums), (n!"out", .words out), (n!"count", .int 8), (n!"b", .bench N)])
      (n := N) ?_ ?_ ?_ fuel 0 ())
    · kernel_rfl
    · intro i a; kernel_rfl
    · intro i a; kernel_rfl
    · intro i a; kernel_rfl
  refine Eq.trans (b := M.go (do
    let out ← makeW 8
    let nums ← gen W 8
    let inn ← makeB 32
    let ctrl ← call (put8uint32Scalar nums inn)
    setBytes 32
    let env ← (ev W Files.decTest fuel 52).exec
      [(n!"ctrl", .u16 ctrl), (n!"in", .bytes inn), (n!"nums", .words nums), (n!"out", .words out), (n!"count", .int 8), (n!"b", .bench N)]
      (nth (bodyOf Files.decTest n!"BenchmarkGet8uint32Scalar") 7)
    let _ ← (ev W Files.decTest fuel 52).execs env [nth (bodyOf Files.decTest n!"BenchmarkGet8uint32Scalar") 8]
    pure ()) s) ?_ ?_
  · kernel_rfl
  · simp only [hl]
    kernel_rfl

theorem bGet8DeltaScalar_text (W : World) (fuel N : Nat) (s : St) :
    bench W Files.decTest fuel n!"BenchmarkGet8uint32DeltaScalar" N s = (bGet8DeltaScalar W fuel N).go s := by
  have hl : ∀ out nums inn ctrl, (ev W Files.decTest fuel 51).exec
      [(n!"ctrl", .u16 ctrl), (n!"in", .bytes inn), (n!"nums", .words nums), (n!"out", .words out), (n!"count", .int 8), (n!"b", .bench N)]
      (nth (bodyOf Files.decTest n!"BenchmarkGet8uint32DeltaScalar") 8) =
      repeatN fuel N (call (get8uint32DeltaScalar inn out ctrl 0)) >>= fun _ =>
        pure [(n!"ctrl", .u16 ctrl), (n!"in", .bytes inn), (n!"nums", .words nums), (n!"out", .words out), (n!"count", .int 8), (n!"b", .bench N)] := by
    intro out nums inn ctrl
    refine Eq.trans ?_ (forLoop_upto (fun i _ => [(n!"i", .int i), (n!"ctrl", .u16 ctrl), (n!"in", .bytes inn), (n!"nums", .words nums), (n!"out", .words out), (n!"count", .int 8), (n!"b", .bench N)])
      (cond := fun env => (ev W Files.decTest fuel 50).eval env (loopCond (nth (bodyOf Files.decTest n!"BenchmarkGet8uint32DeltaScalar") 8)))
      (post := fun env => (ev W Files.decTest fuel 50).exec env (loopPost (nth (bodyOf Files.decTest n!"BenchmarkGet8uint32DeltaScalar") 8)))
      (body := fun env => (ev W Files.decTest fuel 50).execs env (loopBody (nth (bodyOf Files.decTest n!"BenchmarkGet8uint32DeltaScalar") 8)))
      (old := [(n!"ctrl", .u16 ctrl), (n!"in", .bytes inn), (n!"nums", .words nums), (n!"out", .words out), (n!"count", .int 8), (n!"b", .bench N)])
      (n := N) ?_ ?_ ?_ fuel 0 ())
    · kernel_rfl
    · intro i a; kernel_rfl
    · intro i a; kernel_rfl
    · intro i a; kernel_rfl
  refine Eq.trans (b := M.go (do
    let out ← makeW 8
    let nums ← gen W 8
    call (sortWords W nums)
    let inn ← makeB 32
    let ctrl ← call (put8uint32DeltaScalar nums inn 0)
    setBytes 32
    let env ← (ev W Files.decTest fuel 51).exec
      [(n!"ctrl", .u16 ctrl), (n!"in", .bytes inn), (n!"nums", .words nums), (n!"out", .words out), (n!"count", .int 8), (n!"b", .bench N)]
      (nth (bodyOf Files.decTest n!"BenchmarkGet8uint32DeltaScalar") 8)
    let _ ← (ev W Files.decTest fuel 51).execs env [nth (bodyOf Files.decTest n!"BenchmarkGet8uint32DeltaScalar") 9]
    pure ()) s) ?_ ?_
  · kernel_rfl
  · simp only [hl]
    kernel_rfl

theorem bGetVarint_text (W : World) (fuel N : Nat) (s : St) :
    bench W Files.decTest fuel n!"BenchmarkGet8uint32Varint" N s = (bGetVarint W fuel N).go s := by
  have hl : ∀ out data written, (ev W Files.decTest fuel 52).exec
      [(n!"written", .int written), (n!"data", .bytes data), (n!"out", .words out), (n!"count", .int 8), (n!"b", .bench N)]
      (nth (bodyOf Files.decTest n!"BenchmarkGet8uint32Varint") 7) =
      repeatN fuel N (ignore (call (getVarint data out))) >>= fun _ =>
        pure [(n!"written", .int written), (n!"data", .bytes data), (n!"out", .words out), (n!"count", .int 8), (n!"b", .bench N)] := by
    intro out data written
    refine Eq.trans ?_ (forLoop_upto (fun i _ => [(n!"i", .int i), (n!"written", .int written), (n!"data", .bytes data), (n!"out", .words out), (n!"count", .int 8), (n!"b", .bench N)])
      (cond := fun env => (ev W Files.decTest fuel 51).eval env (loopCond (nth (bodyOf Files.decTest n!"BenchmarkGet8uint32Varint") 7)))
      (post := fun env => (ev W Files.decTest fuel 51).exec env (loopPost (nth (bodyOf Files.decTest n!"BenchmarkGet8uint32Varint") 7)))
      (body := fun env => (ev W Files.decTest fuel 51).execs env (loopBody (nth (bodyOf Files.decTest n!"BenchmarkGet8uint32Varint") 7)))
      (old := [(n!"written", .int written), (n!"data", .bytes data), (n!"out", .words out), (n!"count", .int 8), (n!"b", .bench N)])
      (n := N) ?_ ?_ ?_ fuel 0 ())
    · kernel_rfl
    · intro i a; kernel_rfl
    · intro i a; kernel_rfl
    · intro i a; kernel_rfl
  refine Eq.trans (b := M.go (do
    let out ← makeW 8
    let data ← makeB 40
    let nums ← gen W 8
    let written ← call (putVarint nums data)
    let data ← upto data written
    setBytes 32
    let env ← (ev W Files.decTest fuel 52).exec
      [(n!"written", .int written), (n!"data", .bytes data), (n!"out", .words out), (n!"count", .int 8), (n!"b", .bench N)]
      (nth (bodyOf Files.decTest n!"BenchmarkGet8uint32Varint") 7)
    let _ ← (ev W Files.decTest fuel 52).execs env [nth (bodyOf Files.decTest n!"BenchmarkGet8uint32Varint") 8]
    pure ()) s) ?_ ?_
  · kernel_rfl
  · simp only [hl]
    kernel_rfl

theorem bGetDeltaVarint_text (W : World) (fuel N : Nat) (s : St) :
    bench W Files.decTest fuel n!"BenchmarkGet8uint32DeltaVarint" N s = (bGetDeltaVarint W fuel N).go s := by
  have hl : ∀ out data written, (ev W Files.decTest fuel 52).exec
      [(n!"written", .int written), (n!"data", .bytes data), (n!"out", .words out), (n!"count", .int 8), (n!"b", .bench N)]
      (nth (bodyOf Files.decTest n!"BenchmarkGet8uint32DeltaVarint") 7) =
      repeatN fuel N (ignore (call (getDeltaVarint data out 0))) >>= fun _ =>
        pure [(n!"written", .int written), (n!"data", .bytes data), (n!"out", .words out), (n!"count", .int 8), (n!"b", .bench N)] := by
    intro out data written
    refine Eq.trans ?_ (forLoop_upto (fun i _ => [(n!"i", .int i), (n!"written", .int written), (n!"data", .bytes data), (n!"out", .words out), (n!"count", .int 8), (n!"b", .bench N)])
      (cond := fun env => (ev W Files.decTest fuel 51).eval env (loopCond (nth (bodyOf Files.decTest n!"BenchmarkGet8uint32DeltaVarint") 7)))
      (post := fun env => (ev W Files.decTest fuel 51).exec env (loopPost (nth (bodyOf Files.decTest n!"BenchmarkGet8uint32DeltaVarint") 7)))
      (body := fun env => (ev W Files.decTest fuel 51).execs env (loopBody (nth (bodyOf Files.decTest n!"BenchmarkGet8uint32DeltaVarint") 7)))
      (old := [(n!"written", .int written), (n!"data", .bytes data), (n!"out", .words out), (n!"count", .int 8), (n!"b", .bench N)])
      (n := N) ?_ ?_ ?_ fuel 0 ())
    · kernel_rfl
    · intro i a; kernel_rfl
    · intro i a; kernel_rfl
    · intro i a; kernel_rfl
  refine Eq.trans (b := M.go (do
    let out ← makeW 8
    let data ← makeB 40
    let nums ← gen W 8
    let written ← call (putDeltaVarint nums data 0)
    let data ← upto data written
    setBytes 32
    let env ← (ev W Files.decTest fuel 52).exec
      [(n!"written", .int written), (n!"data", .bytes data), (n!"out", .words out), (n!"count", .int 8), (n!"b", .bench N)]
      (nth (bodyOf Files.decTest n!"BenchmarkGet8uint32DeltaVarint") 7)
    let _ ← (ev W Files.decTest fuel 52).execs env [nth (bodyOf Files.decTest n!"BenchmarkGet8uint32DeltaVarint") 8]
    pure ()) s) ?_ ?_
  · kernel_rfl
  · simp only [hl]
    kernel_rfl

/-! ## `/repo/pkg/pkg_test.go` -/

theorem bMemCopy_text (W : World) (fuel N : Nat) (s : St) :
    bench W Files.pkgTest fuel n!"BenchmarkMemCopy8Uint32" N s = (bMemCopy W fuel N).go s := by
  have h1 : ∀ nums, (ev W Files.pkgTest fuel 57).exec [(n!"nums", .words nums), (n!"count", .int 8), (n!"b", .bench N)]
      (nth (bodyOf Files.pkgTest n!"BenchmarkMemCopy8Uint32") 2) =
      forUpto 8 (fun i _ => randU32 W >>= fun v => call (setW nums i v)) fuel 0 () >>= fun _ =>
        pure [(n!"nums", .words nums), (n!"count", .int 8), (n!"b", .bench N)] := by
    intro nums
    refine Eq.trans ?_ (forLoop_upto (fun i _ => [(n!"i", .int i), (n!"nums", .words nums), (n!"count", .int 8), (n!"b", .bench N)])
      (cond := fun env => (ev W Files.pkgTest fuel 56).eval env (loopCond (nth (bodyOf Files.pkgTest n!"BenchmarkMemCopy8Uint32") 2)))
      (post := fun env => (ev W Files.pkgTest fuel 56).exec env (loopPost (nth (bodyOf Files.pkgTest n!"BenchmarkMemCopy8Uint32") 2)))
      (body := fun env => (ev W Files.pkgTest fuel 56).execs env (loopBody (nth (bodyOf Files.pkgTest n!"BenchmarkMemCopy8Uint32") 2)))
      (old := [(n!"nums", .words nums), (n!"count", .int 8), (n!"b", .bench N)]) (n := 8) ?_ ?_ ?_ fuel 0 ())
    · kernel_rfl
    · intro i a; kernel_rfl
    · intro i a; kernel_rfl
    · intro i a; kernel_rfl
  have h2 : ∀ out nums, (ev W Files.pkgTest fuel 53).exec
      [(n!"out", .words out), (n!"nums", .words nums), (n!"count", .int 8), (n!"b", .bench N)]
      (nth (bodyOf Files.pkgTest n!"BenchmarkMemCopy8Uint32") 6) =
      repeatN fuel N (call (copyWords out nums)) >>= fun _ =>
        pure [(n!"out", .words out), (n!"nums", .words nums), (n!"count", .int 8), (n!"b", .bench N)] := by
    intro out nums
    refine Eq.trans ?_ (forLoop_upto
      (fun i _ => [(n!"i", .int i), (n!"out", .words out), (n!"nums", .words nums), (n!"count", .int 8), (n!"b", .bench N)])
      (cond := fun env => (ev W Files.pkgTest fuel 52).eval env (loopCond (nth (bodyOf Files.pkgTest n!"BenchmarkMemCopy8Uint32") 6)))
      (post := fun env => (ev W Files.pkgTest fuel 52).exec env (loopPost (nth (bodyOf Files.pkgTest n!"BenchmarkMemCopy8Uint32") 6)))
      (body := fun env => (ev W Files.pkgTest fuel 52).execs env (loopBody (nth (bodyOf Files.pkgTest n!"BenchmarkMemCopy8Uint32") 6)))
      (old := [(n!"out", .words out), (n!"nums", .words nums), (n!"count", .int 8), (n!"b", .bench N)]) (n := N) ?_ ?_ ?_ fuel 0 ())
    · kernel_rfl
    · intro i a; kernel_rfl
    · intro i a; kernel_rfl
    · intro i a; kernel_rfl
  refine Eq.trans (b := M.go (do
    let nums ← makeW 8
    let env ← (ev W Files.pkgTest fuel 57).exec [(n!"nums", .words nums), (n!"count", .int 8), (n!"b", .bench N)]
      (nth (bodyOf Files.pkgTest n!"BenchmarkMemCopy8Uint32") 2)
    let _ ← (ev W Files.pkgTest fuel 57).execs env ((bodyOf Files.pkgTest n!"BenchmarkMemCopy8Uint32").drop 3)
    pure ()) s) ?_ ?_
  · kernel_rfl
  · simp only [h1]
    refine Eq.trans (b := M.go (do
      let nums ← makeW 8
      forUpto 8 (fun i _ => randU32 W >>= fun v => call (setW nums i v)) fuel 0 ()
      let out ← makeW 8
      setBytes 32
      let _ ← (ev W Files.pkgTest fuel 53).exec
        [(n!"out", .words out), (n!"nums", .words nums), (n!"count", .int 8), (n!"b", .bench N)]
        (nth (bodyOf Files.pkgTest n!"BenchmarkMemCopy8Uint32") 6)
      pure ()) s) ?_ ?_
    · kernel_rfl
    · simp only [h2]
      kernel_rfl

/-! ## `/repo/pkg/stream/reader/reader_test.go` -/

theorem bReadAllFast_text (W : World) (fuel N : Nat) (s : St) :
    bench W Files.rdTest fuel n!"BenchmarkReadAllFast" N s = (bReadAllFast W fuel).go s := by
  have hl : ∀ (n : Nat) (j count : Int) nums stream out, (ev W Files.rdTest fuel 48).exec
      [(n!"b", .bench n), (n!"out", .words out), (n!"stream", .bytes stream), (n!"nums", .words nums), (n!"count", .int count), (n!"i", .int j), (n!"b", .bench N)]
      (nth (runBody (nth (loopBody (nth (bodyOf Files.rdTest n!"BenchmarkReadAllFast") 1)) 4)) 2) =
      repeatN fuel n (call (onAmd64 W.cpu (SVB.readAllFast count stream out))) >>= fun _ =>
        pure [(n!"b", .bench n), (n!"out", .words out), (n!"stream", .bytes stream), (n!"nums", .words nums), (n!"count", .int count), (n!"i", .int j), (n!"b", .bench N)] := by
    intro n j count nums stream out
    refine Eq.trans ?_ (forLoop_upto (fun i (_ : Unit) => [(n!"i", .int i), (n!"b", .bench n), (n!"out", .words out), (n!"stream", .bytes stream), (n!"nums", .words nums), (n!"count", .int count), (n!"i", .int j), (n!"b", .bench N)])
      (cond := fun env => (ev W Files.rdTest fuel 47).eval env (loopCond (nth (runBody (nth (loopBody (nth (bodyOf Files.rdTest n!"BenchmarkReadAllFast") 1)) 4)) 2)))
      (post := fun env => (ev W Files.rdTest fuel 47).exec env (loopPost (nth (runBody (nth (loopBody (nth (bodyOf Files.rdTest n!"BenchmarkReadAllFast") 1)) 4)) 2)))
      (body := fun env => (ev W Files.rdTest fuel 47).execs env (loopBody (nth (runBody (nth (loopBody (nth (bodyOf Files.rdTest n!"BenchmarkReadAllFast") 1)) 4)) 2)))
      (old := [(n!"b", .bench n), (n!"out", .words out), (n!"stream", .bytes stream), (n!"nums", .words nums), (n!"count", .int count), (n!"i", .int j), (n!"b", .bench N)])
      (n := n) ?_ ?_ ?_ fuel 0 ())
    · kernel_rfl
    · intro i a; kernel_rfl
    · intro i a; kernel_rfl
    · intro i a; kernel_rfl
  have hr : ∀ (j count : Int) nums stream out, (ev W Files.rdTest fuel 52).exec
      [(n!"out", .words out), (n!"stream", .bytes stream), (n!"nums", .words nums), (n!"count", .int count), (n!"i", .int j), (n!"b", .bench N)]
      (nth (loopBody (nth (bodyOf Files.rdTest n!"BenchmarkReadAllFast") 1)) 4) =
      bRun W (fun n _ => do
        setBytes (int64 (count * 4))
        repeatN fuel n (call (onAmd64 W.cpu (SVB.readAllFast count stream out)))
        setSink n!"readSinkA" (.words out)) () >>= fun _ =>
        pure [(n!"out", .words out), (n!"stream", .bytes stream), (n!"nums", .words nums), (n!"count", .int count), (n!"i", .int j), (n!"b", .bench N)] := by
    intro j count nums stream out
    refine Eq.trans ?_ (runRounds_eq (fun (_ : Unit) => [(n!"out", .words out), (n!"stream", .bytes stream), (n!"nums", .words nums), (n!"count", .int count), (n!"i", .int j), (n!"b", .bench N)])
      (f := fun n env => do
        let env' ← (ev W Files.rdTest fuel 51).execs ((n!"b", .bench n) :: env) (runBody (nth (loopBody (nth (bodyOf Files.rdTest n!"BenchmarkReadAllFast") 1)) 4))
        pure (env'.leave env)) ?_ ())
    · kernel_rfl
    · intro n _
      refine Eq.trans (b := do
        setBytes (int64 (count * 4))
        let env ← (ev W Files.rdTest fuel 48).exec
          [(n!"b", .bench n), (n!"out", .words out), (n!"stream", .bytes stream), (n!"nums", .words nums), (n!"count", .int count), (n!"i", .int j), (n!"b", .bench N)]
          (nth (runBody (nth (loopBody (nth (bodyOf Files.rdTest n!"BenchmarkReadAllFast") 1)) 4)) 2)
        let env ← (ev W Files.rdTest fuel 48).execs env [nth (runBody (nth (loopBody (nth (bodyOf Files.rdTest n!"BenchmarkReadAllFast") 1)) 4)) 3]
        pure (env.leave [(n!"out", .words out), (n!"stream", .bytes stream), (n!"nums", .words nums), (n!"count", .int count), (n!"i", .int j), (n!"b", .bench N)])) ?_ ?_
      · kernel_rfl
      · simp only [hl]
        kernel_rfl
  have ho : (ev W Files.rdTest fuel 58).exec [(n!"b", .bench N)] (nth (bodyOf Files.rdTest n!"BenchmarkReadAllFast") 1) =
      (tens fuel fun count => do
        let nums ← gen W count
        let stream ← alloc fun b => SVB.writeAllScalar b nums
        let out ← makeW count
        bRun W (fun n _ => do
        setBytes (int64 (count * 4))
        repeatN fuel n (call (onAmd64 W.cpu (SVB.readAllFast count stream out)))
        setSink n!"readSinkA" (.words out)) ()) >>= fun _ => pure [(n!"b", .bench N)] := by
    refine Eq.trans ?_ (forLoop_upto (fun i (_ : Unit) => [(n!"i", .int i), (n!"b", .bench N)])
      (cond := fun env => (ev W Files.rdTest fuel 57).eval env (loopCond (nth (bodyOf Files.rdTest n!"BenchmarkReadAllFast") 1)))
      (post := fun env => (ev W Files.rdTest fuel 57).exec env (loopPost (nth (bodyOf Files.rdTest n!"BenchmarkReadAllFast") 1)))
      (body := fun env => (ev W Files.rdTest fuel 57).execs env (loopBody (nth (bodyOf Files.rdTest n!"BenchmarkReadAllFast") 1)))
      (old := [(n!"b", .bench N)])
      (n := 8) ?_ ?_ ?_ fuel 0 ())
    · kernel_rfl
    · intro i a; kernel_rfl
    · intro j a
      refine Eq.trans (b := do
        let count ← pow10Int j
        let nums ← gen W count
        let stream ← alloc fun b => SVB.writeAllScalar b nums
        let out ← makeW count
        let env ← (ev W Files.rdTest fuel 52).exec
          [(n!"out", .words out), (n!"stream", .bytes stream), (n!"nums", .words nums), (n!"count", .int count), (n!"i", .int j), (n!"b", .bench N)]
          (nth (loopBody (nth (bodyOf Files.rdTest n!"BenchmarkReadAllFast") 1)) 4)
        (ev W Files.rdTest fuel 57).exec (env.leave [(n!"i", .int j), (n!"b", .bench N)]) (loopPost (nth (bodyOf Files.rdTest n!"BenchmarkReadAllFast") 1))) ?_ ?_
      · kernel_rfl
      · simp only [hr]
        kernel_rfl
    · intro i a; kernel_rfl
  refine Eq.trans (b := M.go (do
    skipIf (decide (decodeMode W.cpu = .normal))
    let _ ← (ev W Files.rdTest fuel 58).exec [(n!"b", .bench N)] (nth (bodyOf Files.rdTest n!"BenchmarkReadAllFast") 1)
    pure ()) s) ?_ ?_
  · kernel_rfl
  · simp only [ho]
    kernel_rfl

theorem bReadAllDeltaFast_text (W : World) (fuel N : Nat) (s : St) :
    bench W Files.rdTest fuel n!"BenchmarkReadAllDeltaFast" N s = (bReadAllDeltaFast W fuel).go s := by
  have hl : ∀ (n : Nat) (j count : Int) nums stream out, (ev W Files.rdTest fuel 47).exec
      [(n!"b", .bench n), (n!"out", .words out), (n!"stream", .bytes stream), (n!"nums", .words nums), (n!"count", .int count), (n!"i", .int j), (n!"b", .bench N)]
      (nth (runBody (nth (loopBody (nth (bodyOf Files.rdTest n!"BenchmarkReadAllDeltaFast") 1)) 5)) 2) =
      repeatN fuel n (call (onAmd64 W.cpu (SVB.readAllDeltaFast count stream out 0))) >>= fun _ =>
        pure [(n!"b", .bench n), (n!"out", .words out), (n!"stream", .bytes stream), (n!"nums", .words nums), (n!"count", .int count), (n!"i", .int j), (n!"b", .bench N)] := by
    intro n j count nums stream out
    refine Eq.trans ?_ (forLoop_upto (fun i (_ : Unit) => [(n!"i", .int i), (n!"b", .bench n), (n!"out", .words out), (n!"stream", .bytes stream), (n!"nums", .words nums), (n!"count", .int count), (n!"i", .int j), (n!"b", .bench N)])
      (cond := fun env => (ev W Files.rdTest fuel 46).eval env (loopCond (nth (runBody (nth (loopBody (nth (bodyOf Files.rdTest n!"BenchmarkReadAllDeltaFast") 1)) 5)) 2)))
      (post := fun env => (ev W Files.rdTest fuel 46).exec env (loopPost (nth (runBody (nth (loopBody (nth (bodyOf Files.rdTest n!"BenchmarkReadAllDeltaFast") 1)) 5)) 2)))
      (body := fun env => (ev W Files.rdTest fuel 46).execs env (loopBody (nth (runBody (nth (loopBody (nth (bodyOf Files.rdTest n!"BenchmarkReadAllDeltaFast") 1)) 5)) 2)))
      (old := [(n!"b", .bench n), (n!"out", .words out), (n!"stream", .bytes stream), (n!"nums", .words nums), (n!"count", .int count), (n!"i", .int j), (n!"b", .bench N)])
      (n := n) ?_ ?_ ?_ fuel 0 ())
    · kernel_rfl
    · intro i a; kernel_rfl
    · intro i a; kernel_rfl
    · intro i a; kernel_rfl
  have hr : ∀ (j count : Int) nums stream out, (ev W Files.rdTest fuel 51).exec
      [(n!"out", .words out), (n!"stream", .bytes stream), (n!"nums", .words nums), (n!"count", .int count), (n!"i", .int j), (n!"b", .bench N)]
      (nth (loopBody (nth (bodyOf Files.rdTest n!"BenchmarkReadAllDeltaFast") 1)) 5) =
      bRun W (fun n _ => do
        setBytes (int64 (count * 4))
        repeatN fuel n (call (onAmd64 W.cpu (SVB.readAllDeltaFast count stream out 0)))
        setSink n!"readSinkB" (.words out)) () >>= fun _ =>
        pure [(n!"out", .words out), (n!"stream", .bytes stream), (n!"nums", .words nums), (n!"count", .int count), (n!"i", .int j), (n!"b", .bench N)] := by
    intro j count nums stream out
    refine Eq.trans ?_ (runRounds_eq (fun (_ : Unit) => [(n!"out", .words out), (n!"stream", .bytes stream), (n!"nums", .words nums), (n!"count", .int count), (n!"i", .int j), (n!"b", .bench N)])
      (f := fun n env => do
        let env' ← (ev W Files.rdTest fuel 50).execs ((n!"b", .bench n) :: env) (runBody (nth (loopBody (nth (bodyOf Files.rdTest n!"BenchmarkReadAllDeltaFast") 1)) 5))
        pure (env'.leave env)) ?_ ())
    · kernel_rfl
    · intro n _
      refine Eq.trans (b := do
        setBytes (int64 (count * 4))
        let env ← (ev W Files.rdTest fuel 47).exec
          [(n!"b", .bench n), (n!"out", .words out), (n!"stream", .bytes stream), (n!"nums", .words nums), (n!"count", .int count), (n!"i", .int j), (n!"b", .bench N)]
          (nth (runBody (nth (loopBody (nth (bodyOf Files.rdTest n!"BenchmarkReadAllDeltaFast") 1)) 5)) 2)
        let env ← (ev W Files.rdTest fuel 47).execs env [nth (runBody (nth (loopBody (nth (bodyOf Files.rdTest n!"BenchmarkReadAllDeltaFast") 1)) 5)) 3]
        pure (env.leave [(n!"out", .words out), (n!"stream", .bytes stream), (n!"nums", .words nums), (n!"count", .int count), (n!"i", .int j), (n!"b", .bench N)])) ?_ ?_
      · kernel_rfl
      · simp only [hl]
        kernel_rfl
  have ho : (ev W Files.rdTest fuel 58).exec [(n!"b", .bench N)] (nth (bodyOf Files.rdTest n!"BenchmarkReadAllDeltaFast") 1) =
      (tens fuel fun count => do
        let nums ← gen W count
        call (sortWords W nums)
        let stream ← alloc fun b => SVB.writeAllDeltaScalar b nums 0
        let out ← makeW count
        bRun W (fun n _ => do
        setBytes (int64 (count * 4))
        repeatN fuel n (call (onAmd64 W.cpu (SVB.readAllDeltaFast count stream out 0)))
        setSink n!"readSinkB" (.words out)) ()) >>= fun _ => pure [(n!"b", .bench N)] := by
    refine Eq.trans ?_ (forLoop_upto (fun i (_ : Unit) => [(n!"i", .int i), (n!"b", .bench N)])
      (cond := fun env => (ev W Files.rdTest fuel 57).eval env (loopCond (nth (bodyOf Files.rdTest n!"BenchmarkReadAllDeltaFast") 1)))
      (post := fun env => (ev W Files.rdTest fuel 57).exec env (loopPost (nth (bodyOf Files.rdTest n!"BenchmarkReadAllDeltaFast") 1)))
      (body := fun env => (ev W Files.rdTest fuel 57).execs env (loopBody (nth (bodyOf Files.rdTest n!"BenchmarkReadAllDeltaFast") 1)))
      (old := [(n!"b", .bench N)])
      (n := 8) ?_ ?_ ?_ fuel 0 ())
    · kernel_rfl
    · intro i a; kernel_rfl
    · intro j a
      refine Eq.trans (b := do
        let count ← pow10Int j
        let nums ← gen W count
        call (sortWords W nums)
        let stream ← alloc fun b => SVB.writeAllDeltaScalar b nums 0
        let out ← makeW count
        let env ← (ev W Files.rdTest fuel 51).exec
          [(n!"out", .words out), (n!"stream", .bytes stream), (n!"nums", .words nums), (n!"count", .int count), (n!"i", .int j), (n!"b", .bench N)]
          (nth (loopBody (nth (bodyOf Files.rdTest n!"BenchmarkReadAllDeltaFast") 1)) 5)
        (ev W Files.rdTest fuel 57).exec (env.leave [(n!"i", .int j), (n!"b", .bench N)]) (loopPost (nth (bodyOf Files.rdTest n!"BenchmarkReadAllDeltaFast") 1))) ?_ ?_
      · kernel_rfl
      · simp only [hr]
        kernel_rfl
    · intro i a; kernel_rfl
  refine Eq.trans (b := M.go (do
    skipIf (decide (decodeMode W.cpu = .normal))
    let _ ← (ev W Files.rdTest fuel 58).exec [(n!"b", .bench N)] (nth (bodyOf Files.rdTest n!"BenchmarkReadAllDeltaFast") 1)
    pure ()) s) ?_ ?_
  · kernel_rfl
  · simp only [ho]
    kernel_rfl

theorem bReadAllScalar_text (W : World) (fuel N : Nat) (s : St) :
    bench W Files.rdTest fuel n!"BenchmarkReadAllScalar" N s = (bReadAllScalar W fuel).go s := by
  have hl : ∀ (n : Nat) (j count : Int) nums stream out, (ev W Files.rdTest fuel 48).exec
      [(n!"b", .bench n), (n!"out", .words out), (n!"stream", .bytes stream), (n!"nums", .words nums), (n!"count", .int count), (n!"i", .int j), (n!"b", .bench N)]
      (nth (runBody (nth (loopBody (nth (bodyOf Files.rdTest n!"BenchmarkReadAllScalar") 0)) 5)) 2) =
      repeatN fuel n (call (SVB.readAllScalar count stream out)) >>= fun _ =>
        pure [(n!"b", .bench n), (n!"out", .words out), (n!"stream", .bytes stream), (n!"nums", .words nums), (n!"count", .int count), (n!"i", .int j), (n!"b", .bench N)] := by
    intro n j count nums stream out
    refine Eq.trans ?_ (forLoop_upto (fun i (_ : Unit) => [(n!"i", .int i), (n!"b", .bench n), (n!"out", .words out), (n!"stream", .bytes stream), (n!"nums", .words nums), (n!"count", .int count), (n!"i", .int j), (n!"b", .bench N)])
      (cond := fun env => (ev W Files.rdTest fuel 47).eval env (loopCond (nth (runBody (nth (loopBody (nth (bodyOf Files.rdTest n!"BenchmarkReadAllScalar") 0)) 5)) 2)))
      (post := fun env => (ev W Files.rdTest fuel 47).exec env (loopPost (nth (runBody (nth (loopBody (nth (bodyOf Files.rdTest n!"BenchmarkReadAllScalar") 0)) 5)) 2)))
      (body := fun env => (ev W Files.rdTest fuel 47).execs env (loopBody (nth (runBody (nth (loopBody (nth (bodyOf Files.rdTest n!"BenchmarkReadAllScalar") 0)) 5)) 2)))
      (old := [(n!"b", .bench n), (n!"out", .words out), (n!"stream", .bytes stream), (n!"nums", .words nums), (n!"count", .int count), (n!"i", .int j), (n!"b", .bench N)])
      (n := n) ?_ ?_ ?_ fuel 0 ())
    · kernel_rfl
    · intro i a; kernel_rfl
    · intro i a; kernel_rfl
    · intro i a; kernel_rfl
  have hr : ∀ (j count : Int) nums stream out, (ev W Files.rdTest fuel 52).exec
      [(n!"out", .words out), (n!"stream", .bytes stream), (n!"nums", .words nums), (n!"count", .int count), (n!"i", .int j), (n!"b", .bench N)]
      (nth (loopBody (nth (bodyOf Files.rdTest n!"BenchmarkReadAllScalar") 0)) 5) =
      bRun W (fun n _ => do
        setBytes (int64 (count * 4))
        repeatN fuel n (call (SVB.readAllScalar count stream out))
        setSink n!"readSinkC" (.words out)) () >>= fun _ =>
        pure [(n!"out", .words out), (n!"stream", .bytes stream), (n!"nums", .words nums), (n!"count", .int count), (n!"i", .int j), (n!"b", .bench N)] := by
    intro j count nums stream out
    refine Eq.trans ?_ (runRounds_eq (fun (_ : Unit) => [(n!"out", .words out), (n!"stream", .bytes stream), (n!"nums", .words nums), (n!"count", .int count), (n!"i", .int j), (n!"b", .bench N)])
      (f := fun n env => do
        let env' ← (ev W Files.rdTest fuel 51).execs ((n!"b", .bench n) :: env) (runBody (nth (loopBody (nth (bodyOf Files.rdTest n!"BenchmarkReadAllScalar") 0)) 5))
        pure (env'.leave env)) ?_ ())
    · kernel_rfl
    · intro n _
      refine Eq.trans (b := do
        setBytes (int64 (count * 4))
        let env ← (ev W Files.rdTest fuel 48).exec
          [(n!"b", .bench n), (n!"out", .words out), (n!"stream", .bytes stream), (n!"nums", .words nums), (n!"count", .int count), (n!"i", .int j), (n!"b", .bench N)]
          (nth (runBody (nth (loopBody (nth (bodyOf Files.rdTest n!"BenchmarkReadAllScalar") 0)) 5)) 2)
        let env ← (ev W Files.rdTest fuel 48).execs env [nth (runBody (nth (loopBody (nth (bodyOf Files.rdTest n!"BenchmarkReadAllScalar") 0)) 5)) 3]
        pure (env.leave [(n!"out", .words out), (n!"stream", .bytes stream), (n!"nums", .words nums), (n!"count", .int count), (n!"i", .int j), (n!"b", .bench N)])) ?_ ?_
      · kernel_rfl
      · simp only [hl]
        kernel_rfl
  have ho : (ev W Files.rdTest fuel 59).exec [(n!"b", .bench N)] (nth (bodyOf Files.rdTest n!"BenchmarkReadAllScalar") 0) =
      (tens fuel fun count => do
        let nums ← gen W count
        call (sortWords W nums)
        let stream ← alloc fun b => SVB.writeAllScalar b nums
        let out ← makeW count
        bRun W (fun n _ => do
        setBytes (int64 (count * 4))
        repeatN fuel n (call (SVB.readAllScalar count stream out))
        setSink n!"readSinkC" (.words out)) ()) >>= fun _ => pure [(n!"b", .bench N)] := by
    refine Eq.trans ?_ (forLoop_upto (fun i (_ : Unit) => [(n!"i", .int i), (n!"b", .bench N)])
      (cond := fun env => (ev W Files.rdTest fuel 58).eval env (loopCond (nth (bodyOf Files.rdTest n!"BenchmarkReadAllScalar") 0)))
      (post := fun env => (ev W Files.rdTest fuel 58).exec env (loopPost (nth (bodyOf Files.rdTest n!"BenchmarkReadAllScalar") 0)))
      (body := fun env => (ev W Files.rdTest fuel 58).execs env (loopBody (nth (bodyOf Files.rdTest n!"BenchmarkReadAllScalar") 0)))
      (old := [(n!"b", .bench N)])
      (n := 8) ?_ ?_ ?_ fuel 0 ())
    · kernel_rfl
    · intro i a; kernel_rfl
    · intro j a
      refine Eq.trans (b := do
        let count ← pow10Int j
        let nums ← gen W count
        call (sortWords W nums)
        let stream ← alloc fun b => SVB.writeAllScalar b nums
        let out ← makeW count
        let env ← (ev W Files.rdTest fuel 52).exec
          [(n!"out", .words out), (n!"stream", .bytes stream), (n!"nums", .words nums), (n!"count", .int count), (n!"i", .int j), (n!"b", .bench N)]
          (nth (loopBody (nth (bodyOf Files.rdTest n!"BenchmarkReadAllScalar") 0)) 5)
        (ev W Files.rdTest fuel 58).exec (env.leave [(n!"i", .int j), (n!"b", .bench N)]) (loopPost (nth (bodyOf Files.rdTest n!"BenchmarkReadAllScalar") 0))) ?_ ?_
      · kernel_rfl
      · simp only [hr]
        kernel_rfl
    · intro i a; kernel_rfl
  refine Eq.trans (b := M.go (do
    let _ ← (ev W Files.rdTest fuel 59).exec [(n!"b", .bench N)] (nth (bodyOf Files.rdTest n!"BenchmarkReadAllScalar") 0)
    pure ()) s) ?_ ?_
  · kernel_rfl
  · simp only [ho]
    kernel_rfl

theorem bReadAllDeltaScalar_text (W : World) (fuel N : Nat) (s : St) :
    bench W Files.rdTest fuel n!"BenchmarkReadAllDeltaScalar" N s = (bReadAllDeltaScalar W fuel).go s := by
  have hl : ∀ (n : Nat) (j count : Int) nums stream out, (ev W Files.rdTest fuel 48).exec
      [(n!"b", .bench n), (n!"out", .words out), (n!"stream", .bytes stream), (n!"nums", .words nums), (n!"count", .int count), (n!"i", .int j), (n!"b", .bench N)]
      (nth (runBody (nth (loopBody (nth (bodyOf Files.rdTest n!"BenchmarkReadAllDeltaScalar") 0)) 5)) 2) =
      repeatN fuel n (call (SVB.readAllDeltaScalar count stream out 0)) >>= fun _ =>
        pure [(n!"b", .bench n), (n!"out", .words out), (n!"stream", .bytes stream), (n!"nums", .words nums), (n!"count", .int count), (n!"i", .int j), (n!"b", .bench N)] := by
    intro n j count nums stream out
    refine Eq.trans ?_ (forLoop_upto (fun i (_ : Unit) => [(n!"i", .int i), (n!"b", .bench n), (n!"out", .words out), (n!"stream", .bytes stream), (n!"nums", .words nums), (n!"count", .int count), (n!"i", .int j), (n!"b", .bench N)])
      (cond := fun env => (ev W Files.rdTest fuel 47).eval env (loopCond (nth (runBody (nth (loopBody (nth (bodyOf Files.rdTest n!"BenchmarkReadAllDeltaScalar") 0)) 5)) 2)))
      (post := fun env => (ev W Files.rdTest fuel 47).exec env (loopPost (nth (runBody (nth (loopBody (nth (bodyOf Files.rdTest n!"BenchmarkReadAllDeltaScalar") 0)) 5)) 2)))
      (body := fun env => (ev W Files.rdTest fuel 47).execs env (loopBody (nth (runBody (nth (loopBody (nth (bodyOf Files.rdTest n!"BenchmarkReadAllDeltaScalar") 0)) 5)) 2)))
      (old := [(n!"b", .bench n), (n!"out", .words out), (n!"stream", .bytes stream), (n!"nums", .words nums), (n!"count", .int count), (n!"i", .int j), (n!"b", .bench N)])
      (n := n) ?_ ?_ ?_ fuel 0 ())
    · kernel_rfl
    · intro i a; kernel_rfl
    · intro i a; kernel_rfl
    · intro i a; kernel_rfl
  have hr : ∀ (j count : Int) nums stream out, (ev W Files.rdTest fuel 52).exec
      [(n!"out", .words out), (n!"stream", .bytes stream), (n!"nums", .words nums), (n!"count", .int count), (n!"i", .int j), (n!"b", .bench N)]
      (nth (loopBody (nth (bodyOf Files.rdTest n!"BenchmarkReadAllDeltaScalar") 0)) 5) =
      bRun W (fun n _ => do
        setBytes (int64 (count * 4))
        repeatN fuel n (call (SVB.readAllDeltaScalar count stream out 0))
        setSink n!"readSinkD" (.words out)) () >>= fun _ =>
        pure [(n!"out", .words out), (n!"stream", .bytes stream), (n!"nums", .words nums), (n!"count", .int count), (n!"i", .int j), (n!"b", .bench N)] := by
    intro j count nums stream out
    refine Eq.trans ?_ (runRounds_eq (fun (_ : Unit) => [(n!"out", .words out), (n!"stream", .bytes stream), (n!"nums", .words nums), (n!"count", .int count), (n!"i", .int j), (n!"b", .bench N)])
      (f := fun n env => do
        let env' ← (ev W Files.rdTest fuel 51).execs ((n!"b", .bench n) :: env) (runBody (nth (loopBody (nth (bodyOf Files.rdTest n!"BenchmarkReadAllDeltaScalar") 0)) 5))
        pure (env'.leave env)) ?_ ())
    · kernel_rfl
    · intro n _
      refine Eq.trans (b := do
        setBytes (int64 (count * 4))
        let env ← (ev W Files.rdTest fuel 48).exec
          [(n!"b", .bench n), (n!"out", .words out), (n!"stream", .bytes stream), (n!"nums", .words nums), (n!"count", .int count), (n!"i", .int j), (n!"b", .bench N)]
          (nth (runBody (nth (loopBody (nth (bodyOf Files.rdTest n!"BenchmarkReadAllDeltaScalar") 0)) 5)) 2)
        let env ← (ev W Files.rdTest fuel 48).execs env [nth (runBody (nth (loopBody (nth (bodyOf Files.rdTest n!"BenchmarkReadAllDeltaScalar") 0)) 5)) 3]
        pure (env.leave [(n!"out", .words out), (n!"stream", .bytes stream), (n!"nums", .words nums), (n!"count", .int count), (n!"i", .int j), (n!"b", .bench N)])) ?_ ?_
      · kernel_rfl
      · simp only [hl]
        kernel_rfl
  have ho : (ev W Files.rdTest fuel 59).exec [(n!"b", .bench N)] (nth (bodyOf Files.rdTest n!"BenchmarkReadAllDeltaScalar") 0) =
      (tens fuel fun count => do
        let nums ← gen W count
        call (sortWords W nums)
        let stream ← alloc fun b => SVB.writeAllDeltaScalar b nums 0
        let out ← makeW count
        bRun W (fun n _ => do
        setBytes (int64 (count * 4))
        repeatN fuel n (call (SVB.readAllDeltaScalar count stream out 0))
        setSink n!"readSinkD" (.words out)) ()) >>= fun _ => pure [(n!"b", .bench N)] := by
    refine Eq.trans ?_ (forLoop_upto (fun i (_ : Unit) => [(n!"i", .int i), (n!"b", .bench N)])
      (cond := fun env => (ev W Files.rdTest fuel 58).eval env (loopCond (nth (bodyOf Files.rdTest n!"BenchmarkReadAllDeltaScalar") 0)))
      (post := fun env => (ev W Files.rdTest fuel 58).exec env (loopPost (nth (bodyOf Files.rdTest n!"BenchmarkReadAllDeltaScalar") 0)))
      (body := fun env => (ev W Files.rdTest fuel 58).execs env (loopBody (nth (bodyOf Files.rdTest n!"BenchmarkReadAllDeltaScalar") 0)))
      (old := [(n!"b", .bench N)])
      (n := 8) ?_ ?_ ?_ fuel 0 ())
    · kernel_rfl
    · intro i a; kernel_rfl
    · intro j a
      refine Eq.trans (b := do
        let count ← pow10Int j
        let nums ← gen W count
        call (sortWords W nums)
        let stream ← alloc fun b => SVB.writeAllDeltaScalar b nums 0
        let out ← makeW count
        let env ← (ev W Files.rdTest fuel 52).exec
          [(n!"out", .words out), (n!"stream", .bytes stream), (n!"nums", .words nums), (n!"count", .int count), (n!"i", .int j), (n!"b", .bench N)]
          (nth (loopBody (nth (bodyOf Files.rdTest n!"BenchmarkReadAllDeltaScalar") 0)) 5)
        (ev W Files.rdTest fuel 58).exec (env.leave [(n!"i", .int j), (n!"b", .bench N)]) (loopPost (nth (bodyOf Files.rdTest n!"BenchmarkReadAllDeltaScalar") 0))) ?_ ?_
      · kernel_rfl
      · simp only [hr]
        kernel_rfl
    · intro i a; kernel_rfl
  refine Eq.trans (b := M.go (do
    let _ ← (ev W Files.rdTest fuel 59).exec [(n!"b", .bench N)] (nth (bodyOf Files.rdTest n!"BenchmarkReadAllDeltaScalar") 0)
    pure ()) s) ?_ ?_
  · kernel_rfl
  · simp only [ho]
    kernel_rfl

theorem bReadVarint_text (W : World) (fuel N : Nat) (s : St) :
    bench W Files.rdTest fuel n!"BenchmarkReadAllVarint" N s = (bReadVarint W fuel).go s := by
  have hl : ∀ (n : Nat) (j count : Int) out data nums written, (ev W Files.rdTest fuel 46).exec
      [(n!"b", .bench n), (n!"written", .int written), (n!"nums", .words nums), (n!"data", .bytes data), (n!"out", .words out), (n!"count", .int count), (n!"i", .int j), (n!"b", .bench N)]
      (nth (runBody (nth (loopBody (nth (bodyOf Files.rdTest n!"BenchmarkReadAllVarint") 0)) 7)) 2) =
      repeatN fuel n (ignore (call (getVarint data out))) >>= fun _ =>
        pure [(n!"b", .bench n), (n!"written", .int written), (n!"nums", .words nums), (n!"data", .bytes data), (n!"out", .words out), (n!"count", .int count), (n!"i", .int j), (n!"b", .bench N)] := by
    intro n j count out data nums written
    refine Eq.trans ?_ (forLoop_upto (fun i (_ : Unit) => [(n!"i", .int i), (n!"b", .bench n), (n!"written", .int written), (n!"nums", .words nums), (n!"data", .bytes data), (n!"out", .words out), (n!"count", .int count), (n!"i", .int j), (n!"b", .bench N)])
      (cond := fun env => (ev W Files.rdTest fuel 45).eval env (loopCond (nth (runBody (nth (loopBody (nth (bodyOf Files.rdTest n!"BenchmarkReadAllVarint") 0)) 7)) 2)))
      (post := fun env => (ev W Files.rdTest fuel 45).exec env (loopPost (nth (runBody (nth (loopBody (nth (bodyOf Files.rdTest n!"BenchmarkReadAllVarint") 0)) 7)) 2)))
      (body := fun env => (ev W Files.rdTest fuel 45).execs env (loopBody (nth (runBody (nth (loopBody (nth (bodyOf Files.rdTest n!"BenchmarkReadAllVarint") 0)) 7)) 2)))
      (old := [(n!"b", .bench n), (n!"written", .int written), (n!"nums", .words nums), (n!"data", .bytes data), (n!"out", .words out), (n!"count", .int count), (n!"i", .int j), (n!"b", .bench N)])
      (n := n) ?_ ?_ ?_ fuel 0 ())
    · kernel_rfl
    · intro i a; kernel_rfl
    · intro i a; kernel_rfl
    · intro i a; kernel_rfl
  have hr : ∀ (j count : Int) out data nums written, (ev W Files.rdTest fuel 50).exec
      [(n!"written", .int written), (n!"nums", .words nums), (n!"data", .bytes data), (n!"out", .words out), (n!"count", .int count), (n!"i", .int j), (n!"b", .bench N)]
      (nth (loopBody (nth (bodyOf Files.rdTest n!"BenchmarkReadAllVarint") 0)) 7) =
      bRun W (fun n _ => do
        setBytes (int64 (count * 4))
        repeatN fuel n (ignore (call (getVarint data out)))
        setSink n!"readSinkB" (.words out)) () >>= fun _ =>
        pure [(n!"written", .int written), (n!"nums", .words nums), (n!"data", .bytes data), (n!"out", .words out), (n!"count", .int count), (n!"i", .int j), (n!"b", .bench N)] := by
    intro j count out data nums written
    refine Eq.trans ?_ (runRounds_eq (fun (_ : Unit) => [(n!"written", .int written), (n!"nums", .words nums), (n!"data", .bytes data), (n!"out", .words out), (n!"count", .int count), (n!"i", .int j), (n!"b", .bench N)])
      (f := fun n env => do
        let env' ← (ev W Files.rdTest fuel 49).execs ((n!"b", .bench n) :: env) (runBody (nth (loopBody (nth (bodyOf Files.rdTest n!"BenchmarkReadAllVarint") 0)) 7))
        pure (env'.leave env)) ?_ ())
    · kernel_rfl
    · intro n _
      refine Eq.trans (b := do
        setBytes (int64 (count * 4))
        let env ← (ev W Files.rdTest fuel 46).exec
          [(n!"b", .bench n), (n!"written", .int written), (n!"nums", .words nums), (n!"data", .bytes data), (n!"out", .words out), (n!"count", .int count), (n!"i", .int j), (n!"b", .bench N)]
          (nth (runBody (nth (loopBody (nth (bodyOf Files.rdTest n!"BenchmarkReadAllVarint") 0)) 7)) 2)
        let env ← (ev W Files.rdTest fuel 46).execs env [nth (runBody (nth (loopBody (nth (bodyOf Files.rdTest n!"BenchmarkReadAllVarint") 0)) 7)) 3]
        pure (env.leave [(n!"written", .int written), (n!"nums", .words nums), (n!"data", .bytes data), (n!"out", .words out), (n!"count", .int count), (n!"i", .int j), (n!"b", .bench N)])) ?_ ?_
      · kernel_rfl
      · simp only [hl]
        kernel_rfl
  have ho : (ev W Files.rdTest fuel 59).exec [(n!"b", .bench N)] (nth (bodyOf Files.rdTest n!"BenchmarkReadAllVarint") 0) =
      (tens fuel fun count => do
        let out ← makeW count
        let data ← makeB (int64 (5 * count))
        let nums ← gen W count
        call (sortWords W nums)
        let written ← call (putVarint nums data)
        let data ← upto data written
        bRun W (fun n _ => do
        setBytes (int64 (count * 4))
        repeatN fuel n (ignore (call (getVarint data out)))
        setSink n!"readSinkB" (.words out)) ()) >>= fun _ => pure [(n!"b", .bench N)] := by
    refine Eq.trans ?_ (forLoop_upto (fun i (_ : Unit) => [(n!"i", .int i), (n!"b", .bench N)])
      (cond := fun env => (ev W Files.rdTest fuel 58).eval env (loopCond (nth (bodyOf Files.rdTest n!"BenchmarkReadAllVarint") 0)))
      (post := fun env => (ev W Files.rdTest fuel 58).exec env (loopPost (nth (bodyOf Files.rdTest n!"BenchmarkReadAllVarint") 0)))
      (body := fun env => (ev W Files.rdTest fuel 58).execs env (loopBody (nth (bodyOf Files.rdTest n!"BenchmarkReadAllVarint") 0)))
      (old := [(n!"b", .bench N)])
      (n := 8) ?_ ?_ ?_ fuel 0 ())
    · kernel_rfl
    · intro i a; kernel_rfl
    · intro j a
      refine Eq.trans (b := do
        let count ← pow10Int j
        let out ← makeW count
        let data ← makeB (int64 (5 * count))
        let nums ← gen W count
        call (sortWords W nums)
        let written ← call (putVarint nums data)
        let data ← upto data written
        let env ← (ev W Files.rdTest fuel 50).exec
          [(n!"written", .int written), (n!"nums", .words nums), (n!"data", .bytes data), (n!"out", .words out), (n!"count", .int count), (n!"i", .int j), (n!"b", .bench N)]
          (nth (loopBody (nth (bodyOf Files.rdTest n!"BenchmarkReadAllVarint") 0)) 7)
        (ev W Files.rdTest fuel 58).exec (env.leave [(n!"i", .int j), (n!"b", .bench N)]) (loopPost (nth (bodyOf Files.rdTest n!"BenchmarkReadAllVarint") 0))) ?_ ?_
      · kernel_rfl
      · simp only [hr]
        kernel_rfl
    · intro i a; kernel_rfl
  refine Eq.trans (b := M.go (do
    let _ ← (ev W Files.rdTest fuel 59).exec [(n!"b", .bench N)] (nth (bodyOf Files.rdTest n!"BenchmarkReadAllVarint") 0)
    pure ()) s) ?_ ?_
  · kernel_rfl
  · simp only [ho]
    kernel_rfl

theorem bReadDeltaVarint_text (W : World) (fuel N : Nat) (s : St) :
    bench W Files.rdTest fuel n!"BenchmarkReadAllDeltaVarint" N s = (bReadDeltaVarint W fuel).go s := by
  have hl : ∀ (n : Nat) (j count : Int) out data nums written, (ev W Files.rdTest fuel 46).exec
      [(n!"b", .bench n), (n!"written", .int written), (n!"nums", .words nums), (n!"data", .bytes data), (n!"out", .words out), (n!"count", .int count), (n!"i", .int j), (n!"b", .bench N)]
      (nth (runBody (nth (loopBody (nth (bodyOf Files.rdTest n!"BenchmarkReadAllDeltaVarint") 0)) 7)) 2) =
      repeatN fuel n (ignore (call (getDeltaVarint data out 0))) >>= fun _ =>
        pure [(n!"b", .bench n), (n!"written", .int written), (n!"nums", .words nums), (n!"data", .bytes data), (n!"out", .words out), (n!"count", .int count), (n!"i", .int j), (n!"b", .bench N)] := by
    intro n j count out data nums written
    refine Eq.trans ?_ (forLoop_upto (fun i (_ : Unit) => [(n!"i", .int i), (n!"b", .bench n), (n!"written", .int written), (n!"nums", .words nums), (n!"data", .bytes data), (n!"out", .words out), (n!"count", .int count), (n!"i", .int j), (n!"b", .bench N)])
      (cond := fun env => (ev W Files.rdTest fuel 45).eval env (loopCond (nth (runBody (nth (loopBody (nth (bodyOf Files.rdTest n!"BenchmarkReadAllDeltaVarint") 0)) 7)) 2)))
      (post := fun env => (ev W Files.rdTest fuel 45).exec env (loopPost (nth (runBody (nth (loopBody (nth (bodyOf Files.rdTest n!"BenchmarkReadAllDeltaVarint") 0)) 7)) 2)))
      (body := fun env => (ev W Files.rdTest fuel 45).execs env (loopBody (nth (runBody (nth (loopBody (nth (bodyOf Files.rdTest n!"BenchmarkReadAllDeltaVarint") 0)) 7)) 2)))
      (old := [(n!"b", .bench n), (n!"written", .int written), (n!"nums", .words nums), (n!"data", .bytes data), (n!"out", .words out), (n!"count", .int count), (n!"i", .int j), (n!"b", .bench N)])
      (n := n) ?_ ?_ ?_ fuel 0 ())
    · kernel_rfl
    · intro i a; kernel_rfl
    · intro i a; kernel_rfl
    · intro i a; kernel_rfl
  have hr : ∀ (j count : Int) out data nums written, (ev W Files.rdTest fuel 50).exec
      [(n!"written", .int written), (n!"nums", .words nums), (n!"data", .bytes data), (n!"out", .words out), (n!"count", .int count), (n!"i", .int j), (n!"b", .bench N)]
      (nth (loopBody (nth (bodyOf Files.rdTest n!"BenchmarkReadAllDeltaVarint") 0)) 7) =
      bRun W (fun n _ => do
        setBytes (int64 (count * 4))
        repeatN fuel n (ignore (call (getDeltaVarint data out 0)))
        setSink n!"readSinkB" (.words out)) () >>= fun _ =>
        pure [(n!"written", .int written), (n!"nums", .words nums), (n!"data", .bytes data), (n!"out", .words out), (n!"count", .int count), (n!"i", .int j), (n!"b", .bench N)] := by
    intro j count out data nums written
    refine Eq.trans ?_ (runRounds_eq (fun (_ : Unit) => [(n!"written", .int written), (n!"nums", .words nums), (n!"data", .bytes data), (n!"out", .words out), (n!"count", .int count), (n!"i", .int j), (n!"b", .bench N)])
      (f := fun n env => do
        let env' ← (ev W Files.rdTest fuel 49).execs ((n!"b", .bench n) :: env) (runBody (nth (loopBody (nth (bodyOf Files.rdTest n!"BenchmarkReadAllDeltaVarint") 0)) 7))
        pure (env'.leave env)) ?_ ())
    · kernel_rfl
    · intro n _
      refine Eq.trans (b := do
        setBytes (int64 (count * 4))
        let env ← (ev W Files.rdTest fuel 46).exec
          [(n!"b", .bench n), (n!"written", .int written), (n!"nums", .words nums), (n!"data", .bytes data), (n!"out", .words out), (n!"count", .int count), (n!"i", .int j), (n!"b", .bench N)]
          (nth (runBody (nth (loopBody (nth (bodyOf Files.rdTest n!"BenchmarkReadAllDeltaVarint") 0)) 7)) 2)
        let env ← (ev W Files.rdTest fuel 46).execs env [nth (runBody (nth (loopBody (nth (bodyOf Files.rdTest n!"BenchmarkReadAllDeltaVarint") 0)) 7)) 3]
        pure (env.leave [(n!"written", .int written), (n!"nums", .words nums), (n!"data", .bytes data), (n!"out", .words out), (n!"count", .int count), (n!"i", .int j), (n!"b", .bench N)])) ?_ ?_
      · kernel_rfl
      · simp only [hl]
        kernel_rfl
  have ho : (ev W Files.rdTest fuel 59).exec [(n!"b", .bench N)] (nth (bodyOf Files.rdTest n!"BenchmarkReadAllDeltaVarint") 0) =
      (tens fuel fun count => do
        let out ← makeW count
        let data ← makeB (int64 (5 * count))
        let nums ← gen W count
        call (sortWords W nums)
        let written ← call (putDeltaVarint nums data 0)
        let data ← upto data written
        bRun W (fun n _ => do
        setBytes (int64 (count * 4))
        repeatN fuel n (ignore (call (getDeltaVarint data out 0)))
        setSink n!"readSinkB" (.words out)) ()) >>= fun _ => pure [(n!"b", .bench N)] := by
    refine Eq.trans ?_ (forLoop_upto (fun i (_ : Unit) => [(n!"i", .int i), (n!"b", .bench N)])
      (cond := fun env => (ev W Files.rdTest fuel 58).eval env (loopCond (nth (bodyOf Files.rdTest n!"BenchmarkReadAllDeltaVarint") 0)))
      (post := fun env => (ev W Files.rdTest fuel 58).exec env (loopPost (nth (bodyOf Files.rdTest n!"BenchmarkReadAllDeltaVarint") 0)))
      (body := fun env => (ev W Files.rdTest fuel 58).execs env (loopBody (nth (bodyOf Files.rdTest n!"BenchmarkReadAllDeltaVarint") 0)))
      (old := [(n!"b", .bench N)])
      (n := 8) ?_ ?_ ?_ fuel 0 ())
    · kernel_rfl
    · intro i a; kernel_rfl
    · intro j a
      refine Eq.trans (b := do
        let count ← pow10Int j
        let out ← makeW count
        let data ← makeB (int64 (5 * count))
        let nums ← gen W count
        call (sortWords W nums)
        let written ← call (putDeltaVarint nums data 0)
        let data ← upto data written
        let env ← (ev W Files.rdTest fuel 50).exec
          [(n!"written", .int written), (n!"nums", .words nums), (n!"data", .bytes data), (n!"out", .words out), (n!"count", .int count), (n!"i", .int j), (n!"b", .bench N)]
          (nth (loopBody (nth (bodyOf Files.rdTest n!"BenchmarkReadAllDeltaVarint") 0)) 7)
        (ev W Files.rdTest fuel 58).exec (env.leave [(n!"i", .int j), (n!"b", .bench N)]) (loopPost (nth (bodyOf Files.rdTest n!"BenchmarkReadAllDeltaVarint") 0))) ?_ ?_
      · kernel_rfl
      · simp only [hr]
        kernel_rfl
    · intro i a; kernel_rfl
  refine Eq.trans (b := M.go (do
    let _ ← (ev W Files.rdTest fuel 59).exec [(n!"b", .bench N)] (nth (bodyOf Files.rdTest n!"BenchmarkReadAllDeltaVarint") 0)
    pure ()) s) ?_ ?_
  · kernel_rfl
  · simp only [ho]
    kernel_rfl

/-! ## `/repo/pkg/stream/writer/writer_test.go` -/

theorem bWriteAllFast_text (W : World) (fuel N : Nat) (s : St) :
    bench W Files.wrTest fuel n!"BenchmarkWriteAllFast" N s = (bWriteAllFast W fuel).go s := by
  have hl : ∀ (n : Nat) (j count : Int) nums, (ev W Files.wrTest fuel 49).exec
      [(n!"stream", .nil), (n!"b", .bench n), (n!"nums", .words nums), (n!"count", .int count), (n!"i", .int j), (n!"b", .bench N)]
      (nth (runBody (nth (loopBody (nth (bodyOf Files.wrTest n!"BenchmarkWriteAllFast") 1)) 2)) 3) =
      repeatSet fuel n (ofBytes (alloc fun b => onAmd64 W.cpu (SVB.writeAllFast b nums))) .nil >>= fun a =>
        pure [(n!"stream", a), (n!"b", .bench n), (n!"nums", .words nums), (n!"count", .int count), (n!"i", .int j), (n!"b", .bench N)] := by
    intro n j count nums
    refine Eq.trans ?_ (forLoop_upto (fun i (a : Val) => [(n!"i", .int i), (n!"stream", a), (n!"b", .bench n), (n!"nums", .words nums), (n!"count", .int count), (n!"i", .int j), (n!"b", .bench N)])
      (cond := fun env => (ev W Files.wrTest fuel 48).eval env (loopCond (nth (runBody (nth (loopBody (nth (bodyOf Files.wrTest n!"BenchmarkWriteAllFast") 1)) 2)) 3)))
      (post := fun env => (ev W Files.wrTest fuel 48).exec env (loopPost (nth (runBody (nth (loopBody (nth (bodyOf Files.wrTest n!"BenchmarkWriteAllFast") 1)) 2)) 3)))
      (body := fun env => (ev W Files.wrTest fuel 48).execs env (loopBody (nth (runBody (nth (loopBody (nth (bodyOf Files.wrTest n!"BenchmarkWriteAllFast") 1)) 2)) 3)))
      (old := [(n!"stream", .nil), (n!"b", .bench n), (n!"nums", .words nums), (n!"count", .int count), (n!"i", .int j), (n!"b", .bench N)])
      (n := n) ?_ ?_ ?_ fuel 0 .nil)
    · kernel_rfl
    · intro i a; kernel_rfl
    · intro i a; kernel_rfl
    · intro i a; kernel_rfl
  have hr : ∀ (j count : Int) nums, (ev W Files.wrTest fuel 54).exec
      [(n!"nums", .words nums), (n!"count", .int count), (n!"i", .int j), (n!"b", .bench N)]
      (nth (loopBody (nth (bodyOf Files.wrTest n!"BenchmarkWriteAllFast") 1)) 2) =
      bRun W (fun n _ => do
        setBytes (int64 (count * 4))
        let a ← repeatSet fuel n (ofBytes (alloc fun b => onAmd64 W.cpu (SVB.writeAllFast b nums))) .nil
        setSink n!"readSinkA" a.settle) () >>= fun _ =>
        pure [(n!"nums", .words nums), (n!"count", .int count), (n!"i", .int j), (n!"b", .bench N)] := by
    intro j count nums
    refine Eq.trans ?_ (runRounds_eq (fun (_ : Unit) => [(n!"nums", .words nums), (n!"count", .int count), (n!"i", .int j), (n!"b", .bench N)])
      (f := fun n env => do
        let env' ← (ev W Files.wrTest fuel 53).execs ((n!"b", .bench n) :: env) (runBody (nth (loopBody (nth (bodyOf Files.wrTest n!"BenchmarkWriteAllFast") 1)) 2))
        pure (env'.leave env)) ?_ ())
    · kernel_rfl
    · intro n _
      refine Eq.trans (b := do
        setBytes (int64 (count * 4))
        let env ← (ev W Files.wrTest fuel 49).exec
          [(n!"stream", .nil), (n!"b", .bench n), (n!"nums", .words nums), (n!"count", .int count), (n!"i", .int j), (n!"b", .bench N)]
          (nth (runBody (nth (loopBody (nth (bodyOf Files.wrTest n!"BenchmarkWriteAllFast") 1)) 2)) 3)
        let env ← (ev W Files.wrTest fuel 49).execs env [nth (runBody (nth (loopBody (nth (bodyOf Files.wrTest n!"BenchmarkWriteAllFast") 1)) 2)) 4]
        pure (env.leave [(n!"nums", .words nums), (n!"count", .int count), (n!"i", .int j), (n!"b", .bench N)])) ?_ ?_
      · kernel_rfl
      · simp only [hl]
        kernel_rfl
  have ho : (ev W Files.wrTest fuel 58).exec [(n!"b", .bench N)] (nth (bodyOf Files.wrTest n!"BenchmarkWriteAllFast") 1) =
      (tens fuel fun count => do
        let nums ← gen W count
        bRun W (fun n _ => do
        setBytes (int64 (count * 4))
        let a ← repeatSet fuel n (ofBytes (alloc fun b => onAmd64 W.cpu (SVB.writeAllFast b nums))) .nil
        setSink n!"readSinkA" a.settle) ()) >>= fun _ => pure [(n!"b", .bench N)] := by
    refine Eq.trans ?_ (forLoop_upto (fun i (_ : Unit) => [(n!"i", .int i), (n!"b", .bench N)])
      (cond := fun env => (ev W Files.wrTest fuel 57).eval env (loopCond (nth (bodyOf Files.wrTest n!"BenchmarkWriteAllFast") 1)))
      (post := fun env => (ev W Files.wrTest fuel 57).exec env (loopPost (nth (bodyOf Files.wrTest n!"BenchmarkWriteAllFast") 1)))
      (body := fun env => (ev W Files.wrTest fuel 57).execs env (loopBody (nth (bodyOf Files.wrTest n!"BenchmarkWriteAllFast") 1)))
      (old := [(n!"b", .bench N)])
      (n := 8) ?_ ?_ ?_ fuel 0 ())
    · kernel_rfl
    · intro i a; kernel_rfl
    · intro j a
      refine Eq.trans (b := do
        let count ← pow10Int j
        let nums ← gen W count
        let env ← (ev W Files.wrTest fuel 54).exec
          [(n!"nums", .words nums), (n!"count", .int count), (n!"i", .int j), (n!"b", .bench N)]
          (nth (loopBody (nth (bodyOf Files.wrTest n!"BenchmarkWriteAllFast") 1)) 2)
        (ev W Files.wrTest fuel 57).exec (env.leave [(n!"i", .int j), (n!"b", .bench N)]) (loopPost (nth (bodyOf Files.wrTest n!"BenchmarkWriteAllFast") 1))) ?_ ?_
      · kernel_rfl
      · simp only [hr]
        kernel_rfl
    · intro i a; kernel_rfl
  refine Eq.trans (b := M.go (do
    skipIf (decide (encodeMode W.cpu = .normal))
    let _ ← (ev W Files.wrTest fuel 58).exec [(n!"b", .bench N)] (nth (bodyOf Files.wrTest n!"BenchmarkWriteAllFast") 1)
    pure ()) s) ?_ ?_
  · kernel_rfl
  · simp only [ho]
    kernel_rfl

theorem bWriteAllDeltaFast_text (W : World) (fuel N : Nat) (s : St) :
    bench W Files.wrTest fuel n!"BenchmarkWriteAllDeltaFast" N s = (bWriteAllDeltaFast W fuel).go s := by
  have hl : ∀ (n : Nat) (j count : Int) nums, (ev W Files.wrTest fuel 48).exec
      [(n!"stream", .nil), (n!"b", .bench n), (n!"nums", .words nums), (n!"count", .int count), (n!"i", .int j), (n!"b", .bench N)]
      (nth (runBody (nth (loopBody (nth (bodyOf Files.wrTest n!"BenchmarkWriteAllDeltaFast") 1)) 3)) 3) =
      repeatSet fuel n (ofBytes (alloc fun b => onAmd64 W.cpu (SVB.writeAllDeltaFast b nums 0))) .nil >>= fun a =>
        pure [(n!"stream", a), (n!"b", .bench n), (n!"nums", .words nums), (n!"count", .int count), (n!"i", .int j), (n!"b", .bench N)] := by
    intro n j count nums
    refine Eq.trans ?_ (forLoop_upto (fun i (a : Val) => [(n!"i", .int i), (n!"stream", a), (n!"b", .bench n), (n!"nums", .words nums), (n!"count", .int count), (n!"i", .int j), (n!"b", .bench N)])
      (cond := fun env => (ev W Files.wrTest fuel 47).eval env (loopCond (nth (runBody (nth (loopBody (nth (bodyOf Files.wrTest n!"BenchmarkWriteAllDeltaFast") 1)) 3)) 3)))
      (post := fun env => (ev W Files.wrTest fuel 47).exec env (loopPost (nth (runBody (nth (loopBody (nth (bodyOf Files.wrTest n!"BenchmarkWriteAllDeltaFast") 1)) 3)) 3)))
      (body := fun env => (ev W Files.wrTest fuel 47).execs env (loopBody (nth (runBody (nth (loopBody (nth (bodyOf Files.wrTest n!"BenchmarkWriteAllDeltaFast") 1)) 3)) 3)))
      (old := [(n!"stream", .nil), (n!"b", .bench n), (n!"nums", .words nums), (n!"count", .int count), (n!"i", .int j), (n!"b", .bench N)])
      (n := n) ?_ ?_ ?_ fuel 0 .nil)
    · kernel_rfl
    · intro i a; kernel_rfl
    · intro i a; kernel_rfl
    · intro i a; kernel_rfl
  have hr : ∀ (j count : Int) nums, (ev W Files.wrTest fuel 53).exec
      [(n!"nums", .words nums), (n!"count", .int count), (n!"i", .int j), (n!"b", .bench N)]
      (nth (loopBody (nth (bodyOf Files.wrTest n!"BenchmarkWriteAllDeltaFast") 1)) 3) =
      bRun W (fun n _ => do
        setBytes (int64 (count * 4))
        let a ← repeatSet fuel n (ofBytes (alloc fun b => onAmd64 W.cpu (SVB.writeAllDeltaFast b nums 0))) .nil
        setSink n!"readSinkB" a.settle) () >>= fun _ =>
        pure [(n!"nums", .words nums), (n!"count", .int count), (n!"i", .int j), (n!"b", .bench N)] := by
    intro j count nums
    refine Eq.trans ?_ (runRounds_eq (fun (_ : Unit) => [(n!"nums", .words nums), (n!"count", .int count), (n!"i", .int j), (n!"b", .bench N)])
      (f := fun n env => do
        let env' ← (ev W Files.wrTest fuel 52).execs ((n!"b", .bench n) :: env) (runBody (nth (loopBody (nth (bodyOf Files.wrTest n!"BenchmarkWriteAllDeltaFast") 1)) 3))
        pure (env'.leave env)) ?_ ())
    · kernel_rfl
    · intro n _
      refine Eq.trans (b := do
        setBytes (int64 (count * 4))
        let env ← (ev W Files.wrTest fuel 48).exec
          [(n!"stream", .nil), (n!"b", .bench n), (n!"nums", .words nums), (n!"count", .int count), (n!"i", .int j), (n!"b", .bench N)]
          (nth (runBody (nth (loopBody (nth (bodyOf Files.wrTest n!"BenchmarkWriteAllDeltaFast") 1)) 3)) 3)
        let env ← (ev W Files.wrTest fuel 48).execs env [nth (runBody (nth (loopBody (nth (bodyOf Files.wrTest n!"BenchmarkWriteAllDeltaFast") 1)) 3)) 4]
        pure (env.leave [(n!"nums", .words nums), (n!"count", .int count), (n!"i", .int j), (n!"b", .bench N)])) ?_ ?_
      · kernel_rfl
      · simp only [hl]
        kernel_rfl
  have ho : (ev W Files.wrTest fuel 58).exec [(n!"b", .bench N)] (nth (bodyOf Files.wrTest n!"BenchmarkWriteAllDeltaFast") 1) =
      (tens fuel fun count => do
        let nums ← gen W count
        call (sortWords W nums)
        bRun W (fun n _ => do
        setBytes (int64 (count * 4))
        let a ← repeatSet fuel n (ofBytes (alloc fun b => onAmd64 W.cpu (SVB.writeAllDeltaFast b nums 0))) .nil
        setSink n!"readSinkB" a.settle) ()) >>= fun _ => pure [(n!"b", .bench N)] := by
    refine Eq.trans ?_ (forLoop_upto (fun i (_ : Unit) => [(n!"i", .int i), (n!"b", .bench N)])
      (cond := fun env => (ev W Files.wrTest fuel 57).eval env (loopCond (nth (bodyOf Files.wrTest n!"BenchmarkWriteAllDeltaFast") 1)))
      (post := fun env => (ev W Files.wrTest fuel 57).exec env (loopPost (nth (bodyOf Files.wrTest n!"BenchmarkWriteAllDeltaFast") 1)))
      (body := fun env => (ev W Files.wrTest fuel 57).execs env (loopBody (nth (bodyOf Files.wrTest n!"BenchmarkWriteAllDeltaFast") 1)))
      (old := [(n!"b", .bench N)])
      (n := 8) ?_ ?_ ?_ fuel 0 ())
    · kernel_rfl
    · intro i a; kernel_rfl
    · intro j a
      refine Eq.trans (b := do
        let count ← pow10Int j
        let nums ← gen W count
        call (sortWords W nums)
        let env ← (ev W Files.wrTest fuel 53).exec
          [(n!"nums", .words nums), (n!"count", .int count), (n!"i", .int j), (n!"b", .bench N)]
          (nth (loopBody (nth (bodyOf Files.wrTest n!"BenchmarkWriteAllDeltaFast") 1)) 3)
        (ev W Files.wrTest fuel 57).exec (env.leave [(n!"i", .int j), (n!"b", .bench N)]) (loopPost (nth (bodyOf Files.wrTest n!"BenchmarkWriteAllDeltaFast") 1))) ?_ ?_
      · kernel_rfl
      · simp only [hr]
        kernel_rfl
    · intro i a; kernel_rfl
  refine Eq.trans (b := M.go (do
    skipIf (decide (encodeMode W.cpu = .normal))
    let _ ← (ev W Files.wrTest fuel 58).exec [(n!"b", .bench N)] (nth (bodyOf Files.wrTest n!"BenchmarkWriteAllDeltaFast") 1)
    pure ()) s) ?_ ?_
  · kernel_rfl
  · simp only [ho]
    kernel_rfl

theorem bWriteAllScalar_text (W : World) (fuel N : Nat) (s : St) :
    bench W Files.wrTest fuel n!"BenchmarkWriteAllScalar" N s = (bWriteAllScalar W fuel).go s := by
  have hl : ∀ (n : Nat) (j count : Int) nums, (ev W Files.wrTest fuel 49).exec
      [(n!"stream", .nil), (n!"b", .bench n), (n!"nums", .words nums), (n!"count", .int count), (n!"i", .int j), (n!"b", .bench N)]
      (nth (runBody (nth (loopBody (nth (bodyOf Files.wrTest n!"BenchmarkWriteAllScalar") 0)) 3)) 3) =
      repeatSet fuel n (ofBytes (alloc fun b => SVB.writeAllScalar b nums)) .nil >>= fun a =>
        pure [(n!"stream", a), (n!"b", .bench n), (n!"nums", .words nums), (n!"count", .int count), (n!"i", .int j), (n!"b", .bench N)] := by
    intro n j count nums
    refine Eq.trans ?_ (forLoop_upto (fun i (a : Val) => [(n!"i", .int i), (n!"stream", a), (n!"b", .bench n), (n!"nums", .words nums), (n!"count", .int count), (n!"i", .int j), (n!"b", .bench N)])
      (cond := fun env => (ev W Files.wrTest fuel 48).eval env (loopCond (nth (runBody (nth (loopBody (nth (bodyOf Files.wrTest n!"BenchmarkWriteAllScalar") 0)) 3)) 3)))
      (post := fun env => (ev W Files.wrTest fuel 48).exec env (loopPost (nth (runBody (nth (loopBody (nth (bodyOf Files.wrTest n!"BenchmarkWriteAllScalar") 0)) 3)) 3)))
      (body := fun env => (ev W Files.wrTest fuel 48).execs env (loopBody (nth (runBody (nth (loopBody (nth (bodyOf Files.wrTest n!"BenchmarkWriteAllScalar") 0)) 3)) 3)))
      (old := [(n!"stream", .nil), (n!"b", .bench n), (n!"nums", .words nums), (n!"count", .int count), (n!"i", .int j), (n!"b", .bench N)])
      (n := n) ?_ ?_ ?_ fuel 0 .nil)
    · kernel_rfl
    · intro i a; kernel_rfl
    · intro i a; kernel_rfl
    · intro i a; kernel_rfl
  have hr : ∀ (j count : Int) nums, (ev W Files.wrTest fuel 54).exec
      [(n!"nums", .words nums), (n!"count", .int count), (n!"i", .int j), (n!"b", .bench N)]
      (nth (loopBody (nth (bodyOf Files.wrTest n!"BenchmarkWriteAllScalar") 0)) 3) =
      bRun W (fun n _ => do
        setBytes (int64 (count * 4))
        let a ← repeatSet fuel n (ofBytes (alloc fun b => SVB.writeAllScalar b nums)) .nil
        setSink n!"readSinkC" a.settle) () >>= fun _ =>
        pure [(n!"nums", .words nums), (n!"count", .int count), (n!"i", .int j), (n!"b", .bench N)] := by
    intro j count nums
    refine Eq.trans ?_ (runRounds_eq (fun (_ : Unit) => [(n!"nums", .words nums), (n!"count", .int count), (n!"i", .int j), (n!"b", .bench N)])
      (f := fun n env => do
        let env' ← (ev W Files.wrTest fuel 53).execs ((n!"b", .bench n) :: env) (runBody (nth (loopBody (nth (bodyOf Files.wrTest n!"BenchmarkWriteAllScalar") 0)) 3))
        pure (env'.leave env)) ?_ ())
    · kernel_rfl
    · intro n _
      refine Eq.trans (b := do
        setBytes (int64 (count * 4))
        let env ← (ev W Files.wrTest fuel 49).exec
          [(n!"stream", .nil), (n!"b", .bench n), (n!"nums", .words nums), (n!"count", .int count), (n!"i", .int j), (n!"b", .bench N)]
          (nth (runBody (nth (loopBody (nth (bodyOf Files.wrTest n!"BenchmarkWriteAllScalar") 0)) 3)) 3)
        let env ← (ev W Files.wrTest fuel 49).execs env [nth (runBody (nth (loopBody (nth (bodyOf Files.wrTest n!"BenchmarkWriteAllScalar") 0)) 3)) 4]
        pure (env.leave [(n!"nums", .words nums), (n!"count", .int count), (n!"i", .int j), (n!"b", .bench N)])) ?_ ?_
      · kernel_rfl
      · simp only [hl]
        kernel_rfl
  have ho : (ev W Files.wrTest fuel 59).exec [(n!"b", .bench N)] (nth (bodyOf Files.wrTest n!"BenchmarkWriteAllScalar") 0) =
      (tens fuel fun count => do
        let nums ← gen W count
        call (sortWords W nums)
        bRun W (fun n _ => do
        setBytes (int64 (count * 4))
        let a ← repeatSet fuel n (ofBytes (alloc fun b => SVB.writeAllScalar b nums)) .nil
        setSink n!"readSinkC" a.settle) ()) >>= fun _ => pure [(n!"b", .bench N)] := by
    refine Eq.trans ?_ (forLoop_upto (fun i (_ : Unit) => [(n!"i", .int i), (n!"b", .bench N)])
      (cond := fun env => (ev W Files.wrTest fuel 58).eval env (loopCond (nth (bodyOf Files.wrTest n!"BenchmarkWriteAllScalar") 0)))
      (post := fun env => (ev W Files.wrTest fuel 58).exec env (loopPost (nth (bodyOf Files.wrTest n!"BenchmarkWriteAllScalar") 0)))
      (body := fun env => (ev W Files.wrTest fuel 58).execs env (loopBody (nth (bodyOf Files.wrTest n!"BenchmarkWriteAllScalar") 0)))
      (old := [(n!"b", .bench N)])
      (n := 8) ?_ ?_ ?_ fuel 0 ())
    · kernel_rfl
    · intro i a; kernel_rfl
    · intro j a
      refine Eq.trans (b := do
        let count ← pow10Int j
        let nums ← gen W count
        call (sortWords W nums)
        let env ← (ev W Files.wrTest fuel 54).exec
          [(n!"nums", .words nums), (n!"count", .int count), (n!"i", .int j), (n!"b", .bench N)]
          (nth (loopBody (nth (bodyOf Files.wrTest n!"BenchmarkWriteAllScalar") 0)) 3)
        (ev W Files.wrTest fuel 58).exec (env.leave [(n!"i", .int j), (n!"b", .bench N)]) (loopPost (nth (bodyOf Files.wrTest n!"BenchmarkWriteAllScalar") 0))) ?_ ?_
      · kernel_rfl
      · simp only [hr]
        kernel_rfl
    · intro i a; kernel_rfl
  refine Eq.trans (b := M.go (do
    let _ ← (ev W Files.wrTest fuel 59).exec [(n!"b", .bench N)] (nth (bodyOf Files.wrTest n!"BenchmarkWriteAllScalar") 0)
    pure ()) s) ?_ ?_
  · kernel_rfl
  · simp only [ho]
    kernel_rfl

theorem bWriteAllDeltaScalar_text (W : World) (fuel N : Nat) (s : St) :
    bench W Files.wrTest fuel n!"BenchmarkWriteAllDeltaScalar" N s = (bWriteAllDeltaScalar W fuel).go s := by
  have hl : ∀ (n : Nat) (j count : Int) nums, (ev W Files.wrTest fuel 49).exec
      [(n!"stream", .nil), (n!"b", .bench n), (n!"nums", .words nums), (n!"count", .int count), (n!"i", .int j), (n!"b", .bench N)]
      (nth (runBody (nth (loopBody (nth (bodyOf Files.wrTest n!"BenchmarkWriteAllDeltaScalar") 0)) 3)) 3) =
      repeatSet fuel n (ofBytes (alloc fun b => SVB.writeAllDeltaScalar b nums 0)) .nil >>= fun a =>
        pure [(n!"stream", a), (n!"b", .bench n), (n!"nums", .words nums), (n!"count", .int count), (n!"i", .int j), (n!"b", .bench N)] := by
    intro n j count nums
    refine Eq.trans ?_ (forLoop_upto (fun i (a : Val) => [(n!"i", .int i), (n!"stream", a), (n!"b", .bench n), (n!"nums", .words nums), (n!"count", .int count), (n!"i", .int j), (n!"b", .bench N)])
      (cond := fun env => (ev W Files.wrTest fuel 48).eval env (loopCond (nth (runBody (nth (loopBody (nth (bodyOf Files.wrTest n!"BenchmarkWriteAllDeltaScalar") 0)) 3)) 3)))
      (post := fun env => (ev W Files.wrTest fuel 48).exec env (loopPost (nth (runBody (nth (loopBody (nth (bodyOf Files.wrTest n!"BenchmarkWriteAllDeltaScalar") 0)) 3)) 3)))
      (body := fun env => (ev W Files.wrTest fuel 48).execs env (loopBody (nth (runBody (nth (loopBody (nth (bodyOf Files.wrTest n!"BenchmarkWriteAllDeltaScalar") 0)) 3)) 3)))
      (old := [(n!"stream", .nil), (n!"b", .bench n), (n!"nums", .words nums), (n!"count", .int count), (n!"i", .int j), (n!"b", .bench N)])
      (n := n) ?_ ?_ ?_ fuel 0 .nil)
    · kernel_rfl
    · intro i a; kernel_rfl
    · intro i a; kernel_rfl
    · intro i a; kernel_rfl
  have hr : ∀ (j count : Int) nums, (ev W Files.wrTest fuel 54).exec
      [(n!"nums", .words nums), (n!"count", .int count), (n!"i", .int j), (n!"b", .bench N)]
      (nth (loopBody (nth (bodyOf Files.wrTest n!"BenchmarkWriteAllDeltaScalar") 0)) 3) =
      bRun W (fun n _ => do
        setBytes (int64 (count * 4))
        let a ← repeatSet fuel n (ofBytes (alloc fun b => SVB.writeAllDeltaScalar b nums 0)) .nil
        setSink n!"readSinkD" a.settle) () >>= fun _ =>
        pure [(n!"nums", .words nums), (n!"count", .int count), (n!"i", .int j), (n!"b", .bench N)] := by
    intro j count nums
    refine Eq.trans ?_ (runRounds_eq (fun (_ : Unit) => [(n!"nums", .words nums), (n!"count", .int count), (n!"i", .int j), (n!"b", .bench N)])
      (f := fun n env => do
        let env' ← (ev W Files.wrTest fuel 53).execs ((n!"b", .bench n) :: env) (runBody (nth (loopBody (nth (bodyOf Files.wrTest n!"BenchmarkWriteAllDeltaScalar") 0)) 3))
        pure (env'.leave env)) ?_ ())
    · kernel_rfl
    · intro n _
      refine Eq.trans (b := do
        setBytes (int64 (count * 4))
        let env ← (ev W Files.wrTest fuel 49).exec
          [(n!"stream", .nil), (n!"b", .bench n), (n!"nums", .words nums), (n!"count", .int count), (n!"i", .int j), (n!"b", .bench N)]
          (nth (runBody (nth (loopBody (nth (bodyOf Files.wrTest n!"BenchmarkWriteAllDeltaScalar") 0)) 3)) 3)
        let env ← (ev W Files.wrTest fuel 49).execs env [nth (runBody (nth (loopBody (nth (bodyOf Files.wrTest n!"BenchmarkWriteAllDeltaScalar") 0)) 3)) 4]
        pure (env.leave [(n!"nums", .words nums), (n!"count", .int count), (n!"i", .int j), (n!"b", .bench N)])) ?_ ?_
      · kernel_rfl
      · simp only [hl]
        kernel_rfl
  have ho : (ev W Files.wrTest fuel 59).exec [(n!"b", .bench N)] (nth (bodyOf Files.wrTest n!"BenchmarkWriteAllDeltaScalar") 0) =
      (tens fuel fun count => do
        let nums ← gen W count
        call (sortWords W nums)
        bRun W (fun n _ => do
        setBytes (int64 (count * 4))
        let a ← repeatSet fuel n (ofBytes (alloc fun b => SVB.writeAllDeltaScalar b nums 0)) .nil
        setSink n!"readSinkD" a.settle) ()) >>= fun _ => pure [(n!"b", .bench N)] := by
    refine Eq.trans ?_ (forLoop_upto (fun i (_ : Unit) => [(n!"i", .int i), (n!"b", .bench N)])
      (cond := fun env => (ev W Files.wrTest fuel 58).eval env (loopCond (nth (bodyOf Files.wrTest n!"BenchmarkWriteAllDeltaScalar") 0)))
      (post := fun env => (ev W Files.wrTest fuel 58).exec env (loopPost (nth (bodyOf Files.wrTest n!"BenchmarkWriteAllDeltaScalar") 0)))
      (body := fun env => (ev W Files.wrTest fuel 58).execs env (loopBody (nth (bodyOf Files.wrTest n!"BenchmarkWriteAllDeltaScalar") 0)))
      (old := [(n!"b", .bench N)])
      (n := 8) ?_ ?_ ?_ fuel 0 ())
    · kernel_rfl
    · intro i a; kernel_rfl
    · intro j a
      refine Eq.trans (b := do
        let count ← pow10Int j
        let nums ← gen W count
        call (sortWords W nums)
        let env ← (ev W Files.wrTest fuel 54).exec
          [(n!"nums", .words nums), (n!"count", .int count), (n!"i", .int j), (n!"b", .bench N)]
          (nth (loopBody (nth (bodyOf Files.wrTest n!"BenchmarkWriteAllDeltaScalar") 0)) 3)
        (ev W Files.wrTest fuel 58).exec (env.leave [(n!"i", .int j), (n!"b", .bench N)]) (loopPost (nth (bodyOf Files.wrTest n!"BenchmarkWriteAllDeltaScalar") 0))) ?_ ?_
      · kernel_rfl
      · simp only [hr]
        kernel_rfl
    · intro i a; kernel_rfl
  refine Eq.trans (b := M.go (do
    let _ ← (ev W Files.wrTest fuel 59).exec [(n!"b", .bench N)] (nth (bodyOf Files.wrTest n!"BenchmarkWriteAllDeltaScalar") 0)
    pure ()) s) ?_ ?_
  · kernel_rfl
  · simp only [ho]
    kernel_rfl

theorem bWriteVarint_text (W : World) (fuel N : Nat) (s : St) :
    bench W Files.wrTest fuel n!"BenchmarkWriteAllVarint" N s = (bWriteVarint W fuel).go s := by
  have hl : ∀ (n : Nat) (j count : Int) nums out w, (ev W Files.wrTest fuel 48).exec
      [(n!"b", .bench n), (n!"written", .int w), (n!"out", .bytes out), (n!"nums", .words nums), (n!"count", .int count), (n!"i", .int j), (n!"b", .bench N)]
      (nth (runBody (nth (loopBody (nth (bodyOf Files.wrTest n!"BenchmarkWriteAllVarint") 0)) 5)) 2) =
      repeatSet fuel n (call (putVarint nums out)) w >>= fun a =>
        pure [(n!"b", .bench n), (n!"written", .int a), (n!"out", .bytes out), (n!"nums", .words nums), (n!"count", .int count), (n!"i", .int j), (n!"b", .bench N)] := by
    intro n j count nums out w
    refine Eq.trans ?_ (forLoop_upto (fun i (a : Int) => [(n!"i", .int i), (n!"b", .bench n), (n!"written", .int a), (n!"out", .bytes out), (n!"nums", .words nums), (n!"count", .int count), (n!"i", .int j), (n!"b", .bench N)])
      (cond := fun env => (ev W Files.wrTest fuel 47).eval env (loopCond (nth (runBody (nth (loopBody (nth (bodyOf Files.wrTest n!"BenchmarkWriteAllVarint") 0)) 5)) 2)))
      (post := fun env => (ev W Files.wrTest fuel 47).exec env (loopPost (nth (runBody (nth (loopBody (nth (bodyOf Files.wrTest n!"BenchmarkWriteAllVarint") 0)) 5)) 2)))
      (body := fun env => (ev W Files.wrTest fuel 47).execs env (loopBody (nth (runBody (nth (loopBody (nth (bodyOf Files.wrTest n!"BenchmarkWriteAllVarint") 0)) 5)) 2)))
      (old := [(n!"b", .bench n), (n!"written", .int w), (n!"out", .bytes out), (n!"nums", .words nums), (n!"count", .int count), (n!"i", .int j), (n!"b", .bench N)])
      (n := n) ?_ ?_ ?_ fuel 0 w)
    · kernel_rfl
    · intro i a; kernel_rfl
    · intro i a; kernel_rfl
    · intro i a; kernel_rfl
  have hr : ∀ (j count : Int) nums out w, (ev W Files.wrTest fuel 52).exec
      [(n!"written", .int w), (n!"out", .bytes out), (n!"nums", .words nums), (n!"count", .int count), (n!"i", .int j), (n!"b", .bench N)]
      (nth (loopBody (nth (bodyOf Files.wrTest n!"BenchmarkWriteAllVarint") 0)) 5) =
      bRun W (fun n w => do
        setBytes (int64 (count * 4))
        let a ← repeatSet fuel n (call (putVarint nums out)) w
        setSink n!"readSinkE" (.int a)
        pure a) w >>= fun a =>
        pure [(n!"written", .int a), (n!"out", .bytes out), (n!"nums", .words nums), (n!"count", .int count), (n!"i", .int j), (n!"b", .bench N)] := by
    intro j count nums out w
    refine Eq.trans ?_ (runRounds_eq (fun (a : Int) => [(n!"written", .int a), (n!"out", .bytes out), (n!"nums", .words nums), (n!"count", .int count), (n!"i", .int j), (n!"b", .bench N)])
      (f := fun n env => do
        let env' ← (ev W Files.wrTest fuel 51).execs ((n!"b", .bench n) :: env) (runBody (nth (loopBody (nth (bodyOf Files.wrTest n!"BenchmarkWriteAllVarint") 0)) 5))
        pure (env'.leave env)) ?_ w)
    · kernel_rfl
    · intro n w
      refine Eq.trans (b := do
        setBytes (int64 (count * 4))
        let env ← (ev W Files.wrTest fuel 48).exec
          [(n!"b", .bench n), (n!"written", .int w), (n!"out", .bytes out), (n!"nums", .words nums), (n!"count", .int count), (n!"i", .int j), (n!"b", .bench N)]
          (nth (runBody (nth (loopBody (nth (bodyOf Files.wrTest n!"BenchmarkWriteAllVarint") 0)) 5)) 2)
        let env ← (ev W Files.wrTest fuel 48).execs env [nth (runBody (nth (loopBody (nth (bodyOf Files.wrTest n!"BenchmarkWriteAllVarint") 0)) 5)) 3]
        pure (env.leave [(n!"written", .int w), (n!"out", .bytes out), (n!"nums", .words nums), (n!"count", .int count), (n!"i", .int j), (n!"b", .bench N)])) ?_ ?_
      · kernel_rfl
      · simp only [hl]
        kernel_rfl
  have ho : (ev W Files.wrTest fuel 59).exec [(n!"b", .bench N)] (nth (bodyOf Files.wrTest n!"BenchmarkWriteAllVarint") 0) =
      (tens fuel fun count => do
        let nums ← gen W count
        call (sortWords W nums)
        let out ← makeB (int64 (count * 5))
        ignore (bRun W (fun n w => do
        setBytes (int64 (count * 4))
        let a ← repeatSet fuel n (call (putVarint nums out)) w
        setSink n!"readSinkE" (.int a)
        pure a) 0)) >>= fun _ => pure [(n!"b", .bench N)] := by
    refine Eq.trans ?_ (forLoop_upto (fun i (_ : Unit) => [(n!"i", .int i), (n!"b", .bench N)])
      (cond := fun env => (ev W Files.wrTest fuel 58).eval env (loopCond (nth (bodyOf Files.wrTest n!"BenchmarkWriteAllVarint") 0)))
      (post := fun env => (ev W Files.wrTest fuel 58).exec env (loopPost (nth (bodyOf Files.wrTest n!"BenchmarkWriteAllVarint") 0)))
      (body := fun env => (ev W Files.wrTest fuel 58).execs env (loopBody (nth (bodyOf Files.wrTest n!"BenchmarkWriteAllVarint") 0)))
      (old := [(n!"b", .bench N)])
      (n := 8) ?_ ?_ ?_ fuel 0 ())
    · kernel_rfl
    · intro i a; kernel_rfl
    · intro j a
      refine Eq.trans (b := do
        let count ← pow10Int j
        let nums ← gen W count
        call (sortWords W nums)
        let out ← makeB (int64 (count * 5))
        let env ← (ev W Files.wrTest fuel 52).exec
          [(n!"written", .int 0), (n!"out", .bytes out), (n!"nums", .words nums), (n!"count", .int count), (n!"i", .int j), (n!"b", .bench N)]
          (nth (loopBody (nth (bodyOf Files.wrTest n!"BenchmarkWriteAllVarint") 0)) 5)
        (ev W Files.wrTest fuel 58).exec (env.leave [(n!"i", .int j), (n!"b", .bench N)]) (loopPost (nth (bodyOf Files.wrTest n!"BenchmarkWriteAllVarint") 0))) ?_ ?_
      · kernel_rfl
      · simp only [hr]
        kernel_rfl
    · intro i a; kernel_rfl
  refine Eq.trans (b := M.go (do
    let _ ← (ev W Files.wrTest fuel 59).exec [(n!"b", .bench N)] (nth (bodyOf Files.wrTest n!"BenchmarkWriteAllVarint") 0)
    pure ()) s) ?_ ?_
  · kernel_rfl
  · simp only [ho]
    kernel_rfl

theorem bWriteDeltaVarint_text (W : World) (fuel N : Nat) (s : St) :
    bench W Files.wrTest fuel n!"BenchmarkWriteAllDeltaVarint" N s = (bWriteDeltaVarint W fuel).go s := by
  have hl : ∀ (n : Nat) (j count : Int) nums out w, (ev W Files.wrTest fuel 48).exec
      [(n!"b", .bench n), (n!"written", .int w), (n!"out", .bytes out), (n!"nums", .words nums), (n!"count", .int count), (n!"i", .int j), (n!"b", .bench N)]
      (nth (runBody (nth (loopBody (nth (bodyOf Files.wrTest n!"BenchmarkWriteAllDeltaVarint") 0)) 5)) 2) =
      repeatSet fuel n (call (putDeltaVarint nums out 0)) w >>= fun a =>
        pure [(n!"b", .bench n), (n!"written", .int a), (n!"out", .bytes out), (n!"nums", .words nums), (n!"count", .int count), (n!"i", .int j), (n!"b", .bench N)] := by
    intro n j count nums out w
    refine Eq.trans ?_ (forLoop_upto (fun i (a : Int) => [(n!"i", .int i), (n!"b", .bench n), (n!"written", .int a), (n!"out", .bytes out), (n!"nums", .words nums), (n!"count", .int count), (n!"i", .int j), (n!"b", .bench N)])
      (cond := fun env => (ev W Files.wrTest fuel 47).eval env (loopCond (nth (runBody (nth (loopBody (nth (bodyOf Files.wrTest n!"BenchmarkWriteAllDeltaVarint") 0)) 5)) 2)))
      (post := fun env => (ev W Files.wrTest fuel 47).exec env (loopPost (nth (runBody (nth (loopBody (nth (bodyOf Files.wrTest n!"BenchmarkWriteAllDeltaVarint") 0)) 5)) 2)))
      (body := fun env => (ev W Files.wrTest fuel 47).execs env (loopBody (nth (runBody (nth (loopBody (nth (bodyOf Files.wrTest n!"BenchmarkWriteAllDeltaVarint") 0)) 5)) 2)))
      (old := [(n!"b", .bench n), (n!"written", .int w), (n!"out", .bytes out), (n!"nums", .words nums), (n!"count", .int count), (n!"i", .int j), (n!"b", .bench N)])
      (n := n) ?_ ?_ ?_ fuel 0 w)
    · kernel_rfl
    · intro i a; kernel_rfl
    · intro i a; kernel_rfl
    · intro i a; kernel_rfl
  have hr : ∀ (j count : Int) nums out w, (ev W Files.wrTest fuel 52).exec
      [(n!"written", .int w), (n!"out", .bytes out), (n!"nums", .words nums), (n!"count", .int count), (n!"i", .int j), (n!"b", .bench N)]
      (nth (loopBody (nth (bodyOf Files.wrTest n!"BenchmarkWriteAllDeltaVarint") 0)) 5) =
      bRun W (fun n w => do
        setBytes (int64 (count * 4))
        let a ← repeatSet fuel n (call (putDeltaVarint nums out 0)) w
        setSink n!"readSinkE" (.int a)
        pure a) w >>= fun a =>
        pure [(n!"written", .int a), (n!"out", .bytes out), (n!"nums", .words nums), (n!"count", .int count), (n!"i", .int j), (n!"b", .bench N)] := by
    intro j count nums out w
    refine Eq.trans ?_ (runRounds_eq (fun (a : Int) => [(n!"written", .int a), (n!"out", .bytes out), (n!"nums", .words nums), (n!"count", .int count), (n!"i", .int j), (n!"b", .bench N)])
      (f := fun n env => do
        let env' ← (ev W Files.wrTest fuel 51).execs ((n!"b", .bench n) :: env) (runBody (nth (loopBody (nth (bodyOf Files.wrTest n!"BenchmarkWriteAllDeltaVarint") 0)) 5))
        pure (env'.leave env)) ?_ w)
    · kernel_rfl
    · intro n w
      refine Eq.trans (b := do
        setBytes (int64 (count * 4))
        let env ← (ev W Files.wrTest fuel 48).exec
          [(n!"b", .bench n), (n!"written", .int w), (n!"out", .bytes out), (n!"nums", .words nums), (n!"count", .int count), (n!"i", .int j), (n!"b", .bench N)]
          (nth (runBody (nth (loopBody (nth (bodyOf Files.wrTest n!"BenchmarkWriteAllDeltaVarint") 0)) 5)) 2)
        let env ← (ev W Files.wrTest fuel 48).execs env [nth (runBody (nth (loopBody (nth (bodyOf Files.wrTest n!"BenchmarkWriteAllDeltaVarint") 0)) 5)) 3]
        pure (env.leave [(n!"written", .int w), (n!"out", .bytes out), (n!"nums", .words nums), (n!"count", .int count), (n!"i", .int j), (n!"b", .bench N)])) ?_ ?_
      · kernel_rfl
      · simp only [hl]
        kernel_rfl
  have ho : (ev W Files.wrTest fuel 59).exec [(n!"b", .bench N)] (nth (bodyOf Files.wrTest n!"BenchmarkWriteAllDeltaVarint") 0) =
      (tens fuel fun count => do
        let nums ← gen W count
        call (sortWords W nums)
        let out ← makeB (int64 (count * 5))
        ignore (bRun W (fun n w => do
        setBytes (int64 (count * 4))
        let a ← repeatSet fuel n (call (putDeltaVarint nums out 0)) w
        setSink n!"readSinkE" (.int a)
        pure a) 0)) >>= fun _ => pure [(n!"b", .bench N)] := by
    refine Eq.trans ?_ (forLoop_upto (fun i (_ : Unit) => [(n!"i", .int i), (n!"b", .bench N)])
      (cond := fun env => (ev W Files.wrTest fuel 58).eval env (loopCond (nth (bodyOf Files.wrTest n!"BenchmarkWriteAllDeltaVarint") 0)))
      (post := fun env => (ev W Files.wrTest fuel 58).exec env (loopPost (nth (bodyOf Files.wrTest n!"BenchmarkWriteAllDeltaVarint") 0)))
      (body := fun env => (ev W Files.wrTest fuel 58).execs env (loopBody (nth (bodyOf Files.wrTest n!"BenchmarkWriteAllDeltaVarint") 0)))
      (old := [(n!"b", .bench N)])
      (n := 8) ?_ ?_ ?_ fuel 0 ())
    · kernel_rfl
    · intro i a; kernel_rfl
    · intro j a
      refine Eq.trans (b := do
        let count ← pow10Int j
        let nums ← gen W count
        call (sortWords W nums)
        let out ← makeB (int64 (count * 5))
        let env ← (ev W Files.wrTest fuel 52).exec
          [(n!"written", .int 0), (n!"out", .bytes out), (n!"nums", .words nums), (n!"count", .int count), (n!"i", .int j), (n!"b", .bench N)]
          (nth (loopBody (nth (bodyOf Files.wrTest n!"BenchmarkWriteAllDeltaVarint") 0)) 5)
        (ev W Files.wrTest fuel 58).exec (env.leave [(n!"i", .int j), (n!"b", .bench N)]) (loopPost (nth (bodyOf Files.wrTest n!"BenchmarkWriteAllDeltaVarint") 0))) ?_ ?_
      · kernel_rfl
      · simp only [hr]
        kernel_rfl
    · intro i a; kernel_rfl
  refine Eq.trans (b := M.go (do
    let _ ← (ev W Files.wrTest fuel 59).exec [(n!"b", .bench N)] (nth (bodyOf Files.wrTest n!"BenchmarkWriteAllDeltaVarint") 0)
    pure ()) s) ?_ ?_
  · kernel_rfl
  · simp only [ho]
    kernel_rfl

end SVB.Tests
