import Verif.Model.ScriptSem
import Verif.Proofs.GoParse

/-! # Statements and calls in the interpreter of the programs -/

set_option autoImplicit false

namespace SVB.Script

section
variable {C : Ctx} {n p : Nat} {env env' : Env} {w : World} {s s' s'' : St}

theorem execs_next {a : Stmt} {ss : List Stmt} (h : (Interp.depth C n).exec p env a w s = .ok (.next env') s') :
    (Interp.depth C (n + 1)).execs p (a :: ss) env w s = (Interp.depth C n).execs p ss env' w s' := by
  show M.bind ((Interp.depth C n).exec p env a) (fun f => f.andThen ((Interp.depth C n).execs p ss)) w s = _
  simp only [M.bind, h]
  rfl

theorem execs_ret {a : Stmt} {ss : List Stmt} {vs : List V} (h : (Interp.depth C n).exec p env a w s = .ok (.ret vs env') s') :
    (Interp.depth C (n + 1)).execs p (a :: ss) env w s = .ok (.ret vs env') s' := by
  show M.bind ((Interp.depth C n).exec p env a) (fun f => f.andThen ((Interp.depth C n).execs p ss)) w s = _
  simp only [M.bind, h]
  rfl

theorem execs_exit {a : Stmt} {ss : List Stmt} {c : Nat} (h : (Interp.depth C n).exec p env a w s = .exit c s') :
    (Interp.depth C (n + 1)).execs p (a :: ss) env w s = .exit c s' := by
  show M.bind ((Interp.depth C n).exec p env a) (fun f => f.andThen ((Interp.depth C n).execs p ss)) w s = _
  simp only [M.bind, h]

theorem execs_panic {a : Stmt} {ss : List Stmt} (h : (Interp.depth C n).exec p env a w s = .panic) :
    (Interp.depth C (n + 1)).execs p (a :: ss) env w s = .panic := by
  show M.bind ((Interp.depth C n).exec p env a) (fun f => f.andThen ((Interp.depth C n).execs p ss)) w s = _
  simp only [M.bind, h]

/-- End of a block. -/
def left (k : Nat) : Res Flow → Res Flow
  | .ok (.next e) s => .ok (.next (e.leave k)) s
  | r => r

theorem exec_if {c : Expr} {thn els : List Stmt} {b : Bool}
    (h : (Interp.depth C (n + 1)).eval p env c w s = .ok (.bool b) s') :
    (Interp.depth C (n + 2)).exec p env (.ite [] c thn els) w s =
      left env.length (left env.length ((Interp.depth C (n + 1)).execs p (if b then thn else els) env w s')) := by
  have i : (Interp.depth C (n + 1)).execs p [] env w s = .ok (.next env) s := rfl
  show execStep (Interp.depth C (n + 1)) p env (.ite [] c thn els) w s = _
  simp only [execStep, inScope, bind, M.bind, i, Flow.andThen, h, truth, pure, M.pure]
  cases b <;> simp only [Bool.false_eq_true, if_true, if_false, M.bind] <;>
    cases (Interp.depth C (n + 1)).execs p _ env w s' with
    | ok f s => cases f <;> rfl
    | exit c s => rfl
    | panic => rfl
    | fuel => rfl
    | stuck => rfl

end

theorem depth_multi (C : Ctx) (n : Nat) : (Interp.depth C (n + 1)).multi = multiStep C (Interp.depth C n) := rfl
theorem depth_exec (C : Ctx) (n : Nat) : (Interp.depth C (n + 1)).exec = execStep (Interp.depth C n) := rfl

/-- A call of a function that defers nothing. -/
theorem apply_fn {C : Ctx} {n pkg f : Nat} {g : Func} {vs : List V} {env res : Env} {w : World} {s s' : St}
    {fl : Flow} {r : List V × Env} (hg : C.func pkg f = some g) (he : bindAll g.params vs = some env)
    (hr : resultVars g.results = some res) (hd : s.defers = [])
    (hx : (Interp.depth C n).execs pkg g.body (env ++ res) w s = .ok fl s')
    (hd' : s'.defers = []) (hf : results g.results fl = some r) :
    (Interp.depth C (n + 1)).apply (.fn pkg f) vs w s = .ok r.1 s' := by
  show applyStep C (Interp.depth C n) (.fn pkg f) vs w s = _
  have e : ({ s with defers := [] } : St) = s := by rw [← hd]
  have e' : ({ s' with defers := [] } : St) = s' := by rw [← hd']
  simp only [applyStep, bind, M.bind, pure, M.pure, orStuck, runBody, get, set, hg, he, hr, hd, e, hx, hf, hd', runDefers, e']

end SVB.Script
