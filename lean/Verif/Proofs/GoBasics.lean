import Verif.Model.GoSem
import Verif.Proofs.GoParse

/-! # Tools for comparing the interpreted Go files with the model -/

set_option autoImplicit false
set_option linter.unusedSimpArgs false

namespace SVB
open Prog

/-! ## The results a program can have -/

/-- Every result the program can end with satisfies `P`, whatever the loads return. -/
def Prog.Leaves {α : Type} (P : α → Prop) : Prog α → Prop
  | .ret a => P a
  | .panic _ => True
  | .load _ k => ∀ b, (k b).Leaves P
  | .store _ _ k => k.Leaves P

theorem Prog.Leaves.mono {α : Type} {P Q : α → Prop} (h : ∀ a, P a → Q a) {p : Prog α} (hp : p.Leaves P) : p.Leaves Q := by
  induction p with
  | ret a => exact h a hp
  | panic k => trivial
  | load p k ih => exact fun b => ih b (hp b)
  | store p v k ih => exact ih hp

theorem Prog.Leaves.bind {α β : Type} {P : α → Prop} {Q : β → Prop} {p : Prog α} {f : α → Prog β} (hp : p.Leaves P)
    (hf : ∀ a, P a → (f a).Leaves Q) : (p.bind f).Leaves Q := by
  induction p with
  | ret a => exact hf a hp
  | panic k => trivial
  | load p k ih => exact fun b => ih b (hp b)
  | store p v k ih => exact ih hp

theorem Prog.leaves_true {α : Type} (p : Prog α) : p.Leaves (fun _ => True) := by
  induction p with
  | ret a => trivial
  | panic k => trivial
  | load p k ih => exact ih
  | store p v k ih => exact ih

theorem bind_congr' {α β : Type} {P : α → Prop} {p : Prog α} {f g : α → Prog β} (hp : p.Leaves P)
    (h : ∀ a, P a → f a = g a) : p.bind f = p.bind g := by
  induction p with
  | ret a => exact h a hp
  | panic k => rfl
  | load p k ih =>
    show Prog.load p _ = Prog.load p _
    congr; funext b; exact ih b (hp b)
  | store p v k ih =>
    show Prog.store p v _ = Prog.store p v _
    exact congrArg _ (ih hp)

theorem bind_congr_all {α β : Type} {p : Prog α} {f g : α → Prog β} (h : ∀ a, f a = g a) : p.bind f = p.bind g :=
  bind_congr' p.leaves_true fun a _ => h a

theorem ite_bind {α β : Type} (c : Prop) [Decidable c] (p q : Prog α) (f : α → Prog β) :
    (if c then p else q).bind f = if c then p.bind f else q.bind f := by split <;> rfl

theorem leaves_load8 (p : Ptr) : (load8 p).Leaves (fun _ => True) := fun _ => trivial

theorem leaves_from {e : Nat} (s : Slice e) (a : Int) :
    (s.from a).Leaves fun r => 0 ≤ a ∧ a ≤ s.len ∧ r = ⟨s.blk, s.off + e * a.toNat, s.len - a.toNat, s.cap - a.toNat⟩ := by
  unfold Slice.from
  split
  · next h => exact ⟨h.1, h.2, rfl⟩
  · trivial

theorem leaves_range {e : Nat} (s : Slice e) (a b : Int) :
    (s.range a b).Leaves fun r => 0 ≤ a ∧ a ≤ b ∧ b ≤ s.cap ∧
      r = ⟨s.blk, s.off + e * a.toNat, b.toNat - a.toNat, s.cap - a.toNat⟩ := by
  unfold Slice.range
  split
  · next h => exact ⟨h.1, h.2.1, h.2.2, rfl⟩
  · trivial

theorem leaves_getB (s : Bytes) (i : Int) : (getB s i).Leaves fun _ => 0 ≤ i ∧ i < s.len := by
  unfold getB
  split
  · next h => exact fun _ => h
  · trivial

theorem leaves_setB (s : Bytes) (i : Int) (v : Byte) : (setB s i v).Leaves fun _ => 0 ≤ i ∧ i < s.len := by
  unfold setB
  split
  · next h => exact h
  · trivial

theorem leaves_getW (s : U32s) (i : Int) : (getW s i).Leaves fun _ => 0 ≤ i ∧ i < s.len := by
  unfold getW
  split
  · next h => exact fun _ _ _ _ => h
  · trivial

theorem leaves_controlByteToSize (c : Byte) : (controlByteToSize c).Leaves fun r => 0 ≤ r ∧ r ≤ 255 := by
  intro b
  have := b.isLt
  exact ⟨by omega, by omega⟩

theorem leaves_controlByteToSizeTwo (c : U16) : (controlByteToSizeTwo c).Leaves fun r => 0 ≤ r ∧ r ≤ 255 := by
  unfold controlByteToSizeTwo
  simp only []
  split
  · intro a b
    have := (a + b).isLt
    exact ⟨by omega, by omega⟩
  · trivial

/-! ## Loops -/

/-- The loop of the interpreter is the loop of the model if, on states satisfying an invariant, condition and body agree.
`enc` gives the local variables for a state of the model, `μ` decreases. -/
theorem forLoop_eq {σ : Type} (enc : σ → Go.Env) (Inv : σ → Prop) (μ : σ → Nat) (cond : σ → Bool) (body : σ → Prog σ)
    (gc : Go.Env → Prog Go.Val) (gb : Go.Env → Prog Go.Flow)
    (hc : ∀ s, Inv s → gc (enc s) = .ret (.bool (cond s)))
    (hb : ∀ s, Inv s → cond s = true → gb (enc s) = (body s).bind fun s' => .ret (.next (enc s')))
    (hi : ∀ s, Inv s → cond s = true → (body s).Leaves fun s' => Inv s' ∧ μ s' < μ s)
    (hμ : ∀ s, Inv s → cond s = true → 0 < μ s) :
    ∀ (fuel fuel' : Nat) (s : σ), Inv s → μ s ≤ fuel → μ s ≤ fuel' →
      Go.forLoop fuel gc gb (enc s) = (loop fuel' cond body s).bind fun s' => .ret (.next (enc s')) := by
  intro fuel
  induction fuel with
  | zero =>
    intro fuel' s hs h1 h2
    have hf : cond s = false := by
      cases h : cond s with
      | false => rfl
      | true => have := hμ s hs h; omega
    unfold Go.forLoop loop
    simp only [hc s hs, hf, bind_eq, ret_bind, Go.Val.branch, Bool.false_eq_true, if_false]
  | succ n ih =>
    intro fuel' s hs h1 h2
    unfold Go.forLoop loop
    cases h : cond s with
    | false => simp only [hc s hs, h, bind_eq, ret_bind, Go.Val.branch, Bool.false_eq_true, if_false]
    | true =>
      have := hμ s hs h
      obtain ⟨k, rfl⟩ : ∃ k, fuel' = k + 1 := ⟨fuel' - 1, by omega⟩
      simp only [hc s hs, h, bind_eq, ret_bind, Go.Val.branch, if_true, hb s hs h, bind_assoc]
      refine bind_congr' (hi s hs h) fun s' h' => ?_
      exact ih k s' h'.1 (by omega) (by omega)

theorem leaves_loop {σ : Type} (Inv : σ → Prop) (cond : σ → Bool) (body : σ → Prog σ)
    (hi : ∀ s, Inv s → cond s = true → (body s).Leaves Inv) :
    ∀ (fuel : Nat) (s : σ), Inv s → (loop fuel cond body s).Leaves fun s' => Inv s' ∧ cond s' = false := by
  intro fuel
  induction fuel with
  | zero =>
    intro s hs
    unfold loop
    split
    · trivial
    · next h => exact ⟨hs, by simpa using h⟩
  | succ n ih =>
    intro s hs
    unfold loop
    split
    · next h => exact (hi s hs h).bind fun s' h' => ih s' h'
    · next h => exact ⟨hs, by simpa using h⟩

end SVB

namespace SVB.Go
open Prog

/-! ## One step of the interpreter -/

section
variable (C : Ctx) (env : Env)

theorem branch_decide {α : Type} (c : Prop) [Decidable c] (p q : Prog α) :
    (Val.bool (decide c)).branch p q = if c then p else q := by
  by_cases h : c <;> simp [h, Val.branch]

theorem branch_bool {α : Type} (b : Bool) (p q : Prog α) : (Val.bool b).branch p q = if b = true then p else q := by
  cases b <;> rfl

theorem andThen_next (k : Env → Prog Flow) : (Flow.next env).andThen k = k env := rfl
theorem andThen_ret (vs : List Val) (k : Env → Prog Flow) : (Flow.ret vs).andThen k = .ret (.ret vs) := rfl

theorem orFault_some {α : Type} (a : α) : orFault (some a) = .ret a := rfl

theorem inScope_eq (body : Env → Prog Flow) :
    inScope body env = (body env).bind fun f => f.andThen fun e => .ret (.next (Env.leave e env.length)) := rfl

theorem execs_nil : execs C [] env = .ret (.next env) := rfl
theorem execs_cons (s : Stmt) (ss : List Stmt) :
    execs C (s :: ss) env = (exec C s env).bind fun f => f.andThen (execs C ss) := rfl

theorem exec_define (xs : List Nat) (e : Expr) :
    exec C (.define xs e) env =
      (evalMulti C env e).bind fun vs => (orFault (declare xs vs env)).bind fun env => .ret (.next env) := rfl
theorem exec_var_value (x : Nat) (e : Expr) :
    exec C (.var x none (some e)) env = (eval C env e).bind fun v => .ret (.next ((x, v.declared) :: env)) := rfl
theorem exec_var_zero (x : Nat) (t : GoType) :
    exec C (.var x (some t) none) env = (orFault (zeroOf t)).bind fun v => .ret (.next ((x, v) :: env)) := rfl
theorem exec_assign_var (x : Nat) (e : Expr) :
    exec C (.assign (.var x) e) env =
      if x = n!"_" then (eval C env e).bind fun _ => .ret (.next env)
      else (eval C env e).bind fun v => (orFault (env.get x)).bind fun old => (orFault (coerceLike old v)).bind fun v =>
        (orFault (env.set x v)).bind fun env => .ret (.next env) := rfl
theorem exec_assign_index (a i e : Expr) :
    exec C (.assign (.index a i) e) env =
      (eval C env a).bind fun s => (eval C env i).bind fun k => (eval C env e).bind fun v =>
        (orFault k.toInt).bind fun k => (setIndex s k v).bind fun _ => .ret (.next env) := rfl
theorem exec_update (op : Op) (x : Nat) (e : Expr) :
    exec C (.update op (.var x) e) env =
      (orFault (env.get x)).bind fun old => (eval C env e).bind fun v => (applyOp op old v).bind fun v =>
        (orFault (env.set x v)).bind fun env => .ret (.next env) := rfl
theorem exec_expr (e : Expr) : exec C (.expr e) env = (evalMulti C env e).bind fun _ => .ret (.next env) := rfl
theorem exec_ret (es : List Expr) : exec C (.ret es) env = (evalArgs C env es).bind fun vs => .ret (.ret vs) := rfl
theorem exec_ite (c : Expr) (thn els : List Stmt) :
    exec C (.ite c thn els) env =
      (eval C env c).bind fun v => v.branch (inScope (execs C thn) env) (inScope (execs C els) env) := rfl

/-- A `for` statement without its init statement. -/
def execFor (C : Ctx) (cond : Expr) (post body : List Stmt) : Env → Prog Flow :=
  forLoop C.fuel (fun env => eval C env cond)
    (fun env => (inScope (execs C body) env).bind fun f => f.andThen (execs C post))

theorem exec_loop (init : List Stmt) (cond : Expr) (post body : List Stmt) :
    exec C (.loop init cond post body) env =
      (execs C init env).bind fun f => (f.andThen (execFor C cond post body)).bind fun f =>
        f.andThen fun e => .ret (.next (Env.leave e env.length)) := by
  show ((execs C init env).bind fun f => f.andThen (execFor C cond post body)).bind _ = _
  rw [bind_assoc]

/-- A `for … range` statement over `r` elements. -/
def execRange (C : Ctx) (x : Nat) (body : List Stmt) (r : Nat) (env : Env) : Prog Flow :=
  rangeLoop x (execs C body) r 0 env

theorem exec_range (x : Nat) (e : Expr) (body : List Stmt) :
    exec C (.range x e body) env = (eval C env e).bind fun v => match v with
      | .bytes s => execRange C x body s.len env
      | .words s => execRange C x body s.len env
      | _ => fault := rfl

theorem exec_switch (e : Expr) (cases : List (Expr × List Stmt × Bool)) :
    exec C (.switch e cases) env = (eval C env e).bind fun v => execCases C v false cases env := rfl

theorem execCases_nil (v : Val) (through : Bool) : execCases C v through [] env = .ret (.next env) := rfl
theorem execCases_through (v : Val) (w : Expr) (body : List Stmt) (ft : Bool) (cs : List (Expr × List Stmt × Bool)) :
    execCases C v true ((w, body, ft) :: cs) env =
      (inScope (execs C body) env).bind fun f => f.andThen fun env =>
        if ft then execCases C v true cs env else .ret (.next env) := rfl
theorem execCases_test (v : Val) (w : Expr) (body : List Stmt) (ft : Bool) (cs : List (Expr × List Stmt × Bool)) :
    execCases C v false ((w, body, ft) :: cs) env =
      (eval C env w).bind fun w => (orFault (binAny .eq v w)).bind fun b =>
        b.branch ((inScope (execs C body) env).bind fun f => f.andThen fun env =>
          if ft then execCases C v true cs env else .ret (.next env)) (execCases C v false cs env) := rfl

theorem eval_var (n : Nat) : eval C env (.var n) = orFault (getVar C env n) := rfl
theorem eval_num (n : Nat) : eval C env (.num n) = .ret (.const n) := rfl
theorem eval_str (t : Sources.Text) : eval C env (.str t) = .ret (.str t) := rfl
theorem eval_type (t : GoType) : eval C env (.type t) = .ret (.type t) := rfl
theorem eval_dot (e : Expr) (n : Nat) : eval C env (.dot e n) = orFault (((Expr.dot e n).path).bind C.global) := rfl
theorem eval_land (a b : Expr) :
    eval C env (.bin .land a b) = (eval C env a).bind fun x => x.branch (eval C env b) (.ret (.bool false)) := rfl
theorem eval_bin (op : Op) (a b : Expr) (h : op ≠ .land) :
    eval C env (.bin op a b) = (eval C env a).bind fun x => (eval C env b).bind fun y => applyOp op x y := by
  cases op <;> first | rfl | exact absurd rfl h
theorem eval_index (a i : Expr) :
    eval C env (.index a i) =
      (eval C env a).bind fun x => (eval C env i).bind fun k => (orFault k.toInt).bind fun k => indexVal x k := rfl
theorem eval_from (a i : Expr) :
    eval C env (.from a i) =
      (eval C env a).bind fun x => (eval C env i).bind fun k => (orFault k.toInt).bind fun k => fromVal x k := rfl
theorem eval_upto (a i : Expr) :
    eval C env (.upto a i) =
      (eval C env a).bind fun x => (eval C env i).bind fun k => (orFault k.toInt).bind fun k => rangeVal x 0 k := rfl
theorem eval_range (a i j : Expr) :
    eval C env (.range a i j) =
      (eval C env a).bind fun x => (eval C env i).bind fun k => (eval C env j).bind fun l =>
        (orFault k.toInt).bind fun k => (orFault l.toInt).bind fun l => rangeVal x k l := rfl
theorem eval_call (f : Expr) (args : List Expr) :
    eval C env (.call f args) = (evalArgs C env args).bind fun vs => (applyFn C env f vs).bind one := rfl
theorem evalArgs_nil : evalArgs C env [] = .ret [] := rfl
theorem evalArgs_cons (e : Expr) (es : List Expr) :
    evalArgs C env (e :: es) = (eval C env e).bind fun v => (evalArgs C env es).bind fun vs => .ret (v :: vs) := rfl
theorem evalMulti_call (f : Expr) (args : List Expr) :
    evalMulti C env (.call f args) = (evalArgs C env args).bind fun vs => applyFn C env f vs := rfl
theorem evalMulti_var (n : Nat) : evalMulti C env (.var n) = (eval C env (.var n)).bind fun v => .ret [v] := rfl
theorem evalMulti_num (n : Nat) : evalMulti C env (.num n) = (eval C env (.num n)).bind fun v => .ret [v] := rfl
theorem evalMulti_bin (op : Op) (a b : Expr) :
    evalMulti C env (.bin op a b) = (eval C env (.bin op a b)).bind fun v => .ret [v] := rfl
theorem evalMulti_index (a i : Expr) :
    evalMulti C env (.index a i) = (eval C env (.index a i)).bind fun v => .ret [v] := rfl
theorem evalMulti_from (a i : Expr) :
    evalMulti C env (.from a i) = (eval C env (.from a i)).bind fun v => .ret [v] := rfl
theorem evalMulti_range (a i j : Expr) :
    evalMulti C env (.range a i j) = (eval C env (.range a i j)).bind fun v => .ret [v] := rfl

theorem indexVal_bytes (s : Bytes) (i : Int) : indexVal (.bytes s) i = (getB s i).bind fun b => .ret (.u8 b) := rfl
theorem indexVal_words (s : U32s) (i : Int) : indexVal (.words s) i = (getW s i).bind fun w => .ret (.u32 w) := rfl
theorem indexVal_row (b : Block) (n : Nat) (i : Int) : indexVal (.table b [n]) i =
    if 0 ≤ i ∧ i < n then (load8 ⟨b, i.toNat⟩).bind fun x => .ret (.u8 x) else .panic .index := rfl
theorem indexVal_rows (b : Block) (n m : Nat) (i : Int) : indexVal (.table b [n, m]) i =
    if 0 ≤ i ∧ i < n then (loadRow ⟨b, m * i.toNat⟩ m).bind fun x => .ret (.arr x) else .panic .index := rfl
theorem indexVal_arr (xs : List Byte) (i : Int) : indexVal (.arr xs) i =
    if 0 ≤ i ∧ i < xs.length then .ret (.u8 (xs.getD i.toNat 0)) else .panic .index := rfl
theorem setIndex_bytes (s : Bytes) (i : Int) (x : Byte) : setIndex (.bytes s) i (.u8 x) = setB s i x := rfl
theorem setIndex_words (s : U32s) (i : Int) (x : U32) : setIndex (.words s) i (.u32 x) = setW s i x := rfl
theorem fromVal_bytes (s : Bytes) (i : Int) : fromVal (.bytes s) i = (s.from i).bind fun r => .ret (.bytes r) := rfl
theorem fromVal_words (s : U32s) (i : Int) : fromVal (.words s) i = (s.from i).bind fun r => .ret (.words r) := rfl
theorem rangeVal_bytes (s : Bytes) (i j : Int) :
    rangeVal (.bytes s) i j = (s.range i j).bind fun r => .ret (.bytes r) := rfl
theorem rangeVal_words (s : U32s) (i j : Int) :
    rangeVal (.words s) i j = (s.range i j).bind fun r => .ret (.words r) := rfl

theorem runBody_eq (f : Func) (body : List Stmt) (args : List Val) :
    runBody C f body args = (orFault (coerceAll f.params args)).bind fun env => (execs C body env).bind fun r => match r with
      | .ret vs => (orFault (coerceAll f.results vs)).bind fun e => .ret (e.map Prod.snd)
      | .next _ => if f.results.isEmpty then .ret [] else fault := rfl

theorem applyFn_dot (p n : Nat) (vs : List Val) : applyFn C env (.dot (.var p) n) vs = C.call p n vs := rfl
theorem one_eq (v : Val) : one [v] = .ret v := rfl
end

/-- A loop of the interpreter followed by `K` is the loop of the model followed by `K'`, if on states satisfying an
invariant conditions agree, and body and body, each followed by anything that agrees on the next state.  `enc` gives the
local variables for a state of the model, `μ` decreases. -/
theorem for_step {σ β : Type} (enc : σ → Env) (Inv : σ → Prop) (μ : σ → Nat) {C : Ctx} {gcond : Expr}
    {post gbody : List Stmt} {cond : σ → Bool} {body : σ → Prog σ} {fuel : Nat} {env : Env} {s : σ} {K : Flow → Prog β}
    {K' : σ → Prog β} (he : env = enc s) (hs : Inv s) (h1 : μ s ≤ C.fuel) (h2 : μ s ≤ fuel)
    (hc : ∀ s, Inv s → eval C (enc s) gcond = .ret (.bool (cond s)))
    (hm : ∀ s, Inv s → cond s = true → 0 < μ s)
    (hb : ∀ s, Inv s → cond s = true → ∀ (K : Flow → Prog β) (K' : σ → Prog β),
      (∀ s', Inv s' → μ s' < μ s → K (.next (enc s')) = K' s') →
      ((inScope (execs C gbody) (enc s)).bind fun f => (f.andThen (execs C post)).bind K) = (body s).bind K')
    (hk : ∀ s, Inv s → cond s = false → K (.next (enc s)) = K' s) :
    (execFor C gcond post gbody env).bind K = (loop fuel cond body s).bind K' := by
  subst he
  unfold execFor
  generalize C.fuel = gas at h1
  induction gas generalizing s fuel with
  | zero =>
    have hf : cond s = false := by
      cases h : cond s with
      | false => rfl
      | true => have := hm s hs h; omega
    unfold forLoop loop
    simp only [hc s hs, hf, bind_eq, ret_bind, Val.branch, Bool.false_eq_true, if_false, hk s hs]
  | succ n ih =>
    unfold forLoop loop
    cases h : cond s with
    | false => simp only [hc s hs, h, bind_eq, ret_bind, Val.branch, Bool.false_eq_true, if_false, hk s hs]
    | true =>
      have := hm s hs h
      obtain ⟨k, rfl⟩ : ∃ k, fuel = k + 1 := ⟨fuel - 1, by omega⟩
      simp only [hc s hs, h, bind_eq, ret_bind, Val.branch, if_true, bind_assoc]
      exact hb s hs h _ _ fun s' h' h'' => ih (s := s') (fuel := k) h' (by omega) (by omega)

theorem call_go (W : World) (d pkg f : Nat) (vs : List Val) (g : Func) (b : List Stmt) (h : W.prog.func pkg f = some g)
    (hb : g.body = some b) :
    W.call (d + 1) pkg f vs = runBody ⟨pkg, W.prog.global W.cpu W.vars, W.call d, W.fuel, W.fresh⟩ g b vs := by
  simp only [World.call, h, hb]

theorem call_external (W : World) (d pkg f : Nat) (vs : List Val)
    (h : W.prog.func pkg f = none ∨ ∃ g, W.prog.func pkg f = some g ∧ g.body = none) :
    W.call (d + 1) pkg f vs = external pkg f vs := by
  rcases h with h | ⟨g, h, hb⟩
  · simp only [World.call, h]
  · simp only [World.call, h, hb]

end SVB.Go
