import Verif.Proofs.GoSoundOps

/-! # A program that compiles never reaches `.fault` -/

set_option autoImplicit false

namespace SVB.Go

variable {P : Program} {pkgs : List Nat}

/-! ## Environments -/

theorem EnvOk.length : ∀ {e : Env} {Γ : TEnv}, EnvOk P pkgs e Γ → e.length = Γ.length
  | [], [], _ => rfl
  | _ :: _, _ :: _, h => congrArg (· + 1) h.2.2.length

theorem EnvOk.get : ∀ {e : Env} {Γ : TEnv} {x : Nat} {t : Ty}, EnvOk P pkgs e Γ → Γ.get x = some t →
    ∃ v, e.get x = some v ∧ HasType P pkgs v t
  | [], [], _, _, _, h => by cases h
  | (y, v) :: e, (z, s) :: Γ, x, t, h, hg => by
    obtain ⟨rfl, hv, he⟩ := h
    simp only [TEnv.get] at hg
    simp only [Env.get]
    split
    · next hx => rw [if_pos hx] at hg; cases hg; exact ⟨v, rfl, hv⟩
    · next hx => rw [if_neg hx] at hg; exact he.get hg

theorem EnvOk.get_none : ∀ {e : Env} {Γ : TEnv} {x : Nat}, EnvOk P pkgs e Γ → Γ.get x = none → e.get x = none
  | [], [], _, _, _ => rfl
  | (y, v) :: e, (z, s) :: Γ, x, h, hg => by
    obtain ⟨rfl, hv, he⟩ := h
    simp only [TEnv.get] at hg
    simp only [Env.get]
    split
    · next hx => rw [if_pos hx] at hg; cases hg
    · next hx => rw [if_neg hx] at hg; exact he.get_none hg

theorem EnvOk.set : ∀ {e : Env} {Γ : TEnv} {x : Nat} {t : Ty} {v : Val}, EnvOk P pkgs e Γ → Γ.get x = some t →
    HasType P pkgs v t → ∃ e', e.set x v = some e' ∧ EnvOk P pkgs e' Γ
  | [], [], _, _, _, _, h, _ => by cases h
  | (y, w) :: e, (z, s) :: Γ, x, t, v, h, hg, hv => by
    obtain ⟨rfl, hw, he⟩ := h
    simp only [TEnv.get] at hg
    simp only [Env.set]
    split
    · next hx => rw [if_pos hx] at hg; cases hg; exact ⟨(y, v) :: e, rfl, ⟨rfl, hv, he⟩⟩
    · next hx =>
      rw [if_neg hx] at hg
      obtain ⟨e', h1, h2⟩ := he.set hg hv
      exact ⟨(y, w) :: e', by rw [h1]; rfl, ⟨rfl, hw, h2⟩⟩

theorem EnvOk.drop : ∀ {e : Env} {Δ Γ : TEnv}, EnvOk P pkgs e (Δ ++ Γ) → EnvOk P pkgs (e.drop Δ.length) Γ
  | e, [], Γ, h => h
  | (x, v) :: e, (y, t) :: Δ, Γ, h => by
    have := EnvOk.drop (Δ := Δ) h.2.2
    exact this
  | [], (y, t) :: Δ, Γ, h => by cases h

theorem EnvOk.leave {e : Env} {Δ Γ : TEnv} (h : EnvOk P pkgs e (Δ ++ Γ)) {n : Nat} (hn : n = Γ.length) :
    EnvOk P pkgs (Env.leave e n) Γ := by
  have hl := h.length
  rw [List.length_append] at hl
  unfold Env.leave
  rw [show e.length - n = Δ.length by omega]
  exact h.drop

/-! ## The surroundings of a function -/

/-- The arguments fit the parameters of a function; those of a function without a Go body have the types of the parameters. -/
def ArgsOk (P : Program) (pkgs : List Nat) (p g : Nat) (ts ps : List Ty) : Prop :=
  (isExternal P p g = false ∨ ts = ps) ∧ assignableAll P pkgs ts ps = true

/-- The surroundings of a function are as the checker assumes. -/
structure CtxOk (T : TCtx) (C : Ctx) : Prop where
  pkg : C.pkg = T.pkg
  global : ∀ p n t, globalTy T.prog T.pkgs p n = some t → ∃ v, C.global [p, n] = some v ∧ HasType T.prog T.pkgs v t
  undeclared : ∀ n, declaredName T.prog T.pkg n = false → C.global [T.pkg, n] = none
  cpu : ∀ n, n = n!"HasAVX" ∨ n = n!"HasAVX2" → ∃ b, C.global [n!"cpu", n!"X86", n] = some (.bool b)
  call : ∀ p g ps rs vs ts, sigOf T.prog T.pkgs p g = some (ps, rs) → HasTypes T.prog T.pkgs vs ts →
    ArgsOk T.prog T.pkgs p g ts ps → (C.call p g vs).Safe (HasTypes T.prog T.pkgs · rs)

variable {T : TCtx} {C : Ctx}

theorem getVar_sound (hC : CtxOk T C) {e : Env} {Γ : TEnv} (he : EnvOk T.prog T.pkgs e Γ) {n : Nat} {t : Ty}
    (h : varTy T Γ n = some t) : ∃ v, getVar C e n = some v ∧ HasType T.prog T.pkgs v t := by
  unfold varTy at h
  unfold getVar
  split at h
  · next s hs =>
    cases h
    obtain ⟨v, hv, ht⟩ := he.get hs
    rw [hv]
    exact ⟨v, rfl, ht⟩
  · next hs =>
    rw [he.get_none hs, hC.pkg]
    exact hC.global _ _ _ h

theorem pathTy_sound (hC : CtxOk T C) {Γ : TEnv} {e : Expr} {n : Nat} {t : Ty} (h : pathTy T Γ (Expr.dot e n).path = some t) :
    ∃ v, ((Expr.dot e n).path).bind C.global = some v ∧ HasType T.prog T.pkgs v t := by
  unfold pathTy at h
  split at h
  · next p m hp =>
    split at h
    · rw [hp]; exact hC.global _ _ _ h
    · cases h
  · next p x m hp =>
    split at h
    · next hh =>
      cases h
      obtain ⟨_, _, rfl, rfl, hm⟩ := hh
      rw [hp]
      obtain ⟨b, hb⟩ := hC.cpu m hm
      exact ⟨.bool b, hb, rfl⟩
    · cases h
  · cases h

theorem applySig_some {P : Program} {pkgs : List Nat} {ex : Bool} {s : Option Sig} {ts rs : List Ty}
    (h : applySig P pkgs ex s ts = some rs) :
    ∃ ps, s = some (ps, rs) ∧ (ex = false ∨ ts = ps) ∧ assignableAll P pkgs ts ps = true := by
  unfold applySig at h
  split at h
  · split at h
    · next hh => cases h; exact ⟨_, rfl, hh⟩
    · cases h
  · cases h

theorem applyFn_sound (hC : CtxOk T C) {e : Env} {Γ : TEnv} (he : EnvOk T.prog T.pkgs e Γ) {f : Expr} {ts rs : List Ty}
    {vs : List Val} (h : callTy T Γ f ts = some rs) (hv : HasTypes T.prog T.pkgs vs ts) :
    (applyFn C e f vs).Safe (HasTypes T.prog T.pkgs · rs) := by
  unfold callTy at h
  split at h
  · next n =>
    split at h
    · next hb =>
      simp only [isBuiltin, Bool.and_eq_true, Option.isNone_iff_eq_none, Bool.not_eq_true'] at hb
      have : getVar C e n = none := by
        simp only [getVar, he.get_none hb.1, hC.pkg]
        exact hC.undeclared n hb.2
      simp only [applyFn, this]
      exact builtin_sound C h hv
    · split at h
      · next p g hn =>
        obtain ⟨v, h1, h2⟩ := getVar_sound hC he hn
        rw [ht_fn h2] at h1
        simp only [applyFn, h1]
        obtain ⟨ps, h3, h4⟩ := applySig_some h
        exact hC.call _ _ _ _ _ _ h3 hv h4
      · next p m hn =>
        obtain ⟨v, h1, h2⟩ := getVar_sound hC he hn
        obtain ⟨ps, h3, h4⟩ := applySig_some h
        rcases ht_named h2 with ⟨h5, _⟩ | ⟨q, g, s, rfl, h5, h6, h7⟩
        · exfalso
          simp only [isIntName] at h5
          simp only [fnName] at h3
          split at h5 <;> simp_all
        · simp only [applyFn, h1]
          rw [h3] at h5
          cases h5
          exact hC.call _ _ _ _ _ _ h6 hv ⟨.inl h7, h4.2⟩
      · cases h
  · next p n =>
    split at h
    · obtain ⟨ps, h3, h4⟩ := applySig_some h
      exact hC.call _ _ _ _ _ _ h3 hv h4
    · cases h
  · cases h

/-! ## Expressions -/

theorem eval_binop {e : Env} {op : Op} {a b : Expr} (h : op ≠ .land) :
    eval C e (.bin op a b) = (do let x ← eval C e a; let y ← eval C e b; applyOp op x y) := by
  rw [eval]
  exact h

theorem typeOf_bin {Γ : TEnv} {op : Op} {a b : Expr} (h : op ≠ .land) :
    typeOf T Γ (.bin op a b) = (do let s ← typeOf T Γ a; let t ← typeOf T Γ b; binTy T.prog op s t) := by
  rw [typeOf]
  exact h

theorem Safe.toInt {o : Option Int} {k : Int} (h : o = some k) : Safe.Ok (orFault o) := Safe.orFault h trivial

theorem one_sound {t : Ty} {vs : List Val} (h : HasTypes P pkgs vs [t]) : (one vs).Safe (HasType P pkgs · t) := by
  obtain ⟨v, rfl, hv⟩ := hts_one h
  exact Safe.ret hv

mutual
theorem eval_sound (hC : CtxOk T C) {env : Env} {Γ : TEnv} (he : EnvOk T.prog T.pkgs env Γ) :
    ∀ (e : Expr) {t : Ty}, typeOf T Γ e = some t → (eval C env e).Safe (HasType T.prog T.pkgs · t)
  | .var n, t, h => by
    rw [typeOf] at h
    rw [eval]
    obtain ⟨v, h1, h2⟩ := getVar_sound hC he h
    exact Safe.orFault h1 h2
  | .num n, t, h => by
    rw [typeOf] at h
    rw [eval]
    cases h
    exact Safe.ret rfl
  | .str s, t, h => by
    rw [typeOf] at h
    rw [eval]
    cases h
    exact Safe.ret rfl
  | .dot e n, t, h => by
    rw [typeOf] at h
    rw [eval]
    obtain ⟨v, h1, h2⟩ := pathTy_sound hC h
    exact Safe.orFault h1 h2
  | .bin op a b, t, h => by
    by_cases hop : op = .land
    · subst hop
      rw [typeOf] at h
      rw [eval]
      simp only [Option.bind_eq_bind, Option.bind_eq_some_iff] at h
      obtain ⟨s, h1, u, h2, h3⟩ := h
      split at h3
      · next hh =>
        obtain ⟨rfl, rfl⟩ := hh
        cases h3
        refine Safe.bind (eval_sound hC he a h1) fun x hx => ?_
        obtain ⟨c, rfl⟩ := ht_bool hx
        cases c
        · exact Safe.ret rfl
        · exact eval_sound hC he b h2
      · cases h3
    · rw [typeOf_bin hop] at h
      rw [eval_binop hop]
      simp only [Option.bind_eq_bind, Option.bind_eq_some_iff] at h
      obtain ⟨s, h1, u, h2, h3⟩ := h
      exact Safe.bind (eval_sound hC he a h1) fun x hx =>
        Safe.bind (eval_sound hC he b h2) fun y hy => applyOp_sound h3 hx hy
  | .index a i, t, h => by
    rw [typeOf] at h
    rw [eval]
    simp only [Option.bind_eq_bind, Option.bind_eq_some_iff] at h
    obtain ⟨s, h1, u, h2, h3⟩ := h
    refine Safe.bind (eval_sound hC he a h1) fun x hx => Safe.bind (eval_sound hC he i h2) fun y hy => ?_
    have hi : isIndex u = true := by
      unfold indexTy at h3
      split at h3
      · assumption
      · cases h3
    obtain ⟨k, hk⟩ := toInt_index hy hi
    exact Safe.bind (Safe.toInt hk) fun k _ => indexVal_sound h3 hx k
  | .from a i, t, h => by
    rw [typeOf] at h
    rw [eval]
    simp only [Option.bind_eq_bind, Option.bind_eq_some_iff] at h
    obtain ⟨s, h1, u, h2, h3⟩ := h
    split at h3
    · next hh =>
      cases h3
      refine Safe.bind (eval_sound hC he a h1) fun x hx => Safe.bind (eval_sound hC he i h2) fun y hy => ?_
      obtain ⟨k, hk⟩ := toInt_index hy hh.2
      exact Safe.bind (Safe.toInt hk) fun k _ => fromVal_sound hh.1 hx k
    · cases h3
  | .upto a i, t, h => by
    rw [typeOf] at h
    rw [eval]
    simp only [Option.bind_eq_bind, Option.bind_eq_some_iff] at h
    obtain ⟨s, h1, u, h2, h3⟩ := h
    split at h3
    · next hh =>
      cases h3
      refine Safe.bind (eval_sound hC he a h1) fun x hx => Safe.bind (eval_sound hC he i h2) fun y hy => ?_
      obtain ⟨k, hk⟩ := toInt_index hy hh.2
      exact Safe.bind (Safe.toInt hk) fun k _ => rangeVal_sound hh.1 hx 0 k
    · cases h3
  | .range a i j, t, h => by
    rw [typeOf] at h
    rw [eval]
    simp only [Option.bind_eq_bind, Option.bind_eq_some_iff] at h
    obtain ⟨s, h1, u, h2, w, h3, h4⟩ := h
    split at h4
    · next hh =>
      cases h4
      refine Safe.bind (eval_sound hC he a h1) fun x hx => Safe.bind (eval_sound hC he i h2) fun y hy =>
        Safe.bind (eval_sound hC he j h3) fun z hz => ?_
      obtain ⟨k, hk⟩ := toInt_index hy hh.2.1
      obtain ⟨l, hl⟩ := toInt_index hz hh.2.2
      exact Safe.bind (Safe.toInt hk) fun k _ => Safe.bind (Safe.toInt hl) fun l _ =>
        rangeVal_sound hh.1 hx k l
    · cases h4
  | .call f args, t, h => by
    rw [typeOf] at h
    rw [eval]
    simp only [Option.bind_eq_bind, Option.bind_eq_some_iff] at h
    obtain ⟨ts, h1, h2⟩ := h
    split at h2
    · next u hu =>
      cases h2
      exact Safe.bind (evalArgs_sound hC he args h1) fun vs hvs =>
        Safe.bind (applyFn_sound hC he hu hvs) fun r hr => one_sound hr
    · cases h2
  | .type u, t, h => by
    rw [typeOf] at h
    rw [eval]
    cases h
    exact Safe.ret rfl

theorem evalArgs_sound (hC : CtxOk T C) {env : Env} {Γ : TEnv} (he : EnvOk T.prog T.pkgs env Γ) :
    ∀ (es : List Expr) {ts : List Ty}, typeArgs T Γ es = some ts → (evalArgs C env es).Safe (HasTypes T.prog T.pkgs · ts)
  | [], ts, h => by
    rw [typeArgs] at h
    rw [evalArgs]
    cases h
    exact Safe.ret trivial
  | e :: es, ts, h => by
    rw [typeArgs] at h
    rw [evalArgs]
    simp only [Option.bind_eq_bind, Option.bind_eq_some_iff, Option.pure_def, Option.some.injEq] at h
    obtain ⟨t, h1, r, h2, rfl⟩ := h
    exact Safe.bind (eval_sound hC he e h1) fun v hv => Safe.bind (evalArgs_sound hC he es h2) fun vs hvs =>
      Safe.ret ⟨hv, hvs⟩
end

theorem evalMulti_sound (hC : CtxOk T C) {env : Env} {Γ : TEnv} (he : EnvOk T.prog T.pkgs env Γ) {e : Expr} {ts : List Ty}
    (h : typeMulti T Γ e = some ts) : (evalMulti C env e).Safe (HasTypes T.prog T.pkgs · ts) := by
  unfold typeMulti at h
  unfold evalMulti
  split at h
  · simp only [Option.bind_eq_bind, Option.bind_eq_some_iff] at h
    obtain ⟨ss, h1, h2⟩ := h
    exact Safe.bind (evalArgs_sound hC he _ h1) fun vs hvs => applyFn_sound hC he h2 hvs
  · next hn =>
    simp only [Option.bind_eq_bind, Option.bind_eq_some_iff, Option.pure_def, Option.some.injEq] at h
    obtain ⟨t, h1, rfl⟩ := h
    split
    · next f args => exact absurd rfl (hn f args)
    · exact Safe.bind (eval_sound hC he _ h1) fun v hv => Safe.ret ⟨hv, trivial⟩

/-! ## Statements -/

/-- How a statement may end that has been checked with the result `(Γ, b)` in a function with results `rs`. -/
def FlowOk (P : Program) (pkgs : List Nat) (rs : List Ty) (r : TEnv × Bool) : Flow → Prop
  | .next env => r.2 = false ∧ EnvOk P pkgs env r.1
  | .ret vs => ∃ ts, HasTypes P pkgs vs ts ∧ assignableAll P pkgs ts rs = true

theorem newVar_some {base x : Nat} {t : Ty} {Γ Γ' : TEnv} (h : newVar base x t Γ = some Γ') : Γ' = (x, t) :: Γ := by
  unfold newVar at h
  split at h
  · cases h
  · exact (Option.some.inj h).symm

theorem newVars_extends {base : Nat} : ∀ {xs : List Nat} {ts : List Ty} {Γ Γ' : TEnv},
    newVars P base xs ts Γ = some Γ' → ∃ Δ, Γ' = Δ ++ Γ
  | [], [], Γ, Γ', h => by cases h; exact ⟨[], rfl⟩
  | [], _ :: _, Γ, Γ', h => by cases h
  | _ :: _, [], Γ, Γ', h => by cases h
  | x :: xs, t :: ts, Γ, Γ', h => by
    rw [newVars] at h
    simp only [Option.bind_eq_bind, Option.bind_eq_some_iff] at h
    obtain ⟨u, _, Γ1, h2, h3⟩ := h
    obtain ⟨Δ, rfl⟩ := newVars_extends h3
    rw [newVar_some h2]
    exact ⟨Δ ++ [(x, u)], by simp⟩

theorem declare_sound {base : Nat} : ∀ {xs : List Nat} {ts : List Ty} {vs : List Val} {env : Env} {Γ Γ' : TEnv},
    newVars P base xs ts Γ = some Γ' → HasTypes P pkgs vs ts → EnvOk P pkgs env Γ →
    ∃ e, declare xs vs env = some e ∧ EnvOk P pkgs e Γ'
  | [], [], vs, env, Γ, Γ', h, hv, he => by
    cases h
    rw [hts_nil hv]
    exact ⟨env, rfl, he⟩
  | [], _ :: _, vs, env, Γ, Γ', h, hv, he => by cases h
  | _ :: _, [], vs, env, Γ, Γ', h, hv, he => by cases h
  | x :: xs, t :: ts, vs, env, Γ, Γ', h, hv, he => by
    rw [newVars] at h
    simp only [Option.bind_eq_bind, Option.bind_eq_some_iff] at h
    obtain ⟨u, h1, Γ1, h2, h3⟩ := h
    obtain ⟨v, vs, rfl, hv1, hv2⟩ := hts_cons hv
    rw [declare]
    refine declare_sound h3 hv2 ?_
    rw [newVar_some h2]
    exact ⟨rfl, declared_sound hv1 h1, he⟩

/-- A block ends with the variables it began with. -/
theorem inScope_sound {rs : List Ty} {r : TEnv × Bool} {Γ Δ : TEnv} (hr : r.1 = Δ ++ Γ) {body : Env → Prog Flow} {env : Env}
    (he : EnvOk P pkgs env Γ) (h : (body env).Safe (FlowOk P pkgs rs r)) :
    (inScope body env).Safe (FlowOk P pkgs rs (Γ, r.2)) := by
  unfold inScope
  refine Safe.bind h fun f hf => ?_
  cases f with
  | next e =>
    refine Safe.ret ⟨hf.1, ?_⟩
    have h2 := hf.2
    rw [hr] at h2
    exact h2.leave he.length
  | ret vs => exact Safe.ret hf

theorem forLoop_sound {rs : List Ty} {Γ : TEnv} {cond : Env → Prog Val} {body : Env → Prog Flow}
    (hc : ∀ env, EnvOk P pkgs env Γ → (cond env).Safe (HasType P pkgs · .bool))
    (hb : ∀ env, EnvOk P pkgs env Γ → (body env).Safe (FlowOk P pkgs rs (Γ, false))) :
    ∀ (fuel : Nat) (env : Env), EnvOk P pkgs env Γ → (forLoop fuel cond body env).Safe (FlowOk P pkgs rs (Γ, false)) := by
  intro fuel
  induction fuel with
  | zero =>
    intro env he
    unfold forLoop
    refine Safe.bind (hc env he) fun v hv => ?_
    obtain ⟨b, rfl⟩ := ht_bool hv
    cases b
    · exact Safe.ret ⟨rfl, he⟩
    · exact Safe.panic nofun
  | succ n ih =>
    intro env he
    unfold forLoop
    refine Safe.bind (hc env he) fun v hv => ?_
    obtain ⟨b, rfl⟩ := ht_bool hv
    cases b
    · exact Safe.ret ⟨rfl, he⟩
    · refine Safe.bind (hb env he) fun f hf => ?_
      cases f with
      | next e => exact ih e hf.2
      | ret vs => exact Safe.ret hf

theorem rangeLoop_sound {rs : List Ty} {Γ Δ : TEnv} {x : Nat} {b : Bool} {body : Env → Prog Flow}
    (hb : ∀ env, EnvOk P pkgs env ((x, .int) :: Γ) → (body env).Safe (FlowOk P pkgs rs (Δ ++ (x, .int) :: Γ, b))) :
    ∀ (r i : Nat) (env : Env), EnvOk P pkgs env Γ → (rangeLoop x body r i env).Safe (FlowOk P pkgs rs (Γ, false)) := by
  intro r
  induction r with
  | zero =>
    intro i env he
    exact Safe.ret ⟨rfl, he⟩
  | succ r ih =>
    intro i env he
    unfold rangeLoop
    refine Safe.bind (hb ((x, .int i) :: env) ⟨rfl, trivial, he⟩) fun f hf => ?_
    cases f with
    | next e =>
      have h2 := hf.2
      rw [show Δ ++ (x, Ty.int) :: Γ = (Δ ++ [(x, .int)]) ++ Γ by simp] at h2
      exact ih _ _ (h2.leave he.length)
    | ret vs => exact Safe.ret hf

mutual
/-- A statement only adds variables. -/
theorem checkStmt_extends {rs : List Ty} {base : Nat} : ∀ (s : Stmt) {Γ : TEnv} {r : TEnv × Bool},
    checkStmt T rs base s Γ = some r → ∃ Δ, r.1 = Δ ++ Γ
  | .define xs e, Γ, r, h => by
    rw [checkStmt] at h
    simp only [Option.bind_eq_bind, Option.bind_eq_some_iff] at h
    obtain ⟨ts, _, Γ1, h2, h3⟩ := h
    split at h3 <;> cases h3
    exact newVars_extends h2
  | .var x t e, Γ, r, h => by
    rw [checkStmt.eq_def] at h
    dsimp only at h
    split at h
    · simp only [Option.bind_eq_bind, Option.bind_eq_some_iff, Option.pure_def, Option.some.injEq] at h
      obtain ⟨_, _, _, _, Γ1, h1, rfl⟩ := h
      rw [newVar_some h1]; exact ⟨[_], rfl⟩
    · simp only [Option.bind_eq_bind, Option.bind_eq_some_iff] at h
      obtain ⟨_, _, h⟩ := h
      split at h
      · simp only [Option.bind_eq_some_iff, Option.pure_def, Option.some.injEq] at h
        obtain ⟨Γ1, h1, rfl⟩ := h
        rw [newVar_some h1]; exact ⟨[_], rfl⟩
      · cases h
    · simp only [Option.bind_eq_bind, Option.bind_eq_some_iff] at h
      obtain ⟨_, _, _, _, h⟩ := h
      split at h
      · simp only [Option.bind_eq_some_iff, Option.pure_def, Option.some.injEq] at h
        obtain ⟨Γ1, h1, rfl⟩ := h
        rw [newVar_some h1]; exact ⟨[_], rfl⟩
      · cases h
    · cases h
  | .assign l e, Γ, r, h => by
    rw [checkStmt.eq_def] at h
    dsimp only at h
    split at h
    · split at h
      · simp only [Option.bind_eq_bind, Option.bind_eq_some_iff, Option.pure_def, Option.some.injEq] at h
        obtain ⟨_, _, _, _, rfl⟩ := h
        exact ⟨[], rfl⟩
      · simp only [Option.bind_eq_bind, Option.bind_eq_some_iff] at h
        obtain ⟨_, _, _, _, h⟩ := h
        split at h <;> cases h
        exact ⟨[], rfl⟩
    · simp only [Option.bind_eq_bind, Option.bind_eq_some_iff] at h
      obtain ⟨_, _, _, _, _, _, _, _, h⟩ := h
      split at h <;> cases h
      exact ⟨[], rfl⟩
    · cases h
  | .update op l e, Γ, r, h => by
    rw [checkStmt.eq_def] at h
    dsimp only at h
    split at h
    · simp only [Option.bind_eq_bind, Option.bind_eq_some_iff] at h
      obtain ⟨_, _, _, _, h⟩ := h
      split at h <;> cases h
      exact ⟨[], rfl⟩
    · cases h
  | .expr e, Γ, r, h => by
    rw [checkStmt] at h
    simp only [Option.bind_eq_bind, Option.bind_eq_some_iff] at h
    obtain ⟨_, _, h⟩ := h
    split at h <;> cases h
    exact ⟨[], rfl⟩
  | .ret es, Γ, r, h => by
    rw [checkStmt] at h
    simp only [Option.bind_eq_bind, Option.bind_eq_some_iff] at h
    obtain ⟨_, _, h⟩ := h
    split at h <;> cases h
    exact ⟨[], rfl⟩
  | .ite c thn els, Γ, r, h => by
    rw [checkStmt] at h
    simp only [Option.bind_eq_bind, Option.bind_eq_some_iff] at h
    obtain ⟨_, _, _, _, _, _, h⟩ := h
    split at h <;> cases h
    exact ⟨[], rfl⟩
  | .loop init cond post body, Γ, r, h => by
    rw [checkStmt] at h
    simp only [Option.bind_eq_bind, Option.bind_eq_some_iff] at h
    obtain ⟨_, _, _, _, _, _, _, _, h⟩ := h
    split at h <;> cases h
    exact ⟨[], rfl⟩
  | .range x e body, Γ, r, h => by
    rw [checkStmt] at h
    simp only [Option.bind_eq_bind, Option.bind_eq_some_iff] at h
    obtain ⟨_, _, _, _, _, _, h⟩ := h
    split at h <;> cases h
    exact ⟨[], rfl⟩
  | .switch e cases, Γ, r, h => by
    rw [checkStmt] at h
    simp only [Option.bind_eq_bind, Option.bind_eq_some_iff, Option.pure_def, Option.some.injEq] at h
    obtain ⟨_, _, _, _, rfl⟩ := h
    exact ⟨[], rfl⟩

theorem checkStmts_extends {rs : List Ty} {base : Nat} : ∀ (ss : List Stmt) {Γ : TEnv} {r : TEnv × Bool},
    checkStmts T rs base ss Γ = some r → ∃ Δ, r.1 = Δ ++ Γ
  | [], Γ, r, h => by
    rw [checkStmts] at h
    cases h
    exact ⟨[], rfl⟩
  | s :: ss, Γ, r, h => by
    rw [checkStmts] at h
    simp only [Option.bind_eq_bind, Option.bind_eq_some_iff, Option.pure_def, Option.some.injEq] at h
    obtain ⟨a, h1, b, h2, rfl⟩ := h
    obtain ⟨Δ, h3⟩ := checkStmt_extends s h1
    obtain ⟨Δ', h4⟩ := checkStmts_extends ss h2
    exact ⟨Δ' ++ Δ, by simp only [h4, h3, List.append_assoc]⟩
end

/-- A call of `panic` never goes on. -/
theorem isPanic_sound (hC : CtxOk T C) {env : Env} {Γ : TEnv} (he : EnvOk T.prog T.pkgs env Γ) {e : Expr} {ts : List Ty}
    (h : typeMulti T Γ e = some ts) (hp : isPanic T Γ e = true) : (evalMulti C env e).Safe fun _ => False := by
  unfold isPanic at hp
  split at hp
  · next n args =>
    simp only [Bool.and_eq_true, decide_eq_true_eq] at hp
    obtain ⟨hb, rfl⟩ := hp
    simp only [typeMulti, Option.bind_eq_bind, Option.bind_eq_some_iff] at h
    obtain ⟨ss, h1, h2⟩ := h
    refine Safe.bind (evalArgs_sound hC he _ h1) fun vs hvs => ?_
    simp only [callTy, hb, if_true] at h2
    simp only [isBuiltin, Bool.and_eq_true, Option.isNone_iff_eq_none, Bool.not_eq_true'] at hb
    have : getVar C env n!"panic" = none := by
      simp only [getVar, he.get_none hb.1, hC.pkg]
      exact hC.undeclared _ hb.2
    simp only [applyFn, this]
    exact panic_sound C h2 hvs
  · cases hp

mutual
theorem exec_sound (hC : CtxOk T C) {rs : List Ty} : ∀ (s : Stmt) {base : Nat} {Γ : TEnv} {r : TEnv × Bool} {env : Env},
    checkStmt T rs base s Γ = some r → EnvOk T.prog T.pkgs env Γ →
    (exec C s env).Safe (FlowOk T.prog T.pkgs rs r)
  | .define xs e, base, Γ, r, env, h, he => by
    rw [checkStmt] at h
    rw [exec]
    simp only [Option.bind_eq_bind, Option.bind_eq_some_iff] at h
    obtain ⟨ts, h1, Γ1, h2, h3⟩ := h
    split at h3 <;> cases h3
    refine Safe.bind (evalMulti_sound hC he h1) fun vs hvs => ?_
    obtain ⟨e', h4, h5⟩ := declare_sound h2 hvs he
    exact Safe.bind (P := (EnvOk T.prog T.pkgs · Γ1)) (Safe.orFault h4 h5) fun e he => Safe.ret ⟨rfl, he⟩
  | .var x t e, base, Γ, r, env, h, he => by
    rw [checkStmt.eq_def] at h
    dsimp only at h
    rw [exec.eq_def]
    dsimp only
    split at h
    · simp only [Option.bind_eq_bind, Option.bind_eq_some_iff, Option.pure_def, Option.some.injEq] at h
      obtain ⟨s, h1, u, h2, Γ1, h3, rfl⟩ := h
      rw [newVar_some h3]
      exact Safe.bind (eval_sound hC he _ h1) fun v hv => Safe.ret ⟨rfl, rfl, declared_sound hv h2, he⟩
    · simp only [Option.bind_eq_bind, Option.bind_eq_some_iff] at h
      obtain ⟨u, h1, h⟩ := h
      split at h
      · next hu =>
        simp only [Option.bind_eq_some_iff, Option.pure_def, Option.some.injEq] at h
        obtain ⟨Γ1, h3, rfl⟩ := h
        rw [newVar_some h3]
        obtain ⟨w, hw, ht⟩ := zeroOf_sound (pkgs := T.pkgs) h1 hu
        exact Safe.bind (P := (HasType T.prog T.pkgs · u)) (Safe.orFault hw ht) fun v hv => Safe.ret ⟨rfl, rfl, hv, he⟩
      · cases h
    · simp only [Option.bind_eq_bind, Option.bind_eq_some_iff] at h
      obtain ⟨s, h1, u, h2, h⟩ := h
      split at h
      · next ha =>
        simp only [Option.bind_eq_some_iff, Option.pure_def, Option.some.injEq] at h
        obtain ⟨Γ1, h3, rfl⟩ := h
        rw [newVar_some h3]
        refine Safe.bind (eval_sound hC he _ h1) fun v hv => ?_
        obtain ⟨w, hw, ht⟩ := coerce_sound h2 hv ha
        exact Safe.bind (P := (HasType T.prog T.pkgs · u)) (Safe.orFault hw ht) fun v hv => Safe.ret ⟨rfl, rfl, hv, he⟩
      · cases h
    · cases h
  | .assign l e, base, Γ, r, env, h, he => by
    rw [checkStmt.eq_def] at h
    dsimp only at h
    rw [exec.eq_def]
    dsimp only
    split at h
    · next x =>
      dsimp only
      split at h
      · next hx =>
        rw [if_pos hx]
        simp only [Option.bind_eq_bind, Option.bind_eq_some_iff, Option.pure_def, Option.some.injEq] at h
        obtain ⟨s, h1, _, _, rfl⟩ := h
        exact Safe.bind (eval_sound hC he _ h1) fun v hv => Safe.ret ⟨rfl, he⟩
      · next hx =>
        rw [if_neg hx]
        simp only [Option.bind_eq_bind, Option.bind_eq_some_iff] at h
        obtain ⟨s, h1, t, h2, h⟩ := h
        split at h <;> cases h
        next ha =>
        refine Safe.bind (eval_sound hC he _ h1) fun v hv => ?_
        obtain ⟨old, h3, h4⟩ := he.get h2
        refine Safe.bind (P := (HasType T.prog T.pkgs · t)) (Safe.orFault h3 h4) fun old ho => ?_
        obtain ⟨w, h5, h6⟩ := coerceLike_sound ho hv ha
        refine Safe.bind (P := (HasType T.prog T.pkgs · t)) (Safe.orFault h5 h6) fun w hw => ?_
        obtain ⟨e', h7, h8⟩ := he.set h2 hw
        exact Safe.bind (P := (EnvOk T.prog T.pkgs · Γ)) (Safe.orFault h7 h8) fun e he => Safe.ret ⟨rfl, he⟩
    · next a i =>
      simp only [Option.bind_eq_bind, Option.bind_eq_some_iff] at h
      obtain ⟨s, h1, k, h2, v, h3, t, h4, h⟩ := h
      split at h <;> cases h
      next ha =>
      have hi : isIndex k = true := by
        unfold indexTy at h4
        split at h4
        · assumption
        · cases h4
      refine Safe.bind (eval_sound hC he _ h1) fun x hx => Safe.bind (eval_sound hC he _ h2) fun y hy =>
        Safe.bind (eval_sound hC he _ h3) fun z hz => ?_
      obtain ⟨n, hn⟩ := toInt_index hy hi
      exact Safe.bind (Safe.toInt hn) fun n _ => Safe.bind (setIndex_sound h4 ha.1 hx hz ha.2 n) fun _ _ =>
        Safe.ret ⟨rfl, he⟩
    · cases h
  | .update op l e, base, Γ, r, env, h, he => by
    rw [checkStmt.eq_def] at h
    dsimp only at h
    rw [exec.eq_def]
    dsimp only
    split at h
    · next x =>
      simp only [Option.bind_eq_bind, Option.bind_eq_some_iff] at h
      obtain ⟨t, h1, s, h2, h⟩ := h
      split at h <;> cases h
      next ha =>
      obtain ⟨old, h3, h4⟩ := he.get h1
      refine Safe.bind (P := (HasType T.prog T.pkgs · t)) (Safe.orFault h3 h4) fun old ho => ?_
      refine Safe.bind (eval_sound hC he _ h2) fun v hv => Safe.bind (applyOp_sound ha ho hv) fun w hw => ?_
      obtain ⟨e', h7, h8⟩ := he.set h1 hw
      exact Safe.bind (P := (EnvOk T.prog T.pkgs · Γ)) (Safe.orFault h7 h8) fun e he => Safe.ret ⟨rfl, he⟩
    · cases h
  | .expr e, base, Γ, r, env, h, he => by
    rw [checkStmt] at h
    rw [exec]
    simp only [Option.bind_eq_bind, Option.bind_eq_some_iff] at h
    obtain ⟨ts, h1, h⟩ := h
    split at h <;> cases h
    cases hp : isPanic T Γ e with
    | true => exact Safe.bind (isPanic_sound hC he h1 hp) fun _ h => h.elim
    | false => exact Safe.bind (evalMulti_sound hC he h1) fun _ _ => Safe.ret ⟨rfl, he⟩
  | .ret es, base, Γ, r, env, h, he => by
    rw [checkStmt] at h
    rw [exec]
    simp only [Option.bind_eq_bind, Option.bind_eq_some_iff] at h
    obtain ⟨ts, h1, h⟩ := h
    split at h <;> cases h
    next ha =>
    exact Safe.bind (evalArgs_sound hC he _ h1) fun vs hvs => Safe.ret ⟨ts, hvs, ha⟩
  | .ite c thn els, base, Γ, r, env, h, he => by
    rw [checkStmt] at h
    rw [exec]
    simp only [Option.bind_eq_bind, Option.bind_eq_some_iff] at h
    obtain ⟨t, h1, a, h2, b, h3, h⟩ := h
    split at h <;> cases h
    next ht =>
    subst ht
    refine Safe.bind (eval_sound hC he _ h1) fun v hv => ?_
    obtain ⟨q, rfl⟩ := ht_bool hv
    obtain ⟨Δ1, hd1⟩ := checkStmts_extends thn h2
    obtain ⟨Δ2, hd2⟩ := checkStmts_extends els h3
    cases q
    · refine Safe.mono (inScope_sound hd2 he (execs_sound hC els h3 he)) fun f hf => ?_
      cases f with
      | next e =>
        have h0 : b.2 = false := hf.1
        exact ⟨by simp only [h0, Bool.and_false], hf.2⟩
      | ret vs => exact hf
    · refine Safe.mono (inScope_sound hd1 he (execs_sound hC thn h2 he)) fun f hf => ?_
      cases f with
      | next e =>
        have h0 : a.2 = false := hf.1
        exact ⟨by simp only [h0, Bool.false_and], hf.2⟩
      | ret vs => exact hf
  | .loop init cond post body, base, Γ, r, env, h, he => by
    rw [checkStmt] at h
    rw [exec]
    simp only [Option.bind_eq_bind, Option.bind_eq_some_iff] at h
    obtain ⟨i, h1, t, h2, b, h3, q, h4, h⟩ := h
    split at h <;> cases h
    next hh =>
    obtain ⟨rfl, hq⟩ := hh
    obtain ⟨Δ1, hd1⟩ := checkStmts_extends init h1
    obtain ⟨Δ2, hd2⟩ := checkStmts_extends body h3
    refine inScope_sound (r := (i.1, false)) hd1 he ?_
    refine Safe.bind (execs_sound hC init h1 he) fun f hf => ?_
    cases f with
    | ret vs => exact Safe.ret hf
    | next e =>
      refine forLoop_sound (fun env he => eval_sound hC he cond h2) (fun env he => ?_) _ e hf.2
      refine Safe.bind (inScope_sound hd2 he (execs_sound hC body h3 he)) fun f hf => ?_
      cases f with
      | ret vs => exact Safe.ret hf
      | next e =>
        refine Safe.mono (execs_sound hC post h4 hf.2) fun f hf => ?_
        cases f with
        | ret vs => exact hf
        | next e => exact ⟨rfl, hq ▸ hf.2⟩
  | .range x e body, base, Γ, r, env, h, he => by
    rw [checkStmt] at h
    rw [exec]
    simp only [Option.bind_eq_bind, Option.bind_eq_some_iff] at h
    obtain ⟨t, h1, Γ1, h2, b, h3, h⟩ := h
    split at h <;> cases h
    next ht =>
    have e1 := newVar_some h2
    subst e1
    obtain ⟨Δ, hd⟩ := checkStmts_extends body h3
    have hb : ∀ env, EnvOk T.prog T.pkgs env ((x, .int) :: Γ) →
        (execs C body env).Safe (FlowOk T.prog T.pkgs rs (Δ ++ (x, .int) :: Γ, b.2)) := by
      intro env he
      have := execs_sound hC body h3 he
      rw [← hd]
      exact this
    refine Safe.bind (eval_sound hC he e h1) fun v hv => ?_
    rcases isSlice_iff ht with rfl | rfl
    · obtain ⟨s, rfl⟩ := ht_bytes hv
      exact rangeLoop_sound hb _ _ _ he
    · obtain ⟨s, rfl⟩ := ht_words hv
      exact rangeLoop_sound hb _ _ _ he
  | .switch e cs, base, Γ, r, env, h, he => by
    rw [checkStmt] at h
    rw [exec]
    simp only [Option.bind_eq_bind, Option.bind_eq_some_iff, Option.pure_def, Option.some.injEq] at h
    obtain ⟨t, h1, _, h2, rfl⟩ := h
    exact Safe.bind (eval_sound hC he e h1) fun v hv => execCases_sound hC cs h2 hv he

theorem execs_sound (hC : CtxOk T C) {rs : List Ty} : ∀ (ss : List Stmt) {base : Nat} {Γ : TEnv} {r : TEnv × Bool} {env : Env},
    checkStmts T rs base ss Γ = some r → EnvOk T.prog T.pkgs env Γ →
    (execs C ss env).Safe (FlowOk T.prog T.pkgs rs r)
  | [], base, Γ, r, env, h, he => by
    rw [checkStmts] at h
    rw [execs]
    cases h
    exact Safe.ret ⟨rfl, he⟩
  | s :: ss, base, Γ, r, env, h, he => by
    rw [checkStmts] at h
    rw [execs]
    simp only [Option.bind_eq_bind, Option.bind_eq_some_iff, Option.pure_def, Option.some.injEq] at h
    obtain ⟨a, h1, b, h2, rfl⟩ := h
    refine Safe.bind (exec_sound hC s h1 he) fun f hf => ?_
    cases f with
    | ret vs => exact Safe.ret hf
    | next e =>
      refine Safe.mono (execs_sound hC ss h2 hf.2) fun f hf' => ?_
      cases f with
      | ret vs => exact hf'
      | next e' =>
        refine ⟨?_, hf'.2⟩
        dsimp only
        split
        · exact hf.1
        · exact hf'.1

theorem execCases_sound (hC : CtxOk T C) {rs : List Ty} : ∀ (cs : List (Expr × List Stmt × Bool)) {t : Ty} {Γ : TEnv} {u : Unit}
    {v : Val} {thr : Bool} {env : Env}, checkCases T rs t cs Γ = some u → HasType T.prog T.pkgs v t →
    EnvOk T.prog T.pkgs env Γ → (execCases C v thr cs env).Safe (FlowOk T.prog T.pkgs rs (Γ, false))
  | [], t, Γ, u, v, thr, env, h, hv, he => by
    rw [execCases]
    exact Safe.ret ⟨rfl, he⟩
  | (w, body, ft) :: cs, t, Γ, u, v, thr, env, h, hv, he => by
    rw [checkCases] at h
    rw [execCases]
    simp only [Option.bind_eq_bind, Option.bind_eq_some_iff] at h
    obtain ⟨s, h1, b, h2, _, h3, h⟩ := h
    split at h <;> cases h
    next hh =>
    obtain ⟨Δ, hd⟩ := checkStmts_extends body h2
    have key : ((do (← inScope (execs C body) env).andThen fun env =>
          if ft then execCases C v true cs env else .ret (.next env)) : Prog Flow).Safe
        (FlowOk T.prog T.pkgs rs (Γ, false)) := by
      refine Safe.bind (inScope_sound hd he (execs_sound hC body h2 he)) fun f hf => ?_
      cases f with
      | ret vs => exact Safe.ret hf
      | next e =>
        simp only [Flow.andThen]
        split
        · exact execCases_sound hC cs h3 hv hf.2
        · exact Safe.ret ⟨rfl, hf.2⟩
    split
    · exact key
    · refine Safe.bind (eval_sound hC he w h1) fun x hx => ?_
      obtain ⟨c, hc⟩ := binAny_eq_sound hh.1 hv hx
      refine Safe.bind (P := fun z => ∃ c, z = .bool c) (Safe.orFault hc ⟨c, rfl⟩) fun z hz => ?_
      obtain ⟨c, rfl⟩ := hz
      cases c
      · exact execCases_sound hC cs h3 hv he
      · exact key
end

/-! ## Programs -/

/-- The package-level variables have values of their types. -/
def VarsOk (P : Program) (pkgs : List Nat) (vars : List Nat → Option Val) : Prop :=
  ∀ p n t, pkgs.contains p = true → P.isVar p n = true → (P.varDecl p n).bind (resolve P p) = some t →
    ∃ v, vars [p, n] = some v ∧ HasType P pkgs v t

theorem const_eq (P : Program) (pkg n : Nat) :
    P.const pkg n = (P.constDecl pkg n).map fun d => if d.1.isSome then .int d.2 else .const d.2 := by
  unfold Program.const Program.constDecl
  generalize (P.filter fun F => F.pkg == pkg) = L
  induction L with
  | nil => rfl
  | cons F L ih =>
    simp only [List.findSome?_cons]
    cases h1 : F.consts.find? fun c => c.1 == n with
    | none => simpa only [Option.bind_none] using ih
    | some c =>
      simp only [Option.bind_some]
      cases h2 : (fileConsts F).lookup n with
      | none => simpa only [Option.map_none] using ih
      | some x => rfl

theorem global_sound {W : World} (hv : VarsOk W.prog pkgs W.vars) {p n : Nat} {t : Ty}
    (h : globalTy W.prog pkgs p n = some t) :
    ∃ v, W.prog.global W.cpu W.vars [p, n] = some v ∧ HasType W.prog pkgs v t := by
  unfold globalTy at h
  split at h
  · next hp =>
    simp only [Program.global, const_eq]
    split at h
    · next x hc => cases h; rw [hc]; exact ⟨.const x, rfl, rfl⟩
    · next g x hc =>
      rw [hc]
      refine ⟨.int x, rfl, ?_⟩
      rw [Option.bind_eq_some_iff] at h
      obtain ⟨u, _, h⟩ := h
      split at h
      · split at h
        · next hh => cases h; exact hh.1
        · cases h
      · split at h
        · cases h; trivial
        · cases h
      · cases h
    · next hc =>
      rw [hc]
      simp only [Option.map_none]
      split at h
      · next hi => rw [if_pos hi]; exact hv _ _ _ hp hi h
      · next hi =>
        rw [if_neg hi]
        split at h
        · next hs =>
          rw [if_pos hs]
          split at h
          · next b d hd => cases h; exact ⟨.table b d, hd, rfl⟩
          · cases h
        · next hs =>
          rw [if_neg hs]
          split at h
          · cases h
          · rw [Option.map_eq_some_iff] at h
            obtain ⟨f, hf, rfl⟩ := h
            exact ⟨.fn p n, by rw [hf]; rfl, rfl, rfl⟩
  · cases h

theorem global_undeclared {W : World} {p n : Nat} (h : declaredName W.prog p n = false) :
    W.prog.global W.cpu W.vars [p, n] = none := by
  simp only [declaredName, Bool.or_eq_false_iff, Bool.and_eq_false_iff, Option.isSome_eq_false_iff, Option.isNone_iff_eq_none,
    beq_eq_false_iff_ne] at h
  obtain ⟨⟨⟨h1, h2⟩, h3⟩, h4⟩ := h
  simp only [Program.global, const_eq, h1, h2, h4, Option.map_none, Bool.false_eq_true, if_false]
  rw [if_neg]
  rintro ⟨rfl, h5⟩
  rcases h3 with h3 | h3
  · exact h3 rfl
  · rw [h3] at h5; cases h5

theorem func_mem {P : Program} {pkg f : Nat} {g : Func} (h : P.func pkg f = some g) :
    ∃ F, F ∈ P ∧ F.pkg = pkg ∧ g ∈ F.funcs ∧ g.name = f := by
  obtain ⟨F, h1, h2⟩ := List.exists_of_findSome?_eq_some h
  have h3 := List.mem_filter.1 h1
  exact ⟨F, h3.1, by simpa using h3.2, List.mem_of_find?_eq_some h2, by simpa using List.find?_some h2⟩

/-- A function of a program that compiles has been checked. -/
theorem compiles_func {P : Program} (hP : compiles P pkgs = true) {pkg f : Nat} {g : Func} (hp : pkgs.contains pkg = true)
    (h : P.func pkg f = some g) : ∃ F imports, g.name = f ∧ checkFunc ⟨P, pkgs, pkg, imports⟩ F g = true := by
  obtain ⟨F, h1, rfl, h3, h4⟩ := func_mem h
  simp only [compiles, Bool.and_eq_true, List.all_eq_true] at hP
  have h5 := hP.2 F h1
  rw [hp] at h5
  simp only [checkFile, Bool.not_true, Bool.false_or, Bool.and_eq_true, List.all_eq_true] at h5
  exact ⟨F, _, h4, h5.2 g h3⟩

theorem resolveAll_nil {pkg : Nat} {l : List (Nat × GoType)} (h : resolveAll P pkg l = some []) : l = [] := by
  cases l with
  | nil => rfl
  | cons a l =>
    simp only [resolveAll, Option.bind_eq_bind, Option.bind_eq_some_iff, Option.pure_def, Option.some.injEq] at h
    obtain ⟨_, _, _, _, h⟩ := h
    cases h

theorem call_sound {W : World} (hP : compiles W.prog pkgs = true) (hv : VarsOk W.prog pkgs W.vars) : ∀ (d p g : Nat)
    (ps rs : List Ty) (vs : List Val) (ts : List Ty), sigOf W.prog pkgs p g = some (ps, rs) → HasTypes W.prog pkgs vs ts →
    ArgsOk W.prog pkgs p g ts ps → (W.call d p g vs).Safe (HasTypes W.prog pkgs · rs) := by
  intro d
  induction d with
  | zero => intros; exact Safe.panic nofun
  | succ d ih =>
    intro p g ps rs vs ts hs hvs ha
    rw [World.call]
    unfold sigOf at hs
    split at hs
    · cases hs
    next hg =>
    cases hf : W.prog.func p g with
    | none =>
      rw [hf] at hs
      dsimp only at hs ⊢
      split at hs
      · have hx : isExternal W.prog p g = true := by simp only [isExternal, hf]
        have : ts = ps := by
          rcases ha.1 with h | h
          · rw [hx] at h; cases h
          · exact h
        exact external_sound hs (this ▸ hvs)
      · cases hs
    | some f =>
      rw [hf] at hs
      dsimp only at hs ⊢
      split at hs
      · next hp =>
        obtain ⟨F, imports, hn, hc⟩ := compiles_func hP hp hf
        have hsig : sigOf W.prog pkgs p g = some (ps, rs) := by
          unfold sigOf
          rw [if_neg hg, hf]
          dsimp only
          rw [if_pos hp]
          exact hs
        unfold checkFunc at hc
        cases hb : f.body with
        | none =>
          rw [hb] at hc
          simp only [Bool.and_eq_true, decide_eq_true_eq, hn] at hc
          rw [hsig] at hc
          have hx : isExternal W.prog p g = true := by simp only [isExternal, hf, hb, Option.isNone_none]
          have : ts = ps := by
            rcases ha.1 with h | h
            · rw [hx] at h; cases h
            · exact h
          exact external_sound hc.1 (this ▸ hvs)
        | some b =>
          rw [hb] at hc
          simp only [Bool.and_eq_true] at hc
          obtain ⟨_, hc⟩ := hc
          simp only [Option.bind_eq_bind, Option.bind_eq_some_iff, Option.pure_def, Option.some.injEq, Prod.mk.injEq] at hs
          obtain ⟨a, h1, r, h2, rfl, rfl⟩ := hs
          simp only [startEnv, hn, if_neg hg, h1, h2, Option.bind_eq_bind, Option.bind_some, Option.pure_def] at hc
          split at hc
          · next q hq =>
            obtain ⟨e, h3, h4, _⟩ := coerceAll_sound h1 hvs ha.2
            unfold runBody
            refine Safe.bind (P := (EnvOk W.prog pkgs · ((f.params.map Prod.fst).zip a))) (Safe.orFault h3 h4) fun e he => ?_
            have hC : CtxOk ⟨W.prog, pkgs, p, imports⟩
                ⟨p, W.prog.global W.cpu W.vars, W.call d, W.fuel, W.fresh⟩ := by
              refine ⟨rfl, fun _ _ _ h => global_sound hv h, fun _ h => global_undeclared h, ?_, ih⟩
              rintro n (rfl | rfl)
              · exact ⟨_, rfl⟩
              · exact ⟨_, rfl⟩
            refine Safe.bind (execs_sound hC b hq he) fun fl hfl => ?_
            cases fl with
            | ret ws =>
              obtain ⟨us, h5, h6⟩ := hfl
              obtain ⟨e', h7, _, h8⟩ := coerceAll_sound h2 h5 h6
              exact Safe.bind (P := fun e : Env => HasTypes W.prog pkgs (e.map Prod.snd) r) (Safe.orFault h7 h8)
                fun e he => Safe.ret he
            | next e' =>
              have h9 : r = [] := by
                have := hfl.1
                rw [this, Bool.or_false, List.isEmpty_iff] at hc
                exact hc
              subst h9
              rw [resolveAll_nil h2]
              exact Safe.ret trivial
          · cases hc
      · cases hs

end SVB.Go
