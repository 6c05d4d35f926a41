import Verif.Proofs.GoNames
import Verif.Proofs.Arith

/-! # Tactics for comparing the interpreted Go files with the model -/

set_option autoImplicit false

namespace SVB
open Prog

theorem leadingZeros32_le (x : U32) : leadingZeros32 x ≤ 32 := by unfold leadingZeros32; omega

theorem encodeSize_range (num : U32) :
    1 ≤ goMax 1 (4 - goDiv (leadingZeros32 num) 8) ∧ goMax 1 (4 - goDiv (leadingZeros32 num) 8) ≤ 4 := by
  have h := leadingZeros32_le num
  have e : goDiv (leadingZeros32 num) 8 = ((leadingZeros32 num / 8 : Nat) : Int) := rfl
  rw [e]
  unfold goMax
  split <;> omega

theorem leaves_encodeOne (num : U32) (out : Bytes) : (encodeOne num out).Leaves fun r => 1 ≤ r ∧ r ≤ 4 := by
  unfold encodeOne
  simp only [bind_eq, pure_eq]
  generalize hs : goMax 1 (4 - goDiv (leadingZeros32 num) 8) = size
  have h := encodeSize_range num
  rw [hs] at h
  repeat' first | exact h | split | refine (leaves_true _).bind fun _ _ => ?_

end SVB

namespace SVB.Go

section
variable (C : Ctx) (env : Env) (a b : Expr)
@[go] theorem eval_add : eval C env (.bin .add a b) =
    (eval C env a).bind fun x => (eval C env b).bind fun y => orFault (binAny .add x y) := rfl
@[go] theorem eval_sub : eval C env (.bin .sub a b) =
    (eval C env a).bind fun x => (eval C env b).bind fun y => orFault (binAny .sub x y) := rfl
@[go] theorem eval_mul : eval C env (.bin .mul a b) =
    (eval C env a).bind fun x => (eval C env b).bind fun y => orFault (binAny .mul x y) := rfl
@[go] theorem eval_div : eval C env (.bin .div a b) =
    (eval C env a).bind fun x => (eval C env b).bind fun y => orFault (binAny .div x y) := rfl
@[go] theorem eval_and : eval C env (.bin .and a b) =
    (eval C env a).bind fun x => (eval C env b).bind fun y => orFault (binAny .and x y) := rfl
@[go] theorem eval_or : eval C env (.bin .or a b) =
    (eval C env a).bind fun x => (eval C env b).bind fun y => orFault (binAny .or x y) := rfl
@[go] theorem eval_andNot : eval C env (.bin .andNot a b) =
    (eval C env a).bind fun x => (eval C env b).bind fun y => orFault (binAny .andNot x y) := rfl
@[go] theorem eval_shl : eval C env (.bin .shl a b) =
    (eval C env a).bind fun x => (eval C env b).bind fun y => applyOp .shl x y := rfl
@[go] theorem eval_shr : eval C env (.bin .shr a b) =
    (eval C env a).bind fun x => (eval C env b).bind fun y => applyOp .shr x y := rfl
@[go] theorem eval_eq : eval C env (.bin .eq a b) =
    (eval C env a).bind fun x => (eval C env b).bind fun y => orFault (binAny .eq x y) := rfl
@[go] theorem eval_ne : eval C env (.bin .ne a b) =
    (eval C env a).bind fun x => (eval C env b).bind fun y => orFault (binAny .ne x y) := rfl
@[go] theorem eval_lt : eval C env (.bin .lt a b) =
    (eval C env a).bind fun x => (eval C env b).bind fun y => orFault (binAny .lt x y) := rfl
@[go] theorem eval_le : eval C env (.bin .le a b) =
    (eval C env a).bind fun x => (eval C env b).bind fun y => orFault (binAny .le x y) := rfl
@[go] theorem eval_gt : eval C env (.bin .gt a b) =
    (eval C env a).bind fun x => (eval C env b).bind fun y => orFault (binAny .gt x y) := rfl
@[go] theorem eval_ge : eval C env (.bin .ge a b) =
    (eval C env a).bind fun x => (eval C env b).bind fun y => orFault (binAny .ge x y) := rfl
end

attribute [go]
  execs_nil exec_define exec_var_value exec_var_zero exec_assign_var exec_assign_index exec_update exec_expr exec_ret 
  exec_ite exec_loop exec_range exec_switch execCases_nil execCases_through execCases_test eval_var eval_num eval_str 
  eval_type eval_dot eval_land eval_call eval_index eval_from eval_upto eval_range evalArgs_nil evalArgs_cons 
  evalMulti_call evalMulti_var evalMulti_num evalMulti_bin evalMulti_index evalMulti_from evalMulti_range 
  indexVal_bytes indexVal_words indexVal_row setIndex_bytes setIndex_words fromVal_bytes 
  fromVal_words rangeVal_bytes rangeVal_words runBody_eq applyFn_dot one_eq inScope_eq andThen_next andThen_ret 
  branch_decide branch_bool orFault_some declare Env.get Env.set Env.leave getVar applyFn builtin Expr.path binAny applyOp 
  binVal binInt binBits Op.isShift Op.isCmp opCmp opInt opBits opConst opShift Val.declared Val.toInt Val.toBits 
  coerce coerceAll coerceLike zeroOf convert isNumType Prog.bind_eq Prog.ret_bind Prog.pure_eq Prog.bind_assoc 
  Prog.panic_bind ite_bind Option.bind_eq_bind Option.bind_some Option.map_some Option.pure_def List.map_cons 
  List.map_nil List.nil_append List.cons_append if_true if_false Bool.false_eq_true false_or or_false true_or or_true 
  List.length_cons List.length_nil List.drop_zero List.drop_succ_cons List.any_cons List.any_nil Bool.or_true 
  Bool.true_or Bool.or_false Bool.false_or beq_self_eq_true List.isEmpty_nil List.isEmpty_cons Nat.sub_self 
  Int.ofNat_eq_natCast Int.cast_ofNat_Int decide_eq_true_eq 

/-- Run the interpreter as far as the program text determines it.  Extra lemmas say what called functions do. -/
syntax "go_simp" ("[" Lean.Parser.Tactic.simpLemma,* "]")? : tactic
macro_rules
  | `(tactic| go_simp) => `(tactic| go_simp [])
  | `(tactic| go_simp [$ls,*]) => `(tactic| simp -implicitDefEqProofs only [go, execs_cons, reduceIte, reduceCtorEq, Nat.reduceEqDiff, Nat.reduceAdd, Nat.reduceSub, Nat.reduceBEq, Nat.reduceBNe, Int.reduceToNat, Int.reduceLE, Int.reduceLT, Int.reduceEq, Int.reduceNeg, Int.reduceSub, Int.reduceAdd, Int.reduceMul, $ls,*])

/-- The same on the left-hand side, and only to the end of the current statement. -/
syntax "go_lhs" ("[" Lean.Parser.Tactic.simpLemma,* "]")? : tactic
macro_rules
  | `(tactic| go_lhs) => `(tactic| go_lhs [])
  | `(tactic| go_lhs [$ls,*]) => `(tactic| conv => lhs; simp -implicitDefEqProofs only [go, reduceIte, reduceCtorEq, Nat.reduceEqDiff, Nat.reduceAdd, Nat.reduceSub, Nat.reduceBEq, Nat.reduceBNe, Int.reduceToNat, Int.reduceLE, Int.reduceLT, Int.reduceEq, Int.reduceNeg, Int.reduceSub, Int.reduceAdd, Int.reduceMul, $ls,*])

/-- Remove the wrap-around of `int` arithmetic where the bounds in the context exclude it. -/
macro "go_int" : tactic => `(tactic| try conv => lhs; simp (disch := omega) only [int64_eq])

/-- Both sides begin with the same step: keep what is known of its result. -/
macro "go_peel" : tactic => `(tactic| ((repeat rewrite [Prog.bind_assoc]); with_reducible first
  | refine bind_congr' (leaves_encodeOne _ _) fun _ _ => ?_
  | refine bind_congr' (leaves_controlByteToSize _) fun _ _ => ?_
  | refine bind_congr' (leaves_controlByteToSizeTwo _) fun _ _ => ?_
  | refine bind_congr' (leaves_from _ _) fun _ _ => ?_
  | refine bind_congr' (leaves_range _ _ _) fun _ _ => ?_
  | refine bind_congr' (leaves_getW _ _) fun _ _ => ?_
  | refine bind_congr' (leaves_getB _ _) fun _ _ => ?_
  | refine bind_congr' (leaves_setB _ _ _) fun _ _ => ?_
  | refine bind_congr_all fun _ => ?_))

/-- Run one statement and match its memory accesses with those of the model. -/
syntax "go_stmt" ("[" Lean.Parser.Tactic.simpLemma,* "]")? : tactic
macro_rules
  | `(tactic| go_stmt) => `(tactic| go_stmt [])
  | `(tactic| go_stmt [$ls,*]) => `(tactic| (rw [execs_cons]; go_lhs [$ls,*]; go_int; repeat (go_peel; go_int)))

end SVB.Go
