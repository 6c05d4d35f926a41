import Verif.Proofs.ScriptTables
import Verif.Model.Util

/-! # `RandUint32` and `GenUint32` as the interpreter runs them -/

set_option autoImplicit false
set_option maxRecDepth 100000

namespace SVB.Script.Rand

open SVB.Sources

/-- The files with these functions. -/
def files : List File := [Files.util, Files.rand]

def vars : List ((Nat × Nat) × V) := [((n!"util", n!"generators"), .list [.clos 0, .clos 1, .clos 2, .clos 3])]

def ctx : Ctx := ⟨files, vars⟩

/-- A state after initialisation: `n` numbers have been drawn. -/
def st (s : St) (n : Nat) : St :=
  ⟨Tables.genClosures, s.bufs, s.defers, s.flags, s.parsed, s.files, s.stdout, s.input, s.line, n, s.consts, s.fns, s.generated⟩

theorem init (w : World) (d : Nat) : initVars (d + 10) files (globals files) [] w {} = .ok vars (st {} 0) := by
  kernel_rfl

/-! ## `RandUint32` -/

def pick : Expr := .index (.var n!"generators") (.bin .rem (.call (.dot (.var n!"rand") n!"Int") [] false) (.num 4))

theorem pick_eval (d : Nat) (w : World) (s : St) (n : Nat) :
    (Interp.depth ctx (d + 10)).eval n!"util" [] pick w (st s n) =
      M.bind (M.bind (indexOfVal (.list [.clos 0, .clos 1, .clos 2, .clos 3])
        (.int .int (Kind.int.wrap (Int.tmod (Int.ofNat (w.int63 n)) 4)))) fun v => M.pure [v]) one w (st s (n + 1)) := by
  kernel_rfl

theorem pick_run (d : Nat) (w : World) (s : St) (n : Nat) :
    (Interp.depth ctx (d + 10)).eval n!"util" [] pick w (st s n) = .ok (.clos (w.int63 n % 4)) (st s (n + 1)) := by
  rw [pick_eval]
  have h : Int.tmod (Int.ofNat (w.int63 n)) 4 = Int.ofNat (w.int63 n % 4) := rfl
  have b : w.int63 n % 4 < 4 := Nat.mod_lt _ (by decide)
  rw [h]
  generalize w.int63 n % 4 = k at b ⊢
  match k, b with
  | 0, _ => show _ = _; kernel_rfl
  | 1, _ => show _ = _; kernel_rfl
  | 2, _ => show _ = _; kernel_rfl
  | 3, _ => show _ = _; kernel_rfl
  | _ + 4, h => omega

/-- `r % (hi - lo + 1) + lo` -/
def draw (r lo hi : Int) : Int :=
  Kind.u32.wrap (Kind.u32.wrap (Int.tmod r (Kind.u32.wrap (Kind.u32.wrap (hi - lo) + 1))) + lo)

theorem gen_run (d : Nat) (w : World) (s : St) (n : Nat) :
    (Interp.depth ctx (d + 20)).apply (.clos 0) [] w (st s n) = .ok [.int .u32 (draw (w.uint32 n).toNat 0 256)] (st s (n + 1)) ∧
    (Interp.depth ctx (d + 20)).apply (.clos 1) [] w (st s n) = .ok [.int .u32 (draw (w.uint32 n).toNat 256 65536)] (st s (n + 1)) ∧
    (Interp.depth ctx (d + 20)).apply (.clos 2) [] w (st s n) =
      .ok [.int .u32 (draw (w.uint32 n).toNat 65536 16777216)] (st s (n + 1)) ∧
    (Interp.depth ctx (d + 20)).apply (.clos 3) [] w (st s n) =
      .ok [.int .u32 (draw (w.uint32 n).toNat 16777216 4294967295)] (st s (n + 1)) := by
  exact ⟨by kernel_rfl, by kernel_rfl, by kernel_rfl, by kernel_rfl⟩

theorem draw_eq (r lo hi : U32) (h : lo.toNat ≤ hi.toNat) (h' : hi.toNat - lo.toNat + 1 < 2 ^ 32) :
    draw r.toNat lo.toNat hi.toNat = (randUint32Range r lo hi).toNat := by
  have a : (hi - lo + 1).toNat = hi.toNat - lo.toNat + 1 := by
    have := hi.isLt
    have one : (1 : U32).toNat = 1 := rfl
    simp only [BitVec.toNat_add, BitVec.toNat_sub, one]
    omega
  have m : (r.toNat : Int).tmod ((hi.toNat - lo.toNat + 1 : Nat) : Int) = ((r.toNat % (hi.toNat - lo.toNat + 1) : Nat) : Int) := rfl
  have b : Kind.u32.wrap (Kind.u32.wrap ((hi.toNat : Int) - lo.toNat) + 1) = ((hi.toNat - lo.toNat + 1 : Nat) : Int) := by
    simp only [Kind.wrap]
    omega
  have hr := r.isLt
  have hm : r.toNat % (hi.toNat - lo.toNat + 1) < hi.toNat - lo.toNat + 1 := Nat.mod_lt _ (by omega)
  simp only [draw, b, m, randUint32Range, BitVec.toNat_add, BitVec.toNat_umod, a]
  simp only [Kind.wrap]
  omega

theorem rand_run (d : Nat) (w : World) (s : St) (n : Nat) :
    (Interp.depth ctx (d + 25)).apply (.fn n!"util" n!"RandUint32") [] w (st s n) =
      .ok [.int .u32 (randUint32 (w.int63 n) (w.uint32 (n + 1))).toNat] (st s (n + 2)) := by
  have call : (Interp.depth ctx (d + 22)).multi n!"util" [] (.call pick [] false) w (st { s with defers := [] } n) =
      .ok [.int .u32 (randUint32 (w.int63 n) (w.uint32 (n + 1))).toNat] (st { s with defers := [] } (n + 2)) := by
    have m : (Interp.depth ctx (d + 22)).multi n!"util" [] (.call pick [] false) w (st { s with defers := [] } n) =
        M.bind ((Interp.depth ctx (d + 21)).eval n!"util" [] pick)
          (fun g => (Interp.depth ctx (d + 21)).apply g []) w (st { s with defers := [] } n) := by
      kernel_rfl
    rw [m]
    simp only [M.bind, pick_run (d + 11)]
    have b : w.int63 n % 4 < 4 := Nat.mod_lt _ (by decide)
    simp only [randUint32]
    generalize w.int63 n % 4 = k at b ⊢
    have g := gen_run (d + 1) w { s with defers := [] } (n + 1)
    match k, b with
    | 0, _ => rw [g.1, show draw (w.uint32 (n + 1)).toNat 0 256 = _ from
        draw_eq (w.uint32 (n + 1)) 0 (1 <<< 8) (by decide) (by decide)]; rfl
    | 1, _ => rw [g.2.1, show draw (w.uint32 (n + 1)).toNat 256 65536 = _ from
        draw_eq (w.uint32 (n + 1)) (1 <<< 8) (1 <<< 16) (by decide) (by decide)]; rfl
    | 2, _ => rw [g.2.2.1, show draw (w.uint32 (n + 1)).toNat 65536 16777216 = _ from
        draw_eq (w.uint32 (n + 1)) (1 <<< 16) (1 <<< 24) (by decide) (by decide)]; rfl
    | 3, _ => rw [g.2.2.2, show draw (w.uint32 (n + 1)).toNat 16777216 4294967295 = _ from
        draw_eq (w.uint32 (n + 1)) (1 <<< 24) 0xFFFFFFFF (by decide) (by decide)]; rfl
    | _ + 4, h => omega
  have x : (Interp.depth ctx (d + 23)).exec n!"util" [] (.ret [.call pick [] false]) w (st { s with defers := [] } n) =
      .ok (.ret [.int .u32 (randUint32 (w.int63 n) (w.uint32 (n + 1))).toNat] []) (st { s with defers := [] } (n + 2)) := by
    rw [depth_exec ctx (d + 22)]
    simp only [execStep, retVals, bind, M.bind, call]
    rfl
  have y := execs_ret (n := d + 23) (ss := []) x
  show applyStep ctx (Interp.depth ctx (d + 24)) (.fn n!"util" n!"RandUint32") [] w (st s n) = _
  have hg : ctx.func n!"util" n!"RandUint32" = some Files.rand_RandUint32 := by kernel_rfl
  have hb : Files.rand_RandUint32.body = [.ret [.call pick [] false]] := by kernel_rfl
  have he : bindAll Files.rand_RandUint32.params [] = some [] := rfl
  have hr : resultVars Files.rand_RandUint32.results = some [] := rfl
  have y' : (Interp.depth ctx (d + 24)).execs n!"util" Files.rand_RandUint32.body [] w { st s n with defers := [] } = _ :=
    hb ▸ y
  simp only [applyStep, bind, M.bind, pure, M.pure, orStuck, runBody, get, set, hg, he, hr, List.append_nil, y']
  rfl

/-! ## `GenUint32` -/

def genBody : List Stmt := [.assign [.index (.var n!"nums") (.var n!"i")] (.call (.var n!"RandUint32") [] false)]
def genPost : List Stmt := [.update .add (.var n!"i") (.num 1)]
def genCond : Expr := .bin .lt (.var n!"i") (.var n!"n")

theorem gen_body : Files.util_GenUint32.body =
    [.define [n!"nums"] (.call (.var n!"make") [.type (.slice (.named n!"uint32")), .var n!"n"] false),
      .loop [.define [n!"i"] (.num 0)] genCond genPost genBody, .ret [.var n!"nums"]] := by
  kernel_rfl

def u32 (x : U32) : V := .int .u32 x.toNat

/-- Variables in the loop. -/
def env (m i : Nat) (vs : List V) : Env := [(n!"i", .int .int (Int.ofNat i)), (n!"nums", .own vs), (n!"n", .int .int (Int.ofNat m))]

/-- The number drawn after `k` others. -/
def nth (w : World) (k : Nat) : U32 := randUint32 (w.int63 k) (w.uint32 (k + 1))

section
variable (d : Nat) (w : World) (s : St) (k m i : Nat)

theorem gen_cond (vs : List V) : loopCond (Interp.depth ctx (d + 30)) n!"util" genCond (env m i vs) w (st s k) =
    .ok (decide (Int.ofNat i < Int.ofNat m)) (st s k) := by
  kernel_rfl

theorem gen_post (vs : List V) (hi : i + 1 ≤ 9223372036854775807) :
    (Interp.depth ctx (d + 30)).execs n!"util" genPost (env m i vs) w (st s k) = .ok (.next (env m (i + 1) vs)) (st s k) := by
  have e : (Interp.depth ctx (d + 30)).execs n!"util" genPost (env m i vs) w (st s k) =
      .ok (.next [(n!"i", .int .int (bif Nat.ble (i + 1) 9223372036854775807 then Int.ofNat (i + 1) else
        int64 (Int.ofNat (i + 1)))), (n!"nums", .own vs), (n!"n", .int .int (Int.ofNat m))]) (st s k) := by
    kernel_rfl
  rw [e, Nat.ble_eq_true_of_le hi]
  rfl

theorem gen_assign (as bs : List V) (b : U32) :
    (Interp.depth ctx (d + 30)).execs n!"util" genBody (env m as.length (as ++ u32 b :: bs)) w (st s k) =
      .ok (.next (env m as.length (as ++ u32 (nth w k) :: bs))) (st s (k + 2)) := by
  have call : (Interp.depth ctx (d + 28)).multi n!"util" (env m as.length (as ++ u32 b :: bs)) (.call (.var n!"RandUint32") [] false) w
      (st s k) = .ok [u32 (nth w k)] (st s (k + 2)) := by
    have m : (Interp.depth ctx (d + 28)).multi n!"util" (env m as.length (as ++ u32 b :: bs)) (.call (.var n!"RandUint32") [] false) w
      (st s k) = (Interp.depth ctx (d + 27)).apply (.fn n!"util" n!"RandUint32") [] w (st s k) := by kernel_rfl
    rw [m, rand_run (d + 2)]
    rfl
  have ix : (Interp.depth ctx (d + 28)).eval n!"util" (env m as.length (as ++ u32 b :: bs)) (.var n!"i") w (st s (k + 2)) =
      .ok (.int .int (Int.ofNat as.length)) (st s (k + 2)) := by kernel_rfl
  have g : Env.get (env m as.length (as ++ u32 b :: bs)) n!"nums" = some (.own (as ++ u32 b :: bs)) := rfl
  have get : (as ++ u32 b :: bs)[as.length]? = some (u32 b) := by simp
  have set : (as ++ u32 b :: bs).set as.length (coerceLike (u32 b) (u32 (nth w k))) = as ++ u32 (nth w k) :: bs := by
    simp [coerceLike, u32]
  have a : assignTo (Interp.depth ctx (d + 28)) n!"util" (env m as.length (as ++ u32 b :: bs))
      (.index (.var n!"nums") (.var n!"i")) (u32 (nth w k)) w (st s (k + 2)) =
      .ok (env m as.length (as ++ u32 (nth w k) :: bs)) (st s (k + 2)) := by
    simp only [assignTo, bind, M.bind, ix, g]
    rw [if_pos (by simp only [List.length_append, List.length_cons, Int.ofNat_eq_natCast]; omega)]
    simp only [Int.ofNat_eq_natCast, Int.toNat_natCast, get, set]
    rfl
  have x : (Interp.depth ctx (d + 29)).exec n!"util" (env m as.length (as ++ u32 b :: bs))
      (.assign [.index (.var n!"nums") (.var n!"i")] (.call (.var n!"RandUint32") [] false)) w (st s k) =
      .ok (.next (env m as.length (as ++ u32 (nth w k) :: bs))) (st s (k + 2)) := by
    rw [depth_exec ctx (d + 28)]
    simp only [execStep, bind, M.bind, call, assignAll, a]
    rfl
  exact (execs_next (n := d + 29) x).trans rfl

theorem gen_iter (as bs : List V) (b : U32) (hm : as.length + 1 ≤ 9223372036854775807) :
    loopBody (Interp.depth ctx (d + 30)) n!"util" genPost genBody (env m as.length (as ++ u32 b :: bs)) w (st s k) =
      .ok (.next (env m (as.length + 1) (as ++ u32 (nth w k) :: bs))) (st s (k + 2)) := by
  simp only [loopBody, inScope, bind, M.bind, gen_assign, Flow.andThen, pure, M.pure]
  exact gen_post d w s (k + 2) m as.length _ hm

end

/-- The numbers drawn from the `k`-th on, two draws each. -/
def drawn (w : World) (k : Nat) : Nat → List U32
  | 0 => []
  | n + 1 => nth w k :: drawn w (k + 2) n

theorem gen_loop (d : Nat) (w : World) (s : St) (m : Nat) (hm : m ≤ 9223372036854775807) (r : Nat) (as : List V) (k fuel : Nat)
    (hr : as.length + r = m) (hf : r < fuel) :
    forLoop (loopCond (Interp.depth ctx (d + 30)) n!"util" genCond)
      (loopBody (Interp.depth ctx (d + 30)) n!"util" genPost genBody) fuel
      (env m as.length (as ++ List.replicate r (u32 0))) w (st s k) =
      .ok (.next (env m m (as ++ (drawn w k r).map u32))) (st s (k + 2 * r)) := by
  induction r generalizing as k fuel with
  | zero =>
    obtain ⟨f, rfl⟩ : ∃ f, fuel = f + 1 := ⟨fuel - 1, by omega⟩
    have e : as.length = m := by omega
    simp only [forLoop, bind, M.bind, gen_cond]
    rw [decide_eq_false (by simp only [Int.ofNat_eq_natCast]; omega), e]
    rfl
  | succ r ih =>
    obtain ⟨f, rfl⟩ : ∃ f, fuel = f + 1 := ⟨fuel - 1, by omega⟩
    simp only [forLoop, bind, M.bind, gen_cond]
    rw [decide_eq_true (by simp only [Int.ofNat_eq_natCast]; omega), if_pos rfl, List.replicate_succ]
    simp only [M.bind, gen_iter d w s k m as _ 0 (by omega), Flow.andThen]
    have h := ih (as ++ [u32 (nth w k)]) (k + 2) f (by simp; omega) (by omega)
    simp only [List.length_append, List.length_cons, List.length_nil, List.append_assoc, List.cons_append, List.nil_append] at h
    rw [h, show k + 2 + 2 * r = k + 2 * (r + 1) by omega]
    rfl

theorem drawn_eq (w : World) (k n : Nat) :
    drawn w k n = genUint32 n fun j => (w.int63 (k + 2 * j), w.uint32 (k + 2 * j + 1)) := by
  induction n generalizing k with
  | zero => rfl
  | succ n ih =>
    rw [drawn, ih, genUint32, genUint32, List.range_succ_eq_map, List.map_cons, List.map_map]
    rw [nth]
    refine congrArg _ (List.map_congr_left fun j _ => ?_)
    simp only [Function.comp, show k + 2 + 2 * j = k + 2 * (j + 1) by omega]

theorem gen_run_all (d : Nat) (w : World) (s : St) (k m : Nat) (hm : m ≤ 9223372036854775807) (hf : m < w.fuel) :
    (Interp.depth ctx (d + 40)).apply (.fn n!"util" n!"GenUint32") [.int .int m] w (st s k) =
      .ok [.list ((drawn w k m).map u32)] (st s (k + 2 * m)) := by
  have mk : (Interp.depth ctx (d + 38)).exec n!"util" [(n!"n", .int .int (Int.ofNat m))]
      (.define [n!"nums"] (.call (.var n!"make") [.type (.slice (.named n!"uint32")), .var n!"n"] false)) w
      (st { s with defers := [] } k) = .ok (.next [(n!"nums", .own (List.replicate m (u32 0))), (n!"n", .int .int (Int.ofNat m))])
        (st { s with defers := [] } k) := by
    kernel_rfl
  have lp : (Interp.depth ctx (d + 37)).exec n!"util"
      [(n!"nums", .own (List.replicate m (u32 0))), (n!"n", .int .int (Int.ofNat m))]
      (.loop [.define [n!"i"] (.num 0)] genCond genPost genBody) w (st { s with defers := [] } k) =
      .ok (.next [(n!"nums", .own ((drawn w k m).map u32)), (n!"n", .int .int (Int.ofNat m))])
        (st { s with defers := [] } (k + 2 * m)) := by
    have i : (Interp.depth ctx (d + 36)).execs n!"util" [.define [n!"i"] (.num 0)]
        [(n!"nums", .own (List.replicate m (u32 0))), (n!"n", .int .int (Int.ofNat m))] w (st { s with defers := [] } k) =
        .ok (.next (env m 0 (List.replicate m (u32 0)))) (st { s with defers := [] } k) := by kernel_rfl
    have l := gen_loop (d + 6) w { s with defers := [] } m hm m [] k w.fuel (by simp) hf
    simp only [List.length_nil, List.nil_append] at l
    rw [depth_exec ctx (d + 36)]
    simp only [execStep, inScope, bind, M.bind, i, Flow.andThen, l, pure, M.pure]
    rfl
  have rt : (Interp.depth ctx (d + 36)).exec n!"util" [(n!"nums", .own ((drawn w k m).map u32)), (n!"n", .int .int (Int.ofNat m))]
      (.ret [.var n!"nums"]) w (st { s with defers := [] } (k + 2 * m)) =
      .ok (.ret [.list ((drawn w k m).map u32)] [(n!"nums", .own ((drawn w k m).map u32)), (n!"n", .int .int (Int.ofNat m))])
        (st { s with defers := [] } (k + 2 * m)) := by
    kernel_rfl
  have y := (execs_next (n := d + 38) mk).trans ((execs_next (n := d + 37) lp).trans (execs_ret (n := d + 36) (ss := []) rt))
  show applyStep ctx (Interp.depth ctx (d + 39)) (.fn n!"util" n!"GenUint32") [.int .int m] w (st s k) = _
  have hg : ctx.func n!"util" n!"GenUint32" = some Files.util_GenUint32 := by kernel_rfl
  have he : bindAll Files.util_GenUint32.params [.int .int m] = some [(n!"n", .int .int (Int.ofNat m))] := rfl
  have hr : resultVars Files.util_GenUint32.results = some [] := rfl
  have y' : (Interp.depth ctx (d + 39)).execs n!"util" Files.util_GenUint32.body [(n!"n", .int .int (Int.ofNat m))] w
      { st s k with defers := [] } = _ := gen_body ▸ y
  simp only [applyStep, bind, M.bind, pure, M.pure, orStuck, runBody, get, set, hg, he, hr, List.append_nil, y']
  rfl

/-- A negative number. -/
theorem gen_negative (d : Nat) (w : World) (s : St) (k : Nat) (x : Int) (hx : x < 0) :
    (Interp.depth ctx (d + 40)).apply (.fn n!"util" n!"GenUint32") [.int .int x] w (st s k) = .panic := by
  have m : (Interp.depth ctx (d + 37)).multi n!"util" [(n!"n", .int .int x)]
      (.call (.var n!"make") [.type (.slice (.named n!"uint32")), .var n!"n"] false) w (st { s with defers := [] } k) =
      M.bind (if x < 0 then panicking else M.pure (.own (List.replicate x.toNat (.int .u32 0))) : M V) (fun v => M.pure [v]) w
        (st { s with defers := [] } k) := by
    kernel_rfl
  rw [if_pos hx] at m
  have mk : (Interp.depth ctx (d + 38)).exec n!"util" [(n!"n", .int .int x)]
      (.define [n!"nums"] (.call (.var n!"make") [.type (.slice (.named n!"uint32")), .var n!"n"] false)) w
      (st { s with defers := [] } k) = .panic := by
    rw [depth_exec ctx (d + 37)]
    simp only [execStep, bind, M.bind, m, panicking]
  have y := execs_panic (n := d + 38) (ss := Files.util_GenUint32.body.drop 1) mk
  show applyStep ctx (Interp.depth ctx (d + 39)) (.fn n!"util" n!"GenUint32") [.int .int x] w (st s k) = _
  have hg : ctx.func n!"util" n!"GenUint32" = some Files.util_GenUint32 := by kernel_rfl
  have he : bindAll Files.util_GenUint32.params [.int .int x] = some [(n!"n", .int .int x)] := rfl
  have hr : resultVars Files.util_GenUint32.results = some [] := rfl
  have y' : (Interp.depth ctx (d + 39)).execs n!"util" Files.util_GenUint32.body [(n!"n", .int .int x)] w
      { st s k with defers := [] } = .panic := gen_body ▸ y
  simp only [applyStep, bind, M.bind, pure, M.pure, orStuck, runBody, get, set, hg, he, hr, List.append_nil, y']

end SVB.Script.Rand
