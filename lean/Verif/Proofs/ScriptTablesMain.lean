import Verif.Proofs.ScriptRowsLengths
import Verif.Proofs.ScriptRowsEncode
import Verif.Proofs.ScriptRowsDecode

/-! # `gentables`: the four functions and `main` -/

set_option autoImplicit false
set_option maxRecDepth 100000

namespace SVB.Script.Tables

open SVB.Sources SVB.Gen

theorem perNum_all (k : Nat) (h : k < 16) : perNumTable.Chunk k :=
  match k, h with
  | 0, _ => perNum_0 | 1, _ => perNum_1 | 2, _ => perNum_2 | 3, _ => perNum_3
  | 4, _ => perNum_4 | 5, _ => perNum_5 | 6, _ => perNum_6 | 7, _ => perNum_7
  | 8, _ => perNum_8 | 9, _ => perNum_9 | 10, _ => perNum_10 | 11, _ => perNum_11
  | 12, _ => perNum_12 | 13, _ => perNum_13 | 14, _ => perNum_14 | 15, _ => perNum_15
  | _ + 16, h => absurd h (by omega)

theorem perQuad_all (k : Nat) (h : k < 16) : perQuadTable.Chunk k :=
  match k, h with
  | 0, _ => perQuad_0 | 1, _ => perQuad_1 | 2, _ => perQuad_2 | 3, _ => perQuad_3
  | 4, _ => perQuad_4 | 5, _ => perQuad_5 | 6, _ => perQuad_6 | 7, _ => perQuad_7
  | 8, _ => perQuad_8 | 9, _ => perQuad_9 | 10, _ => perQuad_10 | 11, _ => perQuad_11
  | 12, _ => perQuad_12 | 13, _ => perQuad_13 | 14, _ => perQuad_14 | 15, _ => perQuad_15
  | _ + 16, h => absurd h (by omega)

theorem encode_all (k : Nat) (h : k < 16) : encodeTable.Chunk k :=
  match k, h with
  | 0, _ => encode_0 | 1, _ => encode_1 | 2, _ => encode_2 | 3, _ => encode_3
  | 4, _ => encode_4 | 5, _ => encode_5 | 6, _ => encode_6 | 7, _ => encode_7
  | 8, _ => encode_8 | 9, _ => encode_9 | 10, _ => encode_10 | 11, _ => encode_11
  | 12, _ => encode_12 | 13, _ => encode_13 | 14, _ => encode_14 | 15, _ => encode_15
  | _ + 16, h => absurd h (by omega)

theorem decode_all (k : Nat) (h : k < 16) : decodeTable.Chunk k :=
  match k, h with
  | 0, _ => decode_0 | 1, _ => decode_1 | 2, _ => decode_2 | 3, _ => decode_3
  | 4, _ => decode_4 | 5, _ => decode_5 | 6, _ => decode_6 | 7, _ => decode_7
  | 8, _ => decode_8 | 9, _ => decode_9 | 10, _ => decode_10 | 11, _ => decode_11
  | 12, _ => decode_12 | 13, _ => decode_13 | 14, _ => decode_14 | 15, _ => decode_15
  | _ + 16, h => absurd h (by omega)

/-- All the rows. -/
theorem Table.rows (T : Table) (hT : ∀ k < 16, T.Chunk k) (d : Nat) (w : World) (s : St) (c₀ c₁ c₂ c₃ c₄ c₅ c₆ : Closure)
    (ts : Text) (m : Nat) (hm : m ≤ 16) (n : Nat) :
    T.loop d (n + 16 * m) w 0 (T.state s [c₀, c₁, c₂, c₃, c₄, c₅, c₆] 0 ts) =
      T.loop d n w (16 * m) (T.state s [c₀, c₁, c₂, c₃, c₄, c₅, c₆] (16 * m)
        (((List.range (16 * m)).flatMap T.line).reverse ++ ts)) := by
  induction m generalizing n with
  | zero => rfl
  | succ m ih =>
    have h := ih (by omega) (n + 16)
    rw [show n + 16 * (m + 1) = n + 16 + 16 * m by omega, h, hT m (by omega) d w s c₀ c₁ c₂ c₃ c₄ c₅ c₆ n,
      show 16 * (m + 1) = 16 * m + 16 by omega, List.range_add, List.flatMap_append, List.reverse_append,
      List.append_assoc, List.flatMap_map]

/-! ## The functions -/

/-- The statements of the function. -/
def Table.stmt (T : Table) (j : Nat) : Stmt := T.fn.body[j]?.getD (.ret [])

def loopStmt (T : Table) : Stmt :=
  .loop [.define [n!"i"] (.num 0)] (loopOf T.fn).1 (loopOf T.fn).2.1 (loopOf T.fn).2.2

/-- Variables before the loop. -/
def Table.env₀ (T : Table) : Env := [(n!"tabber", .clos T.m), (n!"out", .buf 0)]

/-- What is checked of each function by evaluation. -/
structure Table.Ok (T : Table) : Prop where
  chunk : ∀ k < 16, T.Chunk k
  fin : ∀ (d n : Nat) (w : World) (s : St) (c₀ c₁ c₂ c₃ c₄ c₅ c₆ : Closure) (ts : Text),
    T.loop d (n + 1) w 256 (T.state s [c₀, c₁, c₂, c₃, c₄, c₅, c₆] 256 ts) =
      .ok (.next (T.env 256)) (T.state s [c₀, c₁, c₂, c₃, c₄, c₅, c₆] 256 ts)
  body : T.fn.body = [T.stmt 0, T.stmt 1, loopStmt T, T.stmt 3, T.stmt 4]
  header : ∀ (d : Nat) (w : World) (s : St) (cl : List Closure) (ts : Text),
    (Interp.depth ctx (d + 38)).exec n!"main" [(n!"out", .buf 0)] (T.stmt 0) w (st s cl ts) =
      .ok (.next [(n!"out", .buf 0)]) (st s cl (T.header.reverse ++ ts))
  tabber : ∀ (d : Nat) (w : World) (s : St) (c₀ c₁ c₂ c₃ c₄ c₅ c₆ : Closure) (ts : Text),
    (Interp.depth ctx (d + 37)).exec n!"main" [(n!"out", .buf 0)] (T.stmt 1) w
        (st s ([c₀, c₁, c₂, c₃, c₄, c₅, c₆].take T.m) ts) =
      .ok (.next T.env₀) (T.state s [c₀, c₁, c₂, c₃, c₄, c₅, c₆] 0 ts)
  close : ∀ (d : Nat) (w : World) (s : St) (cl : List Closure) (ts : Text),
    (Interp.depth ctx (d + 35)).exec n!"main" T.env₀ (T.stmt 3) w (st s cl ts) =
      .ok (.next T.env₀) (st s cl (10 :: 125 :: ts))
  ret : ∀ (d : Nat) (w : World) (s : St) (cl : List Closure) (ts : Text),
    (Interp.depth ctx (d + 35)).execs n!"main" [T.stmt 4] T.env₀ w (st s cl ts) = .ok (.ret [.nil] T.env₀) (st s cl ts)
  func : ctx.func n!"main" T.fn.name = some T.fn
  params : bindAll T.fn.params [.buf 0] = some [(n!"out", .buf 0)]
  vars : resultVars T.fn.results = some []
  result : results T.fn.results (.ret [.nil] T.env₀) = some ([.nil], T.env₀)

/-- What the function writes. -/
def Table.text (T : Table) : Text := T.header ++ ((List.range 256).flatMap T.line ++ [125, 10])

theorem Table.Ok.loop {T : Table} (h : T.Ok) (d : Nat) (w : World) (s : St) (c₀ c₁ c₂ c₃ c₄ c₅ c₆ : Closure) (ts : Text) :
    (Interp.depth ctx (d + 36)).exec n!"main" T.env₀ (loopStmt T) (bounded w)
        (T.state s [c₀, c₁, c₂, c₃, c₄, c₅, c₆] 0 ts) =
      .ok (.next T.env₀) (T.state s [c₀, c₁, c₂, c₃, c₄, c₅, c₆] 256
        (((List.range 256).flatMap T.line).reverse ++ ts)) := by
  have e := h.fin d 43 w s c₀ c₁ c₂ c₃ c₄ c₅ c₆ (((List.range 256).flatMap T.line).reverse ++ ts)
  rw [← T.rows h.chunk d w s c₀ c₁ c₂ c₃ c₄ c₅ c₆ ts 16 (by omega) 44] at e
  have i : ∀ s : St, (Interp.depth ctx (d + 35)).execs n!"main" [.define [n!"i"] (.num 0)] T.env₀ (bounded w) s =
      .ok (.next (T.env 0)) s := fun s => by kernel_rfl
  simp only [Table.loop] at e
  show execStep (Interp.depth ctx (d + 35)) n!"main" T.env₀ (loopStmt T) (bounded w) _ = _
  simp only [loopStmt, execStep, inScope, bind, M.bind, i, Flow.andThen, pure]
  have f : (bounded w).fuel = 44 + 16 * 16 := rfl
  rw [f, e]
  rfl

theorem Table.Ok.run {T : Table} (h : T.Ok) (d : Nat) (w : World) (s : St) (c₀ c₁ c₂ c₃ c₄ c₅ c₆ : Closure) (ts : Text) :
    (Interp.depth ctx (d + 40)).apply (.fn n!"main" T.fn.name) [.buf 0] (bounded w)
        (st s ([c₀, c₁, c₂, c₃, c₄, c₅, c₆].take T.m) ts) =
      .ok [.nil] (T.state s [c₀, c₁, c₂, c₃, c₄, c₅, c₆] 256 (T.text.reverse ++ ts)) := by
  refine apply_fn (fl := .ret [.nil] T.env₀) (r := ([.nil], T.env₀)) h.func h.params h.vars rfl ?_ rfl h.result
  rw [h.body]
  refine (execs_next (n := d + 38) (h.header d _ s _ ts)).trans ?_
  refine (execs_next (n := d + 37) (h.tabber d _ s c₀ c₁ c₂ c₃ c₄ c₅ c₆ _)).trans ?_
  refine (execs_next (n := d + 36) (h.loop d w s c₀ c₁ c₂ c₃ c₄ c₅ c₆ _)).trans ?_
  refine (execs_next (n := d + 35) (h.close d _ s _ _)).trans ?_
  refine (h.ret d _ s _ _).trans ?_
  simp only [Table.state, Table.text, List.reverse_append, List.append_assoc]
  rfl

theorem perNum_ok : perNumTable.Ok where
  chunk := perNum_all
  fin _ _ _ _ _ _ _ _ _ _ _ _ := by kernel_rfl
  body := by kernel_rfl
  header _ _ _ _ _ := by kernel_rfl
  tabber _ _ _ _ _ _ _ _ _ _ _ := by kernel_rfl
  close _ _ _ _ _ := by kernel_rfl
  ret _ _ _ _ _ := by kernel_rfl
  func := by kernel_rfl
  params := by kernel_rfl
  vars := by kernel_rfl
  result := by kernel_rfl

theorem perQuad_ok : perQuadTable.Ok where
  chunk := perQuad_all
  fin _ _ _ _ _ _ _ _ _ _ _ _ := by kernel_rfl
  body := by kernel_rfl
  header _ _ _ _ _ := by kernel_rfl
  tabber _ _ _ _ _ _ _ _ _ _ _ := by kernel_rfl
  close _ _ _ _ _ := by kernel_rfl
  ret _ _ _ _ _ := by kernel_rfl
  func := by kernel_rfl
  params := by kernel_rfl
  vars := by kernel_rfl
  result := by kernel_rfl

theorem encode_ok : encodeTable.Ok where
  chunk := encode_all
  fin _ _ _ _ _ _ _ _ _ _ _ _ := by kernel_rfl
  body := by kernel_rfl
  header _ _ _ _ _ := by kernel_rfl
  tabber _ _ _ _ _ _ _ _ _ _ _ := by kernel_rfl
  close _ _ _ _ _ := by kernel_rfl
  ret _ _ _ _ _ := by kernel_rfl
  func := by kernel_rfl
  params := by kernel_rfl
  vars := by kernel_rfl
  result := by kernel_rfl

theorem decode_ok : decodeTable.Ok where
  chunk := decode_all
  fin _ _ _ _ _ _ _ _ _ _ _ _ := by kernel_rfl
  body := by kernel_rfl
  header _ _ _ _ _ := by kernel_rfl
  tabber _ _ _ _ _ _ _ _ _ _ _ := by kernel_rfl
  close _ _ _ _ _ := by kernel_rfl
  ret _ _ _ _ _ := by kernel_rfl
  func := by kernel_rfl
  params := by kernel_rfl
  vars := by kernel_rfl
  result := by kernel_rfl

/-! ## `main` -/

/-- A world with the two flags of the program. -/
def worldOf (path pkg : Text) (canCreate : Bool) (writeFails : Option Nat) (w : World) : World :=
  bounded ⟨[(asc "out".toList, path), (asc "package".toList, pkg)], canCreate, w.canRead, writeFails, w.disk, w.getenv,
    w.inputErr, w.uint32, w.int63, w.fuel⟩

/-- `if err := f(out); err != nil { log.Fatalf(msg) }` -/
def genStmt (f : Nat) (msg : Text) : Stmt :=
  .ite [.define [n!"err"] (.call (.var f) [(.var n!"out")] false)] (.bin .ne (.var n!"err") (.var n!"nil"))
    [.expr (.call (.dot (.var n!"log") n!"Fatalf") [(.str msg)] false)] []

def env₁ : Env := [(n!"out", .buf 0)]

theorem genStmt_exec {f : Nat} (hf : (Nat.beq f n!"append" || Nat.beq f n!"len" || Nat.beq f n!"make") = false)
    (hv : ∀ (d : Nat) (w : World) (s : St), (Interp.depth ctx (d + 40)).eval n!"main" env₁ (.var f) w s =
      .ok (.fn n!"main" f) s) {d : Nat} {w : World} {s s' : St}
    (ha : (Interp.depth ctx (d + 40)).apply (.fn n!"main" f) [.buf 0] w s = .ok [.nil] s') (msg : Text) :
    (Interp.depth ctx (d + 44)).exec n!"main" env₁ (genStmt f msg) w s = .ok (.next env₁) s' := by
  simp only [Bool.or_eq_false_iff] at hf
  have args : ∀ s : St, (Interp.depth ctx (d + 40)).evals n!"main" env₁ [.var n!"out"] w s = .ok [.buf 0] s := fun s => by
    kernel_rfl
  have call : (Interp.depth ctx (d + 41)).multi n!"main" env₁ (.call (.var f) [(.var n!"out")] false) w s =
      .ok [.nil] s' := by
    rw [depth_multi ctx (d + 40)]
    simp only [multiStep, hf, cond_false, bind, M.bind, hv, callArgs, args, Bool.false_eq_true, if_false, ha]
  have def_ : (Interp.depth ctx (d + 42)).exec n!"main" env₁
      (.define [n!"err"] (.call (.var f) [(.var n!"out")] false)) w s = .ok (.next ((n!"err", .nil) :: env₁)) s' := by
    rw [depth_exec ctx (d + 41)]
    simp only [execStep, bind, M.bind, call]
    rfl
  have ini : (Interp.depth ctx (d + 43)).execs n!"main"
      [.define [n!"err"] (.call (.var f) [(.var n!"out")] false)] env₁ w s = .ok (.next ((n!"err", .nil) :: env₁)) s' :=
    execs_next def_
  have cnd : (Interp.depth ctx (d + 43)).eval n!"main" ((n!"err", .nil) :: env₁)
      (.bin .ne (.var n!"err") (.var n!"nil")) w s' = .ok (.bool false) s' := by kernel_rfl
  rw [depth_exec ctx (d + 43)]
  simp only [genStmt, execStep, inScope, bind, M.bind, ini, Flow.andThen, cnd, pure]
  rfl

theorem gen_exec {T : Table} (h : T.Ok)
    (hf : (Nat.beq T.fn.name n!"append" || Nat.beq T.fn.name n!"len" || Nat.beq T.fn.name n!"make") = false)
    (hv : ∀ (d : Nat) (w : World) (s : St), (Interp.depth ctx (d + 40)).eval n!"main" env₁ (.var T.fn.name) w s =
      .ok (.fn n!"main" T.fn.name) s) (d : Nat) (w : World) (s : St) (c₀ c₁ c₂ c₃ c₄ c₅ c₆ : Closure) (ts msg : Text) :
    (Interp.depth ctx (d + 44)).exec n!"main" env₁ (genStmt T.fn.name msg) (bounded w)
        (st s ([c₀, c₁, c₂, c₃, c₄, c₅, c₆].take T.m) ts) =
      .ok (.next env₁) (T.state s [c₀, c₁, c₂, c₃, c₄, c₅, c₆] 256 (T.text.reverse ++ ts)) :=
  genStmt_exec hf hv (h.run d w s c₀ c₁ c₂ c₃ c₄ c₅ c₆ ts) msg

/-- Parts of `main`. -/
def mainFront : List Stmt := Files.gentables_main.body.take 5
def mainTail : List Stmt := Files.gentables_main.body.drop 9

def msg (j : Nat) : Text :=
  match Files.gentables_main.body[j]? with
  | some (.ite _ _ [.expr (.call _ [.str t] _)] _) => t
  | _ => []

theorem main_body : Files.gentables_main.body = mainFront ++ (genStmt n!"genPerNumLengthTable" (msg 5) ::
    genStmt n!"genPerQuadLengthTable" (msg 6) :: genStmt n!"genEncodeShuffleTable" (msg 7) ::
    genStmt n!"genDecodeShuffleTable" (msg 8) :: mainTail) := by
  kernel_rfl

/-- State at the beginning of `main`. -/
def start : St := { clos := genClosures, flags := [asc "package".toList, asc "out".toList] }

/-- The first lines. -/
def head₁ : Text := asc "// Code generated by gentables. DO NOT EDIT.".toList ++ [10]
def head₂ (pkg : Text) : Text := 10 :: (asc "package ".toList ++ (pkg ++ [10]))

/-- State before the tables. -/
def started : St := { flags := [asc "package".toList, asc "out".toList], parsed := true }

theorem front (d : Nat) (w : World) (c : Nat) (cs pkg : Text) (cc : Bool) (wf : Option Nat) (ss : List Stmt) :
    (Interp.depth ctx (d + 59)).execs n!"main" (mainFront ++ ss) [] (worldOf (c :: cs) pkg cc wf w) start =
      (Interp.depth ctx (d + 54)).execs n!"main" ss env₁ (worldOf (c :: cs) pkg cc wf w)
        (st started genClosures ((head₂ pkg).reverse ++ (head₁.reverse ++ []))) := by
  kernel_rfl

/-- The four tables. -/
theorem middle (d : Nat) (w : World) (c₀ c₁ c₂ c₃ : Closure) (ts : Text) (s : St) (ss : List Stmt) :
    (Interp.depth ctx (d + 54)).execs n!"main" (genStmt n!"genPerNumLengthTable" (msg 5) ::
        genStmt n!"genPerQuadLengthTable" (msg 6) :: genStmt n!"genEncodeShuffleTable" (msg 7) ::
        genStmt n!"genDecodeShuffleTable" (msg 8) :: ss) env₁ (bounded w) (st s [c₀, c₁, c₂, c₃] ts) =
      (Interp.depth ctx (d + 50)).execs n!"main" ss env₁ (bounded w)
        (st s [c₀, c₁, c₂, c₃, tab 4 257, tab 8 257, tab 1 257, tab 1 257] (decodeTable.text.reverse ++
          (encodeTable.text.reverse ++ (perQuadTable.text.reverse ++ (perNumTable.text.reverse ++ ts))))) := by
  have h₁ := gen_exec perNum_ok rfl (fun _ _ _ => by kernel_rfl) (d + 9) w s c₀ c₁ c₂ c₃ c₀ c₀ c₀ ts (msg 5)
  refine (execs_next (n := d + 53) h₁).trans ?_
  have h₂ := gen_exec perQuad_ok rfl (fun _ _ _ => by kernel_rfl) (d + 8) w s c₀ c₁ c₂ c₃ (tab 4 257) c₀ c₀
    (perNumTable.text.reverse ++ ts) (msg 6)
  refine (execs_next (n := d + 52) h₂).trans ?_
  have h₃ := gen_exec encode_ok rfl (fun _ _ _ => by kernel_rfl) (d + 7) w s c₀ c₁ c₂ c₃ (tab 4 257) (tab 8 257) c₀
    (perQuadTable.text.reverse ++ (perNumTable.text.reverse ++ ts)) (msg 7)
  refine (execs_next (n := d + 51) h₃).trans ?_
  have h₄ := gen_exec decode_ok rfl (fun _ _ _ => by kernel_rfl) (d + 6) w s c₀ c₁ c₂ c₃ (tab 4 257) (tab 8 257)
    (tab 1 257) (encodeTable.text.reverse ++ (perQuadTable.text.reverse ++ (perNumTable.text.reverse ++ ts))) (msg 8)
  exact execs_next (n := d + 50) h₄

/-- State at the end. -/
def ended (cl : List Closure) (ts path t : Text) (ds : List (V × List V)) : St :=
  ⟨cl, [ts], ds, started.flags, true, [(path, t)], [], [], [], 0, [], [], false⟩

theorem tail_ok (d : Nat) (w : World) (c : Nat) (cs pkg : Text) (cl : List Closure) (ts : Text) :
    (Interp.depth ctx (d + 50)).execs n!"main" mainTail env₁ (worldOf (c :: cs) pkg true none w) (st started cl ts) =
      .ok (.next [(n!"err", .nil), (n!"fileOut", .file 0), (n!"err", .nil), (n!"final", .bytes (gofmt ts.reverse)),
          (n!"out", .buf 0)])
        (ended cl ts (c :: cs) ([] ++ gofmt ts.reverse) [(.fn n!"util" n!"SilentClose", [.file 0])]) := by
  kernel_rfl

theorem tail_write (d : Nat) (w : World) (c : Nat) (cs pkg : Text) (cl : List Closure) (ts : Text) (k : Nat) :
    (Interp.depth ctx (d + 50)).execs n!"main" mainTail env₁ (worldOf (c :: cs) pkg true (some k) w) (st started cl ts) =
      .exit 1 (ended cl ts (c :: cs) ([] ++ (gofmt ts.reverse).take k) [(.fn n!"util" n!"SilentClose", [.file 0])]) := by
  kernel_rfl

theorem tail_create (d : Nat) (w : World) (c : Nat) (cs pkg : Text) (wf : Option Nat) (cl : List Closure) (ts : Text) :
    (Interp.depth ctx (d + 50)).execs n!"main" mainTail env₁ (worldOf (c :: cs) pkg false wf w) (st started cl ts) =
      .exit 1 (st started cl ts) := by
  kernel_rfl

theorem apply_main {n : Nat} {w : World} {s s' s'' : St} {env : Env}
    (hx : (Interp.depth ctx n).execs n!"main" Files.gentables_main.body [] w { s with defers := [] } = .ok (.next env) s')
    (hd : runDefers (Interp.depth ctx n) s'.defers w s' = .ok () s'') :
    (Interp.depth ctx (n + 1)).apply (.fn n!"main" n!"main") [] w s = .ok [] { s'' with defers := s.defers } := by
  show applyStep ctx (Interp.depth ctx n) (.fn n!"main" n!"main") [] w s = _
  have hg : ctx.func n!"main" n!"main" = some Files.gentables_main := by kernel_rfl
  have he : bindAll Files.gentables_main.params [] = some [] := rfl
  have hr : resultVars Files.gentables_main.results = some [] := rfl
  have hf : results Files.gentables_main.results (.next env) = some ([], env) := rfl
  simp only [applyStep, bind, M.bind, pure, M.pure, orStuck, runBody, get, set, hg, he, hr, List.append_nil, hx, hf, hd]

theorem apply_main_exit {n : Nat} {w : World} {s s' : St} {c : Nat}
    (hx : (Interp.depth ctx n).execs n!"main" Files.gentables_main.body [] w { s with defers := [] } = .exit c s') :
    (Interp.depth ctx (n + 1)).apply (.fn n!"main" n!"main") [] w s = .exit c s' := by
  show applyStep ctx (Interp.depth ctx n) (.fn n!"main" n!"main") [] w s = _
  have hg : ctx.func n!"main" n!"main" = some Files.gentables_main := by kernel_rfl
  have he : bindAll Files.gentables_main.params [] = some [] := rfl
  have hr : resultVars Files.gentables_main.results = some [] := rfl
  simp only [applyStep, bind, M.bind, pure, M.pure, orStuck, runBody, get, set, hg, he, hr, List.append_nil, hx]

/-- Text in the buffer at the end, last byte first. -/
def all (pkg : Text) : Text :=
  decodeTable.text.reverse ++ (encodeTable.text.reverse ++ (perQuadTable.text.reverse ++ (perNumTable.text.reverse ++
    ((head₂ pkg).reverse ++ (head₁.reverse ++ [])))))

theorem all_eq (pkg : Text) : (all pkg).reverse = GenTables.output pkg := by
  have t (T : Table) : T.text = T.header ++ (GenTables.rows T.perLine T.row ++ [125, 10]) := rfl
  have e₁ : perNumTable.text = GenTables.genPerNumLengthTable := by
    simp only [t, perNumTable, GenTables.genPerNumLengthTable, List.append_assoc, List.cons_append, List.nil_append]
  have e₂ : perQuadTable.text = GenTables.genPerQuadLengthTable := by
    simp only [t, perQuadTable, GenTables.genPerQuadLengthTable, List.append_assoc, List.cons_append, List.nil_append]
  have e₃ : encodeTable.text = GenTables.genEncodeShuffleTable := by
    simp only [t, encodeTable, GenTables.genEncodeShuffleTable, List.append_assoc, List.cons_append, List.nil_append]
  have e₄ : decodeTable.text = GenTables.genDecodeShuffleTable := by
    simp only [t, decodeTable, GenTables.genDecodeShuffleTable, List.append_assoc, List.cons_append, List.nil_append]
  simp only [all, e₁, e₂, e₃, e₄, GenTables.output, head₁, head₂, List.reverse_append, List.reverse_reverse, List.append_assoc,
    List.reverse_nil, List.nil_append, List.cons_append]

/-- `main` up to the last four statements. -/
theorem main_to_tail (d : Nat) (w : World) (c : Nat) (cs pkg : Text) (cc : Bool) (wf : Option Nat) :
    (Interp.depth ctx (d + 59)).execs n!"main" Files.gentables_main.body [] (worldOf (c :: cs) pkg cc wf w) start =
      (Interp.depth ctx (d + 50)).execs n!"main" mainTail env₁ (worldOf (c :: cs) pkg cc wf w)
        (st started (genClosures ++ [tab 4 257, tab 8 257, tab 1 257, tab 1 257]) (all pkg)) := by
  rw [main_body, front]
  exact middle d _ _ _ _ _ _ _ _

theorem runMain_eq (d : Nat) (w : World) :
    runMain (d + 60) files w {} = (Interp.depth ctx (d + 60)).apply (.fn n!"main" n!"main") [] w start := by
  have e : initVars (d + 60) files (globals files) [] w {} = .ok vars start := init w (d + 50)
  simp only [runMain, bind, M.bind, e, ctx]

theorem run_ok (d : Nat) (w : World) (c : Nat) (cs pkg : Text) :
    ∃ s, runMain (d + 60) files (worldOf (c :: cs) pkg true none w) {} = .ok [] s ∧
      s.files = [(c :: cs, gofmt (GenTables.output pkg))] ∧ s.stdout = [] := by
  rw [runMain_eq]
  have h := apply_main (n := d + 59) (s := start) ((main_to_tail d w c cs pkg true none).trans (tail_ok d w c cs pkg _ _))
    (s'' := ended (genClosures ++ [tab 4 257, tab 8 257, tab 1 257, tab 1 257]) (all pkg) (c :: cs)
      ([] ++ gofmt (all pkg).reverse) [(.fn n!"util" n!"SilentClose", [.file 0])]) (by kernel_rfl)
  refine ⟨_, h, ?_, rfl⟩
  show [(c :: cs, [] ++ gofmt (all pkg).reverse)] = _
  rw [List.nil_append, all_eq]

theorem run_write (d : Nat) (w : World) (c : Nat) (cs pkg : Text) (k : Nat) :
    ∃ s, runMain (d + 60) files (worldOf (c :: cs) pkg true (some k) w) {} = .exit 1 s ∧
      s.files = [(c :: cs, (gofmt (GenTables.output pkg)).take k)] ∧ s.stdout = [] := by
  rw [runMain_eq]
  have h := apply_main_exit (n := d + 59) (s := start)
    ((main_to_tail d w c cs pkg true (some k)).trans (tail_write d w c cs pkg _ _ k))
  refine ⟨_, h, ?_, rfl⟩
  show [(c :: cs, [] ++ (gofmt (all pkg).reverse).take k)] = _
  rw [List.nil_append, all_eq]

theorem run_create (d : Nat) (w : World) (c : Nat) (cs pkg : Text) (wf : Option Nat) :
    ∃ s, runMain (d + 60) files (worldOf (c :: cs) pkg false wf w) {} = .exit 1 s ∧ s.files = [] ∧ s.stdout = [] := by
  rw [runMain_eq]
  have h := apply_main_exit (n := d + 59) (s := start)
    ((main_to_tail d w c cs pkg false wf).trans (tail_create d w c cs pkg wf _ _))
  exact ⟨_, h, rfl, rfl⟩

/-- Without a path nothing is done. -/
theorem run_empty (d : Nat) (w : World) (pkg : Text) (cc : Bool) (wf : Option Nat) :
    ∃ s, runMain (d + 60) files (worldOf [] pkg cc wf w) {} = .exit 1 s ∧ s.files = [] ∧ s.stdout = [] := by
  have h : runMain (d + 60) files (worldOf [] pkg cc wf w) {} = .exit 1 { start with parsed := true } := by kernel_rfl
  exact ⟨_, h, rfl, rfl⟩

/-- A flag that is not known. -/
theorem flags_exit (d : Nat) (w : World) (n v : Text) (rest : List (Text × Text)) (hn : n ≠ asc "out".toList)
    (hn' : n ≠ asc "package".toList) :
    (Interp.depth ctx (d + 59)).execs n!"main" Files.gentables_main.body [] { w with args := (n, v) :: rest } start =
      .exit 2 start := by
  have e : ({ w with args := (n, v) :: rest } : World).args.all (fun a => start.flags.any (· == a.1)) = false := by
    have h₁ : (asc "out".toList == n) = false := by simpa using Ne.symm hn
    have h₂ : (asc "package".toList == n) = false := by simpa using Ne.symm hn'
    simp only [List.all_cons, start, List.any_cons, List.any_nil, h₁, h₂, Bool.or_false, Bool.false_and]
  have g (I : Interp) : libFn n!"flag" n!"Parse" [] { w with args := (n, v) :: rest } start = .exit 2 start := by
    show (if (({ w with args := (n, v) :: rest } : World).args.all fun a => start.flags.any (· == a.1)) = true then _ else _ :
      M (List V)) _ _ = _
    rw [e]
    rfl
  have c : (Interp.depth ctx (d + 58)).exec n!"main" [] (.expr (.call (.dot (.var n!"flag") n!"Parse") [] false))
      { w with args := (n, v) :: rest } start = .exit 2 start := by
    have : (Interp.depth ctx (d + 58)).exec n!"main" [] (.expr (.call (.dot (.var n!"flag") n!"Parse") [] false))
      { w with args := (n, v) :: rest } start =
        M.bind (libFn n!"flag" n!"Parse" []) (fun _ => M.pure (.next [])) { w with args := (n, v) :: rest } start := by
      kernel_rfl
    rw [this]
    simp only [M.bind, g Interp.none]
  have b : Files.gentables_main.body = .expr (.call (.dot (.var n!"flag") n!"Parse") [] false) ::
      Files.gentables_main.body.drop 1 := by kernel_rfl
  rw [b]
  show M.bind ((Interp.depth ctx (d + 58)).exec n!"main" [] _) _ _ _ = _
  simp only [M.bind, c]

end SVB.Script.Tables
