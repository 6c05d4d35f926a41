import Verif.Model.Shell
import Verif.Proofs.GoParse

/-! # The two shell scripts, run -/

set_option autoImplicit false
set_option maxRecDepth 100000

namespace SVB.Shell
open SVB.Sources

/-! ## The commands of the texts -/

/-- A literal word, a word that is a variable, a quoted word. -/
def lw (cs : List Char) : Word := ⟨false, [.lit (asc cs)]⟩
def vw (cs : List Char) : Word := ⟨false, [.var (asc cs)]⟩
def qw (cs : List Char) : Word := ⟨true, [.lit (asc cs)]⟩

def diffPipe : Pipeline := [[lw "git".toList, lw "diff".toList], [lw "sha1sum".toList]]
def statusPipe : Pipeline := [[lw "git".toList, lw "status".toList, lw "--porcelain".toList], [lw "sha1sum".toList]]

def message : List Char := "Unstable generate. Make sure to generate and check in changed files.".toList

def checkConds : List (Word × Word) :=
  [(vw "BEFORE_DIFF".toList, vw "AFTER_DIFF".toList), (vw "BEFORE_STATUS".toList, vw "AFTER_STATUS".toList)]

def checkBody : List Pipeline := [[[lw "echo".toList, qw message]], [[lw "exit".toList, lw "1".toList]]]

def checkCmds : List Cmd :=
  [.run [[lw "set".toList, lw "-e".toList]],
    .assign (asc "BEFORE_DIFF".toList) diffPipe,
    .assign (asc "BEFORE_STATUS".toList) statusPipe,
    .run [[lw "make".toList, lw "generate".toList]],
    .assign (asc "AFTER_DIFF".toList) diffPipe,
    .assign (asc "AFTER_STATUS".toList) statusPipe,
    .ifNe checkConds checkBody]

theorem check_parsed : parse checkSh = some checkCmds := by kernel_rfl

def homeWord : Word := ⟨false, [.var (asc "SBYTE_HOME".toList), .lit (asc "/tools/parse_and_write_bench.go".toList)]⟩

def testPipe : Pipeline :=
  [[lw "go".toList, lw "test".toList, lw "-bench".toList, lw ".".toList, lw "./pkg/...".toList],
    [lw "tee".toList, vw "TMP_FILE".toList]]

def toolPipe : Pipeline :=
  [[lw "cat".toList, vw "TMP_FILE".toList], [lw "go".toList, lw "run".toList, homeWord, lw "-w".toList]]

def updateCmds : List Cmd :=
  [.run [[lw "set".toList, lw "-e".toList]],
    .assign (asc "TMP_FILE".toList) [[lw "mktemp".toList]],
    .run testPipe,
    .run toolPipe,
    .run [[lw "rm".toList, vw "TMP_FILE".toList]]]

theorem update_parsed : parse updateSh = some updateCmds := by kernel_rfl

/-! ## Steps -/

section
variable {σ : Type} {env : Env σ}

theorem runCmds_go {c : Cmd} {cs : List Cmd} {k st : Nat} {s s' : State σ} (h : runCmd env c s = some (.go st s')) :
    runCmds env (c :: cs) k s = runCmds env cs st s' := by
  rw [runCmds, h]

theorem runCmds_exit {c : Cmd} {cs : List Cmd} {k st : Nat} {s s' : State σ} (h : runCmd env c s = some (.exit st s')) :
    runCmds env (c :: cs) k s = some (st, s'.out, s'.world) := by
  rw [runCmds, h]

theorem run_set (vars : List (Text × Text)) (b : Bool) (o : Text) (w : σ) :
    runCmd env (.run [[lw "set".toList, lw "-e".toList]]) ⟨vars, b, o, w⟩ = some (.go 0 ⟨vars, true, o, w⟩) := rfl

theorem assign_step {x : Text} {p : Pipeline} {cs : List (List Text)} {vars : List (Text × Text)} {o t : Text} {w w' : σ} {st : Nat}
    (hp : expandPipe vars p = some cs) (he : external cs = true) (hr : pipe env cs [] w = (st, t, w')) :
    runCmd env (.assign x p) ⟨vars, true, o, w⟩ = some (after st ⟨(x, captured t) :: vars, true, o, w'⟩) := by
  simp only [runCmd, hp, Option.bind_eq_bind, Option.bind_some, he, if_true, hr]
  rfl

theorem pipe_step {p : Pipeline} {cs : List (List Text)} {vars : List (Text × Text)} {o t : Text} {w w' : σ} {st : Nat}
    (hp : expandPipe vars p = some cs) (hs : cs ≠ [[asc "set".toList, asc "-e".toList]]) (he : external cs = true)
    (hr : pipe env cs [] w = (st, t, w')) :
    runCmd env (.run p) ⟨vars, true, o, w⟩ = some (after st ⟨vars, true, o ++ t, w'⟩) := by
  simp only [runCmd, runPipeline, hp, Option.bind_eq_bind, Option.bind_some, if_neg hs, he, if_true, hr]
  rfl

theorem pipe_two (a b : List Text) (i : Text) (w : σ) : pipe env [a, b] i w = env b (env a i w).2.1 (env a i w).2.2 := rfl

theorem textOf_var (vars : List (Text × Text)) (cs : List Char) : textOf vars (vw cs) = (vars.lookup (asc cs)).getD [] := by
  show _ ++ [] = _
  rw [List.append_nil]

theorem after_zero (s : State σ) : after 0 s = .go 0 s := rfl

theorem after_ne {st : Nat} {s : State σ} (h : st ≠ 0) (he : s.errexit = true) : after st s = .exit st s :=
  if_pos ⟨h, he⟩

end

/-! ## The check of the generated files -/

/-- What `$(… | sha1sum)` gives. -/
theorem captured_line (t : Text) (h0 : t.all (fun c => decide (c ≠ 0)) = true) (h : t.getLast? ≠ some 10) : captured (t ++ [10]) = t := by
  have hf : (t ++ [10]).filter (· ≠ 0) = t ++ [10] := by
    rw [List.filter_eq_self]
    intro c hc
    rcases List.mem_append.mp hc with hc | hc
    · exact List.all_eq_true.mp h0 c hc
    · rw [List.mem_singleton.mp hc]; rfl
  rw [captured, hf, List.reverse_append]
  show (List.dropWhile (Nat.beq 10) (10 :: t.reverse)).reverse = t
  rw [List.dropWhile_cons_of_pos rfl]
  cases hr : t.reverse with
  | nil => rw [List.reverse_eq_nil_iff.mp hr]; rfl
  | cons c cs =>
    have : t.getLast? = some c := by rw [List.getLast?_eq_head?_reverse, hr]; rfl
    rw [List.dropWhile_cons_of_neg, ← hr, List.reverse_reverse]
    intro hc
    rw [this] at h
    exact h (by rw [Nat.eq_of_beq_eq_true hc])

/-- The condition of the script. -/
theorem unequal_two (a b c d : Text) (vars : List (Text × Text)) (hb : b.any patternChar = false) (hd : d.any patternChar = false) :
    unequal ((asc "AFTER_STATUS".toList, d) :: (asc "AFTER_DIFF".toList, b) :: (asc "BEFORE_STATUS".toList, c) ::
      (asc "BEFORE_DIFF".toList, a) :: vars) checkConds = some (!decide (a = b ∧ c = d)) := by
  simp only [checkConds, unequal, textOf_var]
  show (if b.any patternChar = true then none else if a ≠ b then some true else
    if d.any patternChar = true then none else if c ≠ d then some true else some false) = _
  rw [hb, hd]
  simp only [Bool.false_eq_true, if_false]
  by_cases h1 : a = b
  · by_cases h2 : c = d
    · rw [if_neg (not_not_intro h1), if_neg (not_not_intro h2), decide_eq_true ⟨h1, h2⟩]; rfl
    · rw [if_neg (not_not_intro h1), if_pos h2, decide_eq_false fun h => h2 h.2]; rfl
  · rw [if_pos h1, decide_eq_false fun h => h1 h.1]; rfl

theorem if_same {σ : Type} {env : Env σ} {vars : List (Text × Text)} {o : Text} {w : σ} {p : Prop} [Decidable p]
    (h : unequal vars checkConds = some (!decide p)) (hp : p) :
    runCmd env (.ifNe checkConds checkBody) ⟨vars, true, o, w⟩ = some (.go 0 ⟨vars, true, o, w⟩) := by
  rw [decide_eq_true hp] at h
  simp only [runCmd, h]
  rfl

theorem if_other {σ : Type} {env : Env σ} {vars : List (Text × Text)} {o : Text} {w : σ} {p : Prop} [Decidable p]
    (h : unequal vars checkConds = some (!decide p)) (hp : ¬ p) :
    runCmd env (.ifNe checkConds checkBody) ⟨vars, true, o, w⟩ = some (.exit 1 ⟨vars, true, o ++ asc message ++ [10], w⟩) := by
  rw [decide_eq_false hp] at h
  simp only [runCmd, h]
  rfl

/-! ## The update of the benchmarks -/

/-- Neither blanks, tabs, newlines nor characters of patterns. -/
def plainText (t : Text) : Bool := t.all fun c => !patternChar c && !(Nat.beq c 32 || Nat.beq c 9 || Nat.beq c 10) && !Nat.beq c 0

theorem fields_plain {t : Text} (h : plainText t = true) : ∀ cur : Text, t ++ cur ≠ [] → fields t cur = [cur.reverse ++ t] := by
  induction t with
  | nil =>
    intro cur hc
    rw [List.nil_append] at hc
    cases cur with
    | nil => exact absurd rfl hc
    | cons c cs => rw [fields, List.append_nil]; rfl
  | cons c cs ih =>
    intro cur _
    rw [plainText, List.all_cons, Bool.and_eq_true] at h
    have h1 : (Nat.beq c 32 || Nat.beq c 9 || Nat.beq c 10) = false := by
      have h1 := h.1
      rw [Bool.and_eq_true, Bool.and_eq_true] at h1
      simpa only [Bool.not_eq_true'] using h1.1.2
    rw [fields, h1, if_neg (by decide), ih h.2 (c :: cur) (by simp)]
    simp

theorem plainText_pattern {t : Text} (h : plainText t = true) : t.any patternChar = false := by
  rw [List.any_eq_false]
  intro c hc hp
  have := List.all_eq_true.mp h c hc
  rw [hp] at this
  exact absurd this (by simp)

theorem plainText_append {a b : Text} (ha : plainText a = true) (hb : plainText b = true) : plainText (a ++ b) = true := by
  rw [plainText, List.all_append, Bool.and_eq_true]
  exact ⟨ha, hb⟩

theorem expand_plain {vars : List (Text × Text)} {w : Word} (hq : w.quoted = false) (ht : plainText (textOf vars w) = true)
    (hn : textOf vars w ≠ []) : expand vars w = some [textOf vars w] := by
  rw [expand, hq, if_neg (by decide), plainText_pattern ht, if_neg (by decide), fields_plain ht [] (by rwa [List.append_nil])]
  rfl

/-- `$(mktemp)` -/
theorem captured_plain {t : Text} (h : plainText t = true) : captured (t ++ [10]) = t := by
  have hc : ∀ c ∈ t, c ≠ 0 ∧ c ≠ 10 := by
    intro c hc
    have := List.all_eq_true.mp h c hc
    constructor <;> rintro rfl <;> exact absurd this (by decide)
  apply captured_line
  · rw [List.all_eq_true]
    intro c hm
    exact decide_eq_true (hc c hm).1
  · intro e
    exact (hc 10 (List.mem_of_getLast? e)).2 rfl

theorem testPipe_words {vars : List (Text × Text)} {tmp : Text} (hp : plainText tmp = true) (hn : tmp ≠ []) :
    expandPipe ((asc "TMP_FILE".toList, tmp) :: vars) testPipe =
      some [[asc "go".toList, asc "test".toList, asc "-bench".toList, asc ".".toList, asc "./pkg/...".toList],
        [asc "tee".toList, tmp]] := by
  have e : textOf ((asc "TMP_FILE".toList, tmp) :: vars) (vw "TMP_FILE".toList) = tmp := by rw [textOf_var]; rfl
  have h := expand_plain (vars := (asc "TMP_FILE".toList, tmp) :: vars) (w := vw "TMP_FILE".toList) rfl (by rw [e]; exact hp)
    (by rw [e]; exact hn)
  rw [e] at h
  simp only [testPipe, expandPipe, expandAll, h]
  rfl

theorem rm_words {vars : List (Text × Text)} {tmp : Text} (hp : plainText tmp = true) (hn : tmp ≠ []) :
    expandPipe ((asc "TMP_FILE".toList, tmp) :: vars) [[lw "rm".toList, vw "TMP_FILE".toList]] = some [[asc "rm".toList, tmp]] := by
  have e : textOf ((asc "TMP_FILE".toList, tmp) :: vars) (vw "TMP_FILE".toList) = tmp := by rw [textOf_var]; rfl
  have h := expand_plain (vars := (asc "TMP_FILE".toList, tmp) :: vars) (w := vw "TMP_FILE".toList) rfl (by rw [e]; exact hp)
    (by rw [e]; exact hn)
  rw [e] at h
  simp only [expandPipe, expandAll, h]
  rfl

/-- The path of the tool. -/
def toolPath (home : Text) : Text := home ++ asc "/tools/parse_and_write_bench.go".toList

theorem toolPipe_words {vars : List (Text × Text)} {tmp home : Text} (hp : plainText tmp = true) (hn : tmp ≠ [])
    (hv : (vars.lookup (asc "SBYTE_HOME".toList)).getD [] = home) (hh : plainText home = true) :
    expandPipe ((asc "TMP_FILE".toList, tmp) :: vars) toolPipe =
      some [[asc "cat".toList, tmp], [asc "go".toList, asc "run".toList, toolPath home, asc "-w".toList]] := by
  have e : textOf ((asc "TMP_FILE".toList, tmp) :: vars) (vw "TMP_FILE".toList) = tmp := by rw [textOf_var]; rfl
  have h := expand_plain (vars := (asc "TMP_FILE".toList, tmp) :: vars) (w := vw "TMP_FILE".toList) rfl (by rw [e]; exact hp)
    (by rw [e]; exact hn)
  have e' : textOf ((asc "TMP_FILE".toList, tmp) :: vars) homeWord = toolPath home := by
    show (((asc "TMP_FILE".toList, tmp) :: vars).lookup (asc "SBYTE_HOME".toList)).getD [] ++
      (asc "/tools/parse_and_write_bench.go".toList ++ []) = _
    rw [show ((asc "TMP_FILE".toList, tmp) :: vars).lookup (asc "SBYTE_HOME".toList) =
      vars.lookup (asc "SBYTE_HOME".toList) from rfl, hv]
    rfl
  have h' := expand_plain (vars := (asc "TMP_FILE".toList, tmp) :: vars) (w := homeWord) rfl
    (by rw [e']; exact plainText_append hh (by decide +kernel)) (by rw [e', toolPath]; simp [asc])
  rw [e] at h
  rw [e'] at h'
  simp only [toolPipe, expandPipe, expandAll, h, h']
  rfl

theorem external_one {a : Text} {as : List Text} (h : builtins.contains a = false) : external [a :: as] = true := by
  simp only [external, h]
  rfl

theorem external_two {a b : Text} {as bs : List Text} (h : builtins.contains a = false) (h' : builtins.contains b = false) :
    external [a :: as, b :: bs] = true := by
  simp only [external, h, h']
  rfl

end SVB.Shell
