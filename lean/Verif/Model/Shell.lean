import Verif.Model.SourceText
import Verif.Model.ShellSources

/-!
# The shell scripts of `/repo`

`/repo/tools/generate_and_check.sh` and `/repo/tools/update_bench.sh`, read as texts and run by an interpreter for the part of
bash they use: `set -e`, pipelines, `x=$(…)`, `$x`, `if [[ … != … || … ]]; then … fi`, `echo`, `exit`.  What is not in this part
is rejected (`none`).  External commands are a parameter (`Env`).

Simplifications: the commands of a pipeline run one after the other, each with the whole output of the one before as its
standard input (none of the commands used here ends before it has read its input); the standard error output is not modelled; the
standard input of the script is empty.
-/

set_option autoImplicit false

namespace SVB.Shell
open SVB.Sources

/-! ## Words -/

inductive Tok where
  | word (quoted : Bool) (t : Text)
  /-- `|` -/
  | bar
  /-- `||` -/
  | or
  | semi
  /-- `x=$(` -/
  | sub (x : Text)
  /-- `)` -/
  | close
deriving DecidableEq

/-- Letters, digits, underscore. -/
def nameChar (c : Nat) : Bool :=
  (Nat.ble 97 c && Nat.ble c 122) || (Nat.ble 65 c && Nat.ble c 90) || (Nat.ble 48 c && Nat.ble c 57) || Nat.beq c 95

/-- What else words can have without quotes: `! $ - . / = [ ]`.  All other characters are rejected. -/
def plainChar (c : Nat) : Bool := nameChar c || [33, 36, 45, 46, 47, 61, 91, 93].any (Nat.beq c)

/-- The word read so far, last character first, in front of what follows. -/
def flush (cur : Text) (ts : Option (List Tok)) : Option (List Tok) :=
  if cur.isEmpty then ts else ts.map (.word false cur.reverse :: ·)

/-- The tokens of a line.  The flag: between double quotes (nothing is expanded there).  A quoted word has to end at a blank
or at the end of the line. -/
def toks : Bool → Text → Text → Option (List Tok)
  | true, [], _ => none
  | true, [34], cur => some [.word true cur.reverse]
  | true, 34 :: 32 :: cs, cur => (toks false cs []).map (.word true cur.reverse :: ·)
  | true, c :: cs, cur => if [33, 34, 36, 92, 96].any (Nat.beq c) then none else toks true cs (c :: cur)
  | false, [], cur => flush cur (some [])
  | false, 32 :: cs, cur => flush cur (toks false cs [])
  | false, 34 :: cs, cur => if cur.isEmpty then toks true cs [] else none
  | false, 124 :: 124 :: cs, cur => flush cur ((toks false cs []).map (.or :: ·))
  | false, 124 :: cs, cur => flush cur ((toks false cs []).map (.bar :: ·))
  | false, 59 :: cs, cur => flush cur ((toks false cs []).map (.semi :: ·))
  | false, 41 :: cs, cur => flush cur ((toks false cs []).map (.close :: ·))
  | false, 36 :: 40 :: cs, cur =>
    match cur with
    | 61 :: x => if !x.isEmpty && x.all nameChar then (toks false cs []).map (.sub x.reverse :: ·) else none
    | _ => none
  | false, c :: cs, cur => if plainChar c then toks false cs (c :: cur) else none

/-- A line; `#` begins a comment here only if nothing but blanks is before it. -/
def lineToks (l : Text) : Option (List Tok) :=
  match l.dropWhile (Nat.beq 32) with
  | 35 :: _ => some []
  | l => toks false l []

/-- A part of a word: characters, or `$x`. -/
inductive Part where
  | lit (t : Text)
  | var (x : Text)
deriving DecidableEq

structure Word where
  quoted : Bool
  parts : List Part
deriving DecidableEq

def litPart (t : Text) : List Part := if t.isEmpty then [] else [.lit t.reverse]

/-- The parts of a word.  Last arguments: characters read so far, name read so far (after `$`), last first. -/
def parts : Text → Text → Option Text → Option (List Part)
  | [], cur, none => some (litPart cur)
  | [], _, some x => if x.isEmpty then none else some [.var x.reverse]
  | c :: cs, cur, none => if Nat.beq c 36 then (parts cs [] (some [])).map (litPart cur ++ ·) else parts cs (c :: cur) none
  | c :: cs, _, some x =>
    if nameChar c then parts cs [] (some (c :: x))
    else if x.isEmpty then none
    else if Nat.beq c 36 then (parts cs [] (some [])).map (.var x.reverse :: ·)
    else (parts cs [c] none).map (.var x.reverse :: ·)

def wordOf : Tok → Option Word
  | .word true t => some ⟨true, [.lit t]⟩
  | .word false t => (parts t [] none).map (⟨false, ·⟩)
  | _ => none

/-! ## Commands -/

/-- The commands between the bars. -/
abbrev Pipeline := List (List Word)

inductive Cmd where
  | run (p : Pipeline)
  /-- `x=$(p)` -/
  | assign (x : Text) (p : Pipeline)
  /-- `if [[ l != r || … ]]; then body fi` -/
  | ifNe (conds : List (Word × Word)) (body : List Pipeline)

def reserved : List Text :=
  [asc "if".toList, asc "then".toList, asc "else".toList, asc "elif".toList, asc "fi".toList, asc "for".toList,
    asc "while".toList, asc "until".toList, asc "do".toList, asc "done".toList, asc "case".toList, asc "esac".toList,
    asc "function".toList, asc "time".toList, asc "!".toList, asc "[[".toList, asc "coproc".toList, asc "select".toList]

/-- May this be the first word of a command? -/
def Word.opens (w : Word) : Bool :=
  match w with
  | ⟨false, [.lit t]⟩ => !reserved.contains t && !t.contains 61
  | _ => false

/-- A pipeline; `cur` are the words of the present command, last first. -/
def pipeline : List Tok → List Word → Option Pipeline
  | [], cur =>
    match cur.reverse with
    | w :: ws => if w.opens then some [w :: ws] else none
    | [] => none
  | .bar :: ts, cur =>
    match cur.reverse with
    | w :: ws => if w.opens then (pipeline ts []).map ((w :: ws) :: ·) else none
    | [] => none
  | t :: ts, cur => do
    let w ← wordOf t
    pipeline ts (w :: cur)

/-- `l != r || … ]]; then` -/
def condOf : List Tok → Option (List (Word × Word))
  | [l, .word false n, r, .word false e, .semi, .word false t] =>
    if n = asc "!=".toList ∧ e = asc "]]".toList ∧ t = asc "then".toList then do
      let l ← wordOf l
      let r ← wordOf r
      return [(l, r)]
    else none
  | l :: .word false n :: r :: .or :: ts =>
    if n = asc "!=".toList then do
      let l ← wordOf l
      let r ← wordOf r
      let cs ← condOf ts
      return (l, r) :: cs
    else none
  | _ => none

/-- The commands of a script; the last argument: the condition and the commands (last first) of an `if` that is still open. -/
def cmds : List (List Tok) → Option (List (Word × Word) × List Pipeline) → Option (List Cmd)
  | [], none => some []
  | [], some _ => none
  | [] :: ls, o => cmds ls o
  | (.word false t :: ts) :: ls, some (cs, body) =>
    if t = asc "fi".toList ∧ ts = [] then (cmds ls none).map (.ifNe cs body.reverse :: ·)
    else do
      let p ← pipeline (.word false t :: ts) []
      cmds ls (some (cs, p :: body))
  | (.word false t :: ts) :: ls, none =>
    if t = asc "if".toList then
      match ts with
      | .word false b :: ts => if b = asc "[[".toList then do cmds ls (some (← condOf ts, [])) else none
      | _ => none
    else do
      let p ← pipeline (.word false t :: ts) []
      let cs ← cmds ls none
      return .run p :: cs
  | (.sub x :: ts) :: ls, none =>
    match ts.reverse with
    | .close :: ts => do
      let p ← pipeline ts.reverse []
      let cs ← cmds ls none
      return .assign x p :: cs
    | _ => none
  | _ :: _, _ => none

/-- The commands of a file. -/
def parse (ls : List Nat) : Option (List Cmd) := do
  let ts ← ls.mapM fun l => lineToks (line l)
  cmds ts none

/-! ## Running -/

/-- What an external command does: its words and its standard input, in a world; it gives its status and its standard
output, and leaves a world. -/
abbrev Env (σ : Type) := List Text → Text → σ → Nat × Text × σ

structure State (σ : Type) where
  vars : List (Text × Text)
  /-- `set -e` -/
  errexit : Bool
  /-- standard output -/
  out : Text
  world : σ

inductive Out (σ : Type) where
  | go (status : Nat) (s : State σ)
  | exit (status : Nat) (s : State σ)

/-- The characters of a word; a variable without value is empty. -/
def textOf (vars : List (Text × Text)) (w : Word) : Text :=
  w.parts.flatMap fun
    | .lit t => t
    | .var x => (vars.lookup x).getD []

/-- Field splitting: at blanks, tabs, newlines. -/
def fields : Text → Text → List Text
  | [], cur => if cur.isEmpty then [] else [cur.reverse]
  | c :: cs, cur =>
    if Nat.beq c 32 || Nat.beq c 9 || Nat.beq c 10 then (if cur.isEmpty then fields cs [] else cur.reverse :: fields cs [])
    else fields cs (c :: cur)

/-- Characters with a meaning in patterns: `( * ? [ \`. -/
def patternChar (c : Nat) : Bool := [40, 42, 63, 91, 92].any (Nat.beq c)

/-- The words a word stands for in a command.  Not covered: words that could be patterns for file names. -/
def expand (vars : List (Text × Text)) (w : Word) : Option (List Text) :=
  let t := textOf vars w
  if w.quoted then some [t] else if t.any patternChar then none else some (fields t [])

def expandAll (vars : List (Text × Text)) : List Word → Option (List Text)
  | [] => some []
  | w :: ws => do
    let a ← expand vars w
    let b ← expandAll vars ws
    return a ++ b

def expandPipe (vars : List (Text × Text)) : Pipeline → Option (List (List Text))
  | [] => some []
  | c :: cs => do
    let a ← expandAll vars c
    let b ← expandPipe vars cs
    return a :: b

/-- Commands of the shell itself: only `set -e`, `echo` and `exit` are covered, and not in pipelines. -/
def builtins : List Text :=
  [asc "set".toList, asc "echo".toList, asc "exit".toList, asc "cd".toList, asc "export".toList, asc "eval".toList,
    asc "exec".toList, asc "source".toList, asc ".".toList, asc "trap".toList, asc "read".toList, asc "return".toList,
    asc "shift".toList, asc "unset".toList, asc "test".toList, asc "[".toList, asc "true".toList, asc "false".toList,
    asc "wait".toList, asc "kill".toList, asc "shopt".toList, asc "local".toList, asc "declare".toList, asc "printf".toList,
    asc "pwd".toList, asc "break".toList, asc "continue".toList, asc ":".toList]

def external : List (List Text) → Bool
  | [] => true
  | [] :: _ => false
  | (c :: _) :: cs => !builtins.contains c && external cs

section
variable {σ : Type} (env : Env σ)

/-- A pipeline of external commands; its status is that of the last one (`pipefail` is not set). -/
def pipe : List (List Text) → Text → σ → Nat × Text × σ
  | [], i, w => (0, i, w)
  | [c], i, w => env c i w
  | c :: cs, i, w => pipe cs (env c i w).2.1 (env c i w).2.2

/-- `echo`: the words with blanks between them. -/
def unwords : List Text → Text
  | [] => []
  | [t] => t
  | t :: ts => t ++ 32 :: unwords ts

/-- After a command with this status. -/
def after (status : Nat) (s : State σ) : Out σ :=
  if status ≠ 0 ∧ s.errexit = true then .exit status s else .go status s

def number : Text → Nat → Option Nat
  | [], n => some n
  | c :: cs, n => if Nat.ble 48 c && Nat.ble c 57 then number cs (10 * n + (c - 48)) else none

def runPipeline (p : Pipeline) (s : State σ) : Option (Out σ) := do
  let cs ← expandPipe s.vars p
  if cs = [[asc "set".toList, asc "-e".toList]] then return .go 0 { s with errexit := true }
  else if external cs then
    let r := pipe env cs [] s.world
    return after r.1 { s with out := s.out ++ r.2.1, world := r.2.2 }
  else
    match cs with
    | [[c, n]] =>
      if c = asc "exit".toList then do return .exit ((← number n 0) % 256) s
      else if c = asc "echo".toList ∧ n.head? ≠ some 45 then return .go 0 { s with out := s.out ++ n ++ [10] }
      else none
    | _ => none

/-- What `$(…)` gives for this output: without zero bytes and without newlines at the end. -/
def captured (t : Text) : Text := ((t.filter (· ≠ 0)).reverse.dropWhile (Nat.beq 10)).reverse

/-- `l != r` in `[[ ]]`; `r` would be a pattern: not covered if it has characters for that. -/
def unequal (vars : List (Text × Text)) : List (Word × Word) → Option Bool
  | [] => some false
  | (l, r) :: cs =>
    let t := textOf vars r
    if t.any patternChar then none
    else if textOf vars l ≠ t then some true else unequal vars cs

def runBody : List Pipeline → Nat → State σ → Option (Out σ)
  | [], status, s => some (.go status s)
  | p :: ps, _, s =>
    match runPipeline env p s with
    | some (.go status s) => runBody ps status s
    | r => r

def runCmd (c : Cmd) (s : State σ) : Option (Out σ) :=
  match c with
  | .run p => runPipeline env p s
  | .assign x p => do
    let cs ← expandPipe s.vars p
    if external cs then
      let r := pipe env cs [] s.world
      return after r.1 { s with vars := (x, captured r.2.1) :: s.vars, world := r.2.2 }
    else none
  | .ifNe conds body => do
    if ← unequal s.vars conds then runBody env body 0 s else return .go 0 s

/-- The commands of a script, one after the other; `status` is that of the last one. -/
def runCmds : List Cmd → Nat → State σ → Option (Nat × Text × σ)
  | [], status, s => some (status, s.out, s.world)
  | c :: cs, _, s =>
    match runCmd env c s with
    | some (.go status s) => runCmds cs status s
    | some (.exit status s) => some (status, s.out, s.world)
    | none => none

/-- A script run from its text, with these environment variables: exit status, standard output, world. -/
def script (text : List Nat) (vars : List (Text × Text)) (w : σ) : Option (Nat × Text × σ) := do
  let cs ← parse text
  runCmds env cs 0 ⟨vars, false, [], w⟩

end

/-! ## `make` -/

/-- The lines of the recipe of a target: those after `target:` that begin with a tab, without it. -/
def recipe (target : Text) : List Text → List Text
  | [] => []
  | l :: ls => if l = target ++ [58] then (ls.takeWhile fun l => l.head? = some 9).map (·.drop 1) else recipe target ls

/-- The words of a recipe line without variables, quotes and bars. -/
def recipeWords (l : Text) : Option (List Text) := do
  let ts ← lineToks l
  let p ← pipeline ts []
  match ← expandPipe [] p with
  | [c] => if external [c] then some c else none
  | _ => none

/-- `make target` with a Makefile without prerequisites, in a directory with these files: the lines of the recipe are printed
and run one after the other, until one fails: then the status is 2.  A file with the name of the target counts as up to date
(the Makefile has no `.PHONY`). -/
def runRecipe {σ : Type} (env : Env σ) : List Text → Text → σ → Option (Nat × Text × σ)
  | [], out, w => some (0, out, w)
  | l :: ls, out, w => do
    let c ← recipeWords l
    let r := env c [] w
    let out := out ++ l ++ [10] ++ r.2.1
    if r.1 = 0 then runRecipe env ls out r.2.2 else return (2, out, r.2.2)

def make {σ : Type} (env : Env σ) (exists? : Text → σ → Bool) (file : List Nat) (target : Text) (w : σ) :
    Option (Nat × Text × σ) :=
  if exists? target w then some (0, asc "make: '".toList ++ target ++ asc "' is up to date.\n".toList, w)
  else runRecipe env (recipe target (file.map line)) [] w

end SVB.Shell
