import Verif.Proofs.ShellRun
import Verif.Props.Generate
import Verif.Props.Programs

/-! # C64: the shell scripts, from their texts

`tools/generate_and_check.sh` (what CI runs) and `tools/update_bench.sh` are parsed from their texts and run by the interpreter
in `Shell.lean`; the commands they call are described by hypotheses. -/

set_option autoImplicit false
set_option maxRecDepth 100000

namespace SVB.Props
open Sources Shell

/-! ## `generate_and_check.sh` -/

/-- `0`-`9`, `a`-`f` -/
def hexDigit (c : Nat) : Bool := (Nat.ble 48 c && Nat.ble c 57) || (Nat.ble 97 c && Nat.ble c 102)

/-- The commands `git` and `sha1sum`: `git diff` and `git status --porcelain` print texts that depend on the state of the
repository, change nothing, and end with any status; `sha1sum` prints a hash in hexadecimal digits, two blanks and `-`. -/
structure CheckEnv {σ : Type} (env : Env σ) (diff status : σ → Text) (sha : Text → Text) : Prop where
  gitDiff : ∀ w, ∃ st, env [asc "git".toList, asc "diff".toList] [] w = (st, diff w, w)
  gitStatus : ∀ w, ∃ st, env [asc "git".toList, asc "status".toList, asc "--porcelain".toList] [] w = (st, status w, w)
  sum : ∀ i w, env [asc "sha1sum".toList] i w = (0, sha i ++ asc "  -\n".toList, w)
  hex : ∀ i, (sha i).all hexDigit = true

section
variable {σ : Type} {env : Env σ} {diff status : σ → Text} {sha : Text → Text}

/-- The value of a variable after `x=$(… | sha1sum)`. -/
private def summed (sha : Text → Text) (i : Text) : Text := sha i ++ asc "  -".toList

private theorem summed_inj (i j : Text) : summed sha i = summed sha j ↔ sha i = sha j :=
  ⟨fun h => List.append_cancel_right h, fun h => by rw [summed, summed, h]⟩

private theorem captured_sum (h : CheckEnv env diff status sha) (i : Text) :
    captured (sha i ++ asc "  -\n".toList) = summed sha i := by
  have e : sha i ++ asc "  -\n".toList = (sha i ++ asc "  -".toList) ++ [10] := by
    rw [List.append_assoc]; rfl
  rw [e, captured_line]
  · rfl
  · rw [List.all_append, Bool.and_eq_true]
    refine ⟨List.all_eq_true.mpr fun c hc => ?_, by decide⟩
    have hx : hexDigit c = true := List.all_eq_true.mp (h.hex i) c hc
    rw [decide_eq_true_eq]
    rintro rfl
    exact absurd hx (by decide)
  · rw [List.getLast?_append]
    show some 45 ≠ some 10
    decide

private theorem summed_plain (h : CheckEnv env diff status sha) (i : Text) : (summed sha i).any patternChar = false := by
  rw [summed, List.any_append, Bool.or_eq_false_iff]
  refine ⟨List.any_eq_false.mpr fun c hc hp => ?_, by decide⟩
  have hx : hexDigit c = true := List.all_eq_true.mp (h.hex i) c hc
  have : c = 40 ∨ c = 42 ∨ c = 63 ∨ c = 91 ∨ c = 92 := by
    simpa [patternChar, List.any_cons, Nat.beq_eq] using hp
  rcases this with rfl | rfl | rfl | rfl | rfl <;> exact absurd hx (by decide)

private theorem diff_step (h : CheckEnv env diff status sha) (x : Text) (vars : List (Text × Text)) (o : Text) (w : σ) :
    runCmd env (.assign x diffPipe) ⟨vars, true, o, w⟩ = some (.go 0 ⟨(x, summed sha (diff w)) :: vars, true, o, w⟩) := by
  obtain ⟨st, hd⟩ := h.gitDiff w
  have hp : pipe env [[asc "git".toList, asc "diff".toList], [asc "sha1sum".toList]] [] w =
      (0, sha (diff w) ++ asc "  -\n".toList, w) := by
    rw [pipe_two, hd, h.sum]
  rw [assign_step (cs := [[asc "git".toList, asc "diff".toList], [asc "sha1sum".toList]]) rfl (by decide +kernel) hp,
    captured_sum h, after_zero]

private theorem status_step (h : CheckEnv env diff status sha) (x : Text) (vars : List (Text × Text)) (o : Text) (w : σ) :
    runCmd env (.assign x statusPipe) ⟨vars, true, o, w⟩ = some (.go 0 ⟨(x, summed sha (status w)) :: vars, true, o, w⟩) := by
  obtain ⟨st, hd⟩ := h.gitStatus w
  have hp : pipe env [[asc "git".toList, asc "status".toList, asc "--porcelain".toList], [asc "sha1sum".toList]] [] w =
      (0, sha (status w) ++ asc "  -\n".toList, w) := by
    rw [pipe_two, hd, h.sum]
  rw [assign_step (cs := [[asc "git".toList, asc "status".toList, asc "--porcelain".toList], [asc "sha1sum".toList]]) rfl
    (by decide +kernel) hp, captured_sum h, after_zero]

/-- C64: `generate_and_check.sh` runs `make generate` once.  If that fails it ends with its status; otherwise it ends with
status 0 if the hashes of both git outputs are as before, and with status 1 and a message if one is not. -/
theorem C64_check (h : CheckEnv env diff status sha) (vars : List (Text × Text)) (w : σ) :
    script env checkSh vars w =
      let r := env [asc "make".toList, asc "generate".toList] [] w
      some (if r.1 ≠ 0 then r
        else if sha (diff w) = sha (diff r.2.2) ∧ sha (status w) = sha (status r.2.2) then (0, r.2.1, r.2.2)
        else (1, r.2.1 ++ asc message ++ [10], r.2.2)) := by
  rcases hr : env [asc "make".toList, asc "generate".toList] [] w with ⟨st, o, w'⟩
  rw [script, check_parsed]
  show runCmds env checkCmds 0 ⟨vars, false, [], w⟩ = _
  rw [checkCmds, runCmds_go (run_set ..), runCmds_go (diff_step h ..), runCmds_go (status_step h ..)]
  have hm := fun vars => pipe_step (env := env) (p := [[lw "make".toList, lw "generate".toList]])
    (cs := [[asc "make".toList, asc "generate".toList]]) (vars := vars) (o := []) rfl (by decide +kernel) (by decide +kernel) hr
  by_cases h0 : st = 0
  · subst h0
    simp only [after_zero] at hm
    rw [runCmds_go (hm _), runCmds_go (diff_step h ..), runCmds_go (status_step h ..)]
    simp only [ne_eq, not_true, if_false, List.nil_append]
    by_cases hs : sha (diff w) = sha (diff w') ∧ sha (status w) = sha (status w')
    · rw [if_pos hs, runCmds_go (if_same (unequal_two _ _ _ _ vars (summed_plain h _) (summed_plain h _)) ?_)]
      · rfl
      · rw [summed_inj, summed_inj]; exact hs
    · rw [if_neg hs, runCmds_exit (if_other (unequal_two _ _ _ _ vars (summed_plain h _) (summed_plain h _)) ?_)]
      rw [summed_inj, summed_inj]; exact hs
  · have hm' := hm ((asc "BEFORE_STATUS".toList, summed sha (status w)) :: (asc "BEFORE_DIFF".toList, summed sha (diff w)) :: vars)
    rw [after_ne h0 rfl] at hm'
    rw [runCmds_exit hm']
    simp only [ne_eq, h0, not_false_eq_true, if_true, List.nil_append]

/-- C64: without a working `sha1sum` the script ends with its status, before anything is generated. -/
theorem C64_no_sum (vars : List (Text × Text)) (w w₁ w₂ : σ) (st k : Nat) (d o : Text)
    (hd : env [asc "git".toList, asc "diff".toList] [] w = (st, d, w₁))
    (hs : env [asc "sha1sum".toList] d w₁ = (k, o, w₂)) (hk : k ≠ 0) : script env checkSh vars w = some (k, [], w₂) := by
  rw [script, check_parsed]
  show runCmds env checkCmds 0 ⟨vars, false, [], w⟩ = _
  have hp : pipe env [[asc "git".toList, asc "diff".toList], [asc "sha1sum".toList]] [] w = (k, o, w₂) := by
    rw [pipe_two, hd, hs]
  have hm := assign_step (env := env) (x := asc "BEFORE_DIFF".toList) (p := diffPipe)
    (cs := [[asc "git".toList, asc "diff".toList], [asc "sha1sum".toList]]) (vars := vars) (o := []) rfl (by decide +kernel) hp
  rw [after_ne hk rfl] at hm
  rw [checkCmds, runCmds_go (run_set ..), runCmds_exit hm]

/-- C64: if `git` does not work (its status is ignored: it is not the last command of its pipeline) and prints nothing, the
check passes whatever `make generate` has changed. -/
theorem C64_git_broken (h : CheckEnv env (fun _ => []) (fun _ => []) sha) (vars : List (Text × Text)) (w w' : σ) (o : Text)
    (hm : env [asc "make".toList, asc "generate".toList] [] w = (0, o, w')) :
    script env checkSh vars w = some (0, o, w') := by
  rw [C64_check h, hm]
  simp only [ne_eq, not_true, if_false, and_self, if_true]

end

/-! ### With files and git -/

/-- The files of a working tree, by their paths. -/
abbrev Tree := Text → Option Text

/-- What `git diff` and `git status --porcelain` tell about a working tree (the index being the same): the first one the contents
of all tracked files; the second one at least which of the files `listed` (untracked, not ignored, not in an untracked
directory) there are, and nothing about the contents of untracked files. -/
structure Git (diff status : Tree → Text) (tracked listed : Text → Prop) : Prop where
  diffs : ∀ t t', diff t = diff t' ↔ ∀ p, tracked p → t p = t' p
  same : ∀ t t', (∀ p, tracked p → t p = t' p) → (∀ p, (t p).isSome = (t' p).isSome) → status t = status t'
  new : ∀ t t', status t = status t' → ∀ p, listed p → (t p).isSome = (t' p).isSome

section
variable {env : Env Tree} {diff status : Tree → Text} {sha : Text → Text} {tracked listed : Text → Prop}

/-- C64: when the hashes of these outputs do not collide, the script succeeds only if `make generate` did and has not changed any tracked file,
nor created or removed a file that git lists; and then it does succeed if there are the same files as before. -/
theorem C64_pass (h : CheckEnv env diff status sha) (hg : Git diff status tracked listed)
    (vars : List (Text × Text)) (t t' : Tree) (st : Nat) (o : Text)
    (hc : sha (diff t) = sha (diff t') → diff t = diff t') (hc' : sha (status t) = sha (status t') → status t = status t')
    (hm : env [asc "make".toList, asc "generate".toList] [] t = (st, o, t')) :
    (script env checkSh vars t = some (0, o, t') →
      st = 0 ∧ (∀ p, tracked p → t p = t' p) ∧ ∀ p, listed p → (t p).isSome = (t' p).isSome) ∧
    (st = 0 → (∀ p, tracked p → t p = t' p) → (∀ p, (t p).isSome = (t' p).isSome) →
      script env checkSh vars t = some (0, o, t')) ∧
    (st = 0 → (∃ p, tracked p ∧ t p ≠ t' p) ∨ (∃ p, listed p ∧ (t p).isSome ≠ (t' p).isSome) →
      script env checkSh vars t = some (1, o ++ asc message ++ [10], t')) ∧
    (st ≠ 0 → script env checkSh vars t = some (st, o, t')) := by
  have key := C64_check h vars t
  rw [hm] at key
  simp only at key
  have same : sha (diff t) = sha (diff t') ∧ sha (status t) = sha (status t') →
      (∀ p, tracked p → t p = t' p) ∧ ∀ p, listed p → (t p).isSome = (t' p).isSome := fun ⟨a, b⟩ =>
    ⟨(hg.diffs t t').mp (hc a), hg.new t t' (hc' b)⟩
  refine ⟨fun hs => ?_, fun h0 h1 h2 => ?_, fun h0 hx => ?_, fun h0 => ?_⟩
  · rw [key] at hs
    by_cases h0 : st = 0
    · refine ⟨h0, same ?_⟩
      apply Classical.byContradiction
      intro hn
      rw [if_neg (not_not_intro h0), if_neg hn] at hs
      simp at hs
    · rw [if_pos h0] at hs
      simp only [Option.some.injEq, Prod.mk.injEq] at hs
      exact absurd hs.1 h0
  · rw [key, if_neg (not_not_intro h0), if_pos ⟨by rw [(hg.diffs t t').mpr h1], by rw [hg.same t t' h1 h2]⟩]
  · rw [key, if_neg (not_not_intro h0), if_neg]
    intro hs
    obtain ⟨h1, h2⟩ := same hs
    rcases hx with ⟨p, hp, hne⟩ | ⟨p, hp, hne⟩
    · exact hne (h1 p hp)
    · exact hne (h2 p hp)
  · rw [key, if_pos h0]

/-- C64: what the script does not see: a `make generate` that changes the contents of untracked files only. -/
theorem C64_untracked (h : CheckEnv env diff status sha) (hg : Git diff status tracked listed)
    (vars : List (Text × Text)) (t t' : Tree) (o : Text)
    (hm : env [asc "make".toList, asc "generate".toList] [] t = (0, o, t'))
    (h1 : ∀ p, t p ≠ t' p → ¬ tracked p ∧ (t p).isSome = (t' p).isSome) :
    script env checkSh vars t = some (0, o, t') := by
  have key := C64_check h vars t
  rw [hm] at key
  have a : ∀ p, tracked p → t p = t' p := fun p hp => Classical.byContradiction fun hn => (h1 p hn).1 hp
  have b : ∀ p, (t p).isSome = (t' p).isSome := fun p => by
    by_cases hn : t p = t' p
    · rw [hn]
    · exact (h1 p hn).2
  rw [key]
  simp only [ne_eq, not_true, if_false]
  rw [if_pos ⟨by rw [(hg.diffs t t').mpr a], by rw [hg.same t t' a b]⟩]

end

/-! ### With the generators of the repository -/

/-- A file of a working tree with new contents. -/
def Tree.put (t : Tree) (p c : Text) : Tree := fun q => if q = p then some c else t q

open SVB.Script in
/-- What the command in the `gen.go` of an `asm.go` program writes: name (without `./`) and contents. -/
def asmOut (gen asm : List Nat) (as : List Alloc) (w : World) : Option (Text × Text) :=
  match commands (gen.map line) with
  | [some (p, [(f, 46 :: 47 :: out)])] =>
    if p = asc "./main/asm.go".toList ∧ f = asc "out".toList then do
      let r ← runAsm asm 100 w
      let ls ← avoFile (46 :: 47 :: out) as r
      return (out, unlines ls)
    else none
  | _ => none

open SVB.Script in
/-- What the command in `pkg/shared/gen.go` writes. -/
def tablesOut (w : World) : Option (Text × Text) :=
  match commands (genGo.map line) with
  | [some (p, args)] =>
    if p = asc "./main/gentables.go".toList then
      match runTables 60 { w with args, canCreate := true, writeFails := none, fuel := 300 } with
      | some (0, [(46 :: 47 :: out, t)], _) => some (out, t)
      | _ => none
    else none
  | _ => none

open SVB.Script in
/-- `go generate ./pkg/...`: the commands of the packages `decode`, `encode`, `shared`, from the texts of the repository, when
`avo` assigns registers like this. -/
def goGenerate (dec enc : List Alloc) (w : World) (t : Tree) : Nat × Text × Tree :=
  match asmOut decodeGenGo decodeAsmGo dec w, asmOut encodeGenGo encodeAsmGo enc w, tablesOut w with
  | some (a, x), some (b, y), some (c, z) =>
    (0, [], ((t.put (asc "pkg/decode/".toList ++ a) x).put (asc "pkg/encode/".toList ++ b) y).put (asc "pkg/shared/".toList ++ c) z)
  | _, _, _ => (1, [], t)

open SVB.Script in
private theorem asmOut_of {gen asm : List Nat} {as : List Alloc} {w : World} {out : Text} {r : Res (List V)} {ls : List Text}
    (h1 : commands (gen.map line) = [some (asc "./main/asm.go".toList, [(asc "out".toList, 46 :: 47 :: out)])])
    (h2 : runAsm asm 100 w = some r) (h3 : avoFile (46 :: 47 :: out) as r = some ls) :
    asmOut gen asm as w = some (out, unlines ls) := by
  rw [asmOut, h1]
  simp only [and_self, if_true, h2, Option.bind_eq_bind, Option.bind_some, h3]
  rfl

open SVB.Script in
private theorem tablesOut_of {w : World} {args : List (Text × Text)} {out t : Text}
    (h1 : commands (genGo.map line) = [some (asc "./main/gentables.go".toList, args)])
    (h2 : runTables 60 { w with args, canCreate := true, writeFails := none, fuel := 300 } = some (0, [(46 :: 47 :: out, t)], [])) :
    tablesOut w = some (out, t) := by
  rw [tablesOut, h1]
  simp only [if_true, h2]

open SVB.Script in
private theorem goGenerate_of {dec enc : List Alloc} {w : World} {a x b y c z : Text}
    (h1 : asmOut decodeGenGo decodeAsmGo dec w = some (a, x)) (h2 : asmOut encodeGenGo encodeAsmGo enc w = some (b, y))
    (h3 : tablesOut w = some (c, z)) (t : Tree) :
    goGenerate dec enc w t = (0, [], ((t.put (asc "pkg/decode/".toList ++ a) x).put (asc "pkg/encode/".toList ++ b) y).put
      (asc "pkg/shared/".toList ++ c) z) := by
  rw [goGenerate, h1, h2, h3]

/-- The contents of the checked-in generated files. -/
def decodeText : Text := Script.unlines (decodeS.map line)
def encodeText : Text := Script.unlines (encodeS.map line)
def tablesText : Text := Script.unlines (tablesGo.map line)

open SVB.Script SVB.Gen in
theorem goGenerate_eq (w : World) (t : Tree) :
    goGenerate [⟨decG, decX⟩, ⟨decG, decX⟩] [⟨encG, encX⟩, ⟨encG, encDX⟩] w t =
      (0, [], ((t.put (asc "pkg/decode/decode_amd64.s".toList) decodeText).put
        (asc "pkg/encode/encode_amd64.s".toList) encodeText).put (asc "pkg/shared/tables.go".toList) tablesText) := by
  have hd : asmOut decodeGenGo decodeAsmGo [⟨decG, decX⟩, ⟨decG, decX⟩] w = some (asc "decode_amd64.s".toList, decodeText) := by
    obtain ⟨p, o, r, h1, h2, h3, h4, h5⟩ := C58_decode w
    have ho : o = 46 :: 47 :: asc "decode_amd64.s".toList := h3.trans (by decide)
    rw [ho, h2] at h1
    rw [ho] at h5
    exact asmOut_of h1 h4 h5
  have he : asmOut encodeGenGo encodeAsmGo [⟨encG, encX⟩, ⟨encG, encDX⟩] w = some (asc "encode_amd64.s".toList, encodeText) := by
    obtain ⟨p, o, r, h1, h2, h3, h4, h5⟩ := C58_encode w
    have ho : o = 46 :: 47 :: asc "encode_amd64.s".toList := h3.trans (by decide)
    rw [ho, h2] at h1
    rw [ho] at h5
    exact asmOut_of h1 h4 h5
  have ht : tablesOut w = some (asc "tables.go".toList, tablesText) := by
    obtain ⟨p, a, h1, h2, h3⟩ := C58_tables 0 w
    rw [h2] at h1
    rw [show asc "./tables.go".toList = 46 :: 47 :: asc "tables.go".toList by decide] at h3
    exact tablesOut_of h1 h3
  rw [goGenerate_of hd he ht]
  rw [show asc "pkg/decode/".toList ++ asc "decode_amd64.s".toList = asc "pkg/decode/decode_amd64.s".toList by decide,
    show asc "pkg/encode/".toList ++ asc "encode_amd64.s".toList = asc "pkg/encode/encode_amd64.s".toList by decide,
    show asc "pkg/shared/".toList ++ asc "tables.go".toList = asc "pkg/shared/tables.go".toList by decide]

/-- `make generate` and `go generate`, as commands: the first one runs the Makefile of the repository. -/
structure GenerateEnv (env : Env Tree) (dec enc : List Script.Alloc) (w : Script.World) : Prop where
  make : ∀ t r, make env (fun p t => (t p).isSome) makefile (asc "generate".toList) t = some r →
    env [asc "make".toList, asc "generate".toList] [] t = r
  go : ∀ t, env [asc "go".toList, asc "generate".toList, asc "./pkg/...".toList] [] t = goGenerate dec enc w t

private theorem recipe_eq : recipe (asc "generate".toList) (makefile.map line) = [asc "go generate ./pkg/...".toList] := by
  kernel_rfl

private theorem words_eq : recipeWords (asc "go generate ./pkg/...".toList) =
    some [asc "go".toList, asc "generate".toList, asc "./pkg/...".toList] := by kernel_rfl

/-- What `make` prints: the line of the recipe. -/
def makeSays : Text := asc "go generate ./pkg/...\n".toList

private theorem put_same {t : Tree} {p c : Text} (h : t p = some c) : t.put p c = t := by
  funext q
  rw [Tree.put]
  split
  · rename_i e; rw [e, h]
  · rfl

section
variable {env : Env Tree} {diff status : Tree → Text} {sha : Text → Text} {tracked listed : Text → Prop} {w : Script.World}

open SVB.Gen in
/-- `make generate`, in a tree without a file of this name. -/
theorem make_generate (hm : GenerateEnv env [⟨decG, decX⟩, ⟨decG, decX⟩] [⟨encG, encX⟩, ⟨encG, encDX⟩] w) (t : Tree)
    (hf : t (asc "generate".toList) = none) :
    env [asc "make".toList, asc "generate".toList] [] t =
      (0, makeSays, ((t.put (asc "pkg/decode/decode_amd64.s".toList) decodeText).put
        (asc "pkg/encode/encode_amd64.s".toList) encodeText).put (asc "pkg/shared/tables.go".toList) tablesText) := by
  refine hm.make t _ ?_
  rw [make, if_neg (by rw [hf]; decide), recipe_eq, runRecipe, words_eq]
  simp only [Option.bind_eq_bind, Option.bind_some, hm.go, goGenerate_eq, if_true, runRecipe]
  rw [show ([] ++ asc "go generate ./pkg/...".toList ++ [10] ++ [] : Text) = makeSays by decide]

open SVB.Gen in
/-- C64: in a tree with the generated files as they are checked in, the check succeeds and changes nothing, from the texts of
the script, of the Makefile, of the `gen.go` files and of the generators. -/
theorem C64_repo (h : CheckEnv env diff status sha)
    (hm : GenerateEnv env [⟨decG, decX⟩, ⟨decG, decX⟩] [⟨encG, encX⟩, ⟨encG, encDX⟩] w) (vars : List (Text × Text)) (t : Tree)
    (hf : t (asc "generate".toList) = none) (hd : t (asc "pkg/decode/decode_amd64.s".toList) = some decodeText)
    (he : t (asc "pkg/encode/encode_amd64.s".toList) = some encodeText)
    (ht : t (asc "pkg/shared/tables.go".toList) = some tablesText) :
    script env checkSh vars t = some (0, makeSays, t) := by
  have key := C64_check h vars t
  rw [make_generate hm t hf, put_same hd, put_same he, put_same ht] at key
  rw [key]
  simp only [ne_eq, not_true, if_false, and_self, if_true]

open SVB.Gen in
/-- C64: if one of these files is tracked and has other contents, the check fails with the message (unless the hashes of two
different outputs of `git diff` collide), and leaves the three files as the generators make them. -/
theorem C64_stale (h : CheckEnv env diff status sha) (hg : Git diff status tracked listed)
    (hm : GenerateEnv env [⟨decG, decX⟩, ⟨decG, decX⟩] [⟨encG, encX⟩, ⟨encG, encDX⟩] w) (vars : List (Text × Text)) (t : Tree)
    (hf : t (asc "generate".toList) = none)
    (hs : (tracked (asc "pkg/decode/decode_amd64.s".toList) ∧ t (asc "pkg/decode/decode_amd64.s".toList) ≠ some decodeText) ∨
      (tracked (asc "pkg/encode/encode_amd64.s".toList) ∧ t (asc "pkg/encode/encode_amd64.s".toList) ≠ some encodeText) ∨
      (tracked (asc "pkg/shared/tables.go".toList) ∧ t (asc "pkg/shared/tables.go".toList) ≠ some tablesText)) :
    ∃ t', diff t ≠ diff t' ∧
      (sha (diff t) ≠ sha (diff t') → script env checkSh vars t = some (1, makeSays ++ asc message ++ [10], t')) ∧
      t' (asc "pkg/decode/decode_amd64.s".toList) = some decodeText ∧
      t' (asc "pkg/encode/encode_amd64.s".toList) = some encodeText ∧ t' (asc "pkg/shared/tables.go".toList) = some tablesText ∧
      ∀ p, p ≠ asc "pkg/decode/decode_amd64.s".toList → p ≠ asc "pkg/encode/encode_amd64.s".toList →
        p ≠ asc "pkg/shared/tables.go".toList → t' p = t p := by
  have hde : asc "pkg/decode/decode_amd64.s".toList ≠ asc "pkg/encode/encode_amd64.s".toList := by decide +kernel
  have hdt : asc "pkg/decode/decode_amd64.s".toList ≠ asc "pkg/shared/tables.go".toList := by decide +kernel
  have het : asc "pkg/encode/encode_amd64.s".toList ≠ asc "pkg/shared/tables.go".toList := by decide +kernel
  have hmk := make_generate hm t hf
  generalize asc "pkg/decode/decode_amd64.s".toList = D at *
  generalize asc "pkg/encode/encode_amd64.s".toList = E at *
  generalize asc "pkg/shared/tables.go".toList = T at *
  generalize decodeText = x at *
  generalize encodeText = y at *
  generalize tablesText = z at *
  have e1 : ((t.put D x).put E y).put T z D = some x := by simp only [Tree.put, if_neg hdt, if_neg hde, if_true]
  have e2 : ((t.put D x).put E y).put T z E = some y := by simp only [Tree.put, if_neg het, if_true]
  have e3 : ((t.put D x).put E y).put T z T = some z := by simp only [Tree.put, if_true]
  have hne : diff t ≠ diff (((t.put D x).put E y).put T z) := fun e => by
    have hall := (hg.diffs _ _).mp e
    rcases hs with ⟨a, b⟩ | ⟨a, b⟩ | ⟨a, b⟩
    · exact b ((hall D a).trans e1)
    · exact b ((hall E a).trans e2)
    · exact b ((hall T a).trans e3)
  refine ⟨_, hne, fun hsha => ?_, e1, e2, e3, fun p h1 h2 h3 => ?_⟩
  · have key := C64_check h vars t
    rw [hmk] at key
    rw [key]
    simp only [ne_eq, not_true, if_false]
    rw [if_neg fun hs => hsha hs.1]
  · simp only [Tree.put, if_neg h1, if_neg h2, if_neg h3]

/-- C64: the targets of the Makefile are not declared phony: if there is a file with the name `generate`, nothing is generated
and the check succeeds, whatever the generated files look like. -/
theorem C64_not_phony (h : CheckEnv env diff status sha) {dec enc : List Script.Alloc} (hm : GenerateEnv env dec enc w)
    (vars : List (Text × Text)) (t : Tree) (hf : t (asc "generate".toList) ≠ none) :
    script env checkSh vars t = some (0, asc "make: 'generate' is up to date.\n".toList, t) := by
  have hx : (t (asc "generate".toList)).isSome = true := by
    cases e : t (asc "generate".toList) with
    | none => exact absurd e hf
    | some _ => rfl
  have hk : env [asc "make".toList, asc "generate".toList] [] t =
      (0, asc "make: '".toList ++ asc "generate".toList ++ asc "' is up to date.\n".toList, t) := by
    refine hm.make t _ ?_
    rw [make, if_pos hx]
  rw [C64_check h, hk]
  simp only [ne_eq, not_true, if_false, and_self, if_true]
  rfl

end

/-! ## `update_bench.sh` -/

open SVB.Bench
open Script.Bench (code worldOf pathOf)

/-- A working tree without a file. -/
def Tree.remove (t : Tree) (p : Text) : Tree := fun q => if q = p then none else t q

/-- The world of the benchmark tool in a tree, with this value of `SBYTE_HOME`. -/
def toolWorld (w : Script.World) (home : Text) (t : Tree) (bench : List Byte) : Script.World :=
  { w with disk := t, getenv := fun n => if n = asc "SBYTE_HOME".toList then home else w.getenv n,
           fuel := (scanned bench).length + 1 }

/-- What `go run` makes of the end of a program: the status is 1 if it failed or panicked. -/
def goRun (t : Tree) : Option Script.Bench.Ending → Nat × Text × Tree
  | some (.exit c files o) => (if c = 0 then 0 else 1, o, files.foldl (fun t f => t.put f.1 f.2) t)
  | _ => (1, [], t)

/-- `go run …/parse_and_write_bench.go -w`: the program of C59, run from its text. -/
def toolRun (w : Script.World) (canCreate : Bool) (writeFails : Option Nat) (home : Text) (bench : List Byte) (t : Tree) :
    Nat × Text × Tree :=
  goRun t (runBench 51 (worldOf true canCreate true (tooLong bench) writeFails (toolWorld w home t bench)) (scanned bench))

/-- The commands of `update_bench.sh`: `mktemp` makes a new file and prints its name; `go test` prints anything, ends with any
status and leaves the files; then `tee`, `cat`, `rm` and the benchmark tool. -/
structure UpdateEnv (env : Env Tree) (tmp home : Text) (testStatus : Nat) (bench : List Byte) (w : Script.World) (canCreate : Bool)
    (writeFails : Option Nat) : Prop where
  mktemp : ∀ t, t tmp = none → env [asc "mktemp".toList] [] t = (0, tmp ++ [10], t.put tmp [])
  test : ∀ t, env [asc "go".toList, asc "test".toList, asc "-bench".toList, asc ".".toList, asc "./pkg/...".toList] [] t =
    (testStatus, code bench, t)
  tee : ∀ i t, env [asc "tee".toList, tmp] i t = (0, i, t.put tmp i)
  cat : ∀ i t c, t tmp = some c → env [asc "cat".toList, tmp] i t = (0, c, t)
  tool : ∀ b t, env [asc "go".toList, asc "run".toList, toolPath home, asc "-w".toList] (code b) t =
    toolRun w canCreate writeFails home b t
  rm : ∀ i t c, t tmp = some c → env [asc "rm".toList, tmp] i t = (0, [], t.remove tmp)
  tmpPlain : plainText tmp = true
  tmpSome : tmp ≠ []
  homePlain : plainText home = true

section
variable {env : Env Tree} {tmp home : Text} {testStatus : Nat} {bench : List Byte} {w : Script.World} {canCreate : Bool}
  {writeFails : Option Nat}

/-- The path of the README the tool works on. -/
def readmePath (home : Text) : Text := Script.joinPath home (asc "README.md".toList)

private theorem put_put (t : Tree) (p a b : Text) : (t.put p a).put p b = t.put p b := by
  funext q
  simp only [Tree.put]
  split <;> rfl

private theorem put_at (t : Tree) (p a : Text) : t.put p a p = some a := if_pos rfl

private theorem path_eq (b : List Byte) (t : Tree) : pathOf (toolWorld w home t b) = readmePath home := by
  rw [pathOf, readmePath]
  simp only [toolWorld, if_true]

private theorem fuel_lt (b : List Byte) (t : Tree) : (scanned b).length < (toolWorld w home t b).fuel := Nat.lt_succ_self _

/-- The tool without a README. -/
private theorem toolRun_none (b : List Byte) {t : Tree} (ht : t (readmePath home) = none) :
    toolRun w canCreate writeFails home b t = (1, [], t) := by
  have h := C59_bench_fail 0 true canCreate writeFails (toolWorld w home t b) (scanned b) (fuel_lt b t)
  simp only [Nat.zero_add, path_eq] at h
  have h' : runBench 51 (worldOf true canCreate true (tooLong b) writeFails (toolWorld w home t b)) (scanned b) =
      some (.exit 1 [] []) := by
    cases e : tooLong b with
    | true => exact h.1 true
    | false => exact h.2.1 ht true
  rw [toolRun, h']
  rfl

/-- The tool with a README. -/
private theorem toolRun_some (b : List Byte) {t : Tree} {readme : List Byte} (ht : t (readmePath home) = some (code readme)) :
    toolRun w canCreate writeFails home b t =
      match rewrite readme b with
      | .written f =>
        if canCreate then
          match writeFails with
          | none => (0, [], t.put (readmePath home) (code f))
          | some k => (1, [], t.put (readmePath home) (code (f.take k)))
        else (1, [], t)
      | _ => (1, [], t) := by
  have h := C59_bench 0 true canCreate writeFails (toolWorld w home t b) readme b (by rw [path_eq]; exact ht) (fuel_lt b t)
  rw [path_eq, Nat.zero_add] at h
  rw [toolRun, h]
  cases rewrite readme b with
  | fatal => rfl
  | panic => rfl
  | written f => cases canCreate <;> cases writeFails <;> rfl

/-- The tool writes at most the README. -/
private theorem toolRun_other (b : List Byte) {t : Tree} (hx : ∀ c, t (readmePath home) = some c → ∃ bs, c = code bs) (p : Text)
    (hp : p ≠ readmePath home) : (toolRun w canCreate writeFails home b t).2.2 p = t p := by
  have hput : ∀ c, t.put (readmePath home) c p = t p := fun c => if_neg hp
  cases e : t (readmePath home) with
  | none => rw [toolRun_none b e]
  | some c =>
    obtain ⟨readme, rfl⟩ := hx c e
    rw [toolRun_some b e]
    cases rewrite readme b with
    | fatal => rfl
    | panic => rfl
    | written f => cases canCreate <;> cases writeFails <;> first | rfl | exact hput _

/-- C64: the whole of `update_bench.sh`.  What `go test` printed goes to the standard output and, through the temporary file,
to the benchmark tool; the status of `go test` does not matter.  If the tool fails the script ends with its status and leaves the
temporary file; otherwise the temporary file is removed. -/
theorem C64_update (h : UpdateEnv env tmp home testStatus bench w canCreate writeFails) (vars : List (Text × Text))
    (hv : (vars.lookup (asc "SBYTE_HOME".toList)).getD [] = home) (t : Tree) (ht : t tmp = none) (hr : tmp ≠ readmePath home)
    (hx : ∀ c, t (readmePath home) = some c → ∃ bs, c = code bs) :
    script env updateSh vars t =
      let r := toolRun w canCreate writeFails home bench (t.put tmp (code bench))
      some (if r.1 ≠ 0 then (r.1, code bench ++ r.2.1, r.2.2) else (0, code bench ++ r.2.1, r.2.2.remove tmp)) := by
  have hx' : ∀ c, (t.put tmp (code bench)) (readmePath home) = some c → ∃ bs, c = code bs := fun c hc =>
    hx c (by rw [← hc, Tree.put, if_neg (Ne.symm hr)])
  have htmp := toolRun_other (w := w) (canCreate := canCreate) (writeFails := writeFails) bench hx' tmp hr
  rw [put_at] at htmp
  rcases hrun : toolRun w canCreate writeFails home bench (t.put tmp (code bench)) with ⟨st, o, t'⟩
  rw [hrun] at htmp
  rw [script, update_parsed]
  show runCmds env updateCmds 0 ⟨vars, false, [], t⟩ = _
  have h1 : runCmd env (.assign (asc "TMP_FILE".toList) [[lw "mktemp".toList]]) ⟨vars, true, [], t⟩ =
      some (.go 0 ⟨(asc "TMP_FILE".toList, tmp) :: vars, true, [], t.put tmp []⟩) := by
    rw [assign_step (cs := [[asc "mktemp".toList]]) rfl (by decide +kernel) (show pipe env _ [] t = _ from h.mktemp t ht),
      captured_plain h.tmpPlain, after_zero]
  have h2 : runCmd env (.run testPipe) ⟨(asc "TMP_FILE".toList, tmp) :: vars, true, [], t.put tmp []⟩ =
      some (.go 0 ⟨(asc "TMP_FILE".toList, tmp) :: vars, true, code bench, t.put tmp (code bench)⟩) := by
    have hp : pipe env [[asc "go".toList, asc "test".toList, asc "-bench".toList, asc ".".toList, asc "./pkg/...".toList],
        [asc "tee".toList, tmp]] [] (t.put tmp []) = (0, code bench, t.put tmp (code bench)) := by
      rw [pipe_two, h.test, h.tee, put_put]
    rw [pipe_step (testPipe_words h.tmpPlain h.tmpSome) (fun e => absurd (congrArg List.length e) (by simp))
      (external_two (by decide +kernel) (by decide +kernel)) hp, after_zero]
    rfl
  have h3 : runCmd env (.run toolPipe) ⟨(asc "TMP_FILE".toList, tmp) :: vars, true, code bench, t.put tmp (code bench)⟩ =
      some (after st ⟨(asc "TMP_FILE".toList, tmp) :: vars, true, code bench ++ o, t'⟩) := by
    have hp : pipe env [[asc "cat".toList, tmp], [asc "go".toList, asc "run".toList, toolPath home, asc "-w".toList]] []
        (t.put tmp (code bench)) = (st, o, t') := by
      rw [pipe_two, h.cat _ _ _ (put_at ..), h.tool, hrun]
    rw [pipe_step (toolPipe_words h.tmpPlain h.tmpSome hv h.homePlain) (fun e => absurd (congrArg List.length e) (by simp))
      (external_two (by decide +kernel) (by decide +kernel)) hp]
  rw [updateCmds, runCmds_go (run_set ..), runCmds_go h1, runCmds_go h2]
  by_cases h0 : st = 0
  · subst h0
    rw [after_zero] at h3
    rw [runCmds_go h3]
    have h4 : runCmd env (.run [[lw "rm".toList, vw "TMP_FILE".toList]])
        ⟨(asc "TMP_FILE".toList, tmp) :: vars, true, code bench ++ o, t'⟩ =
        some (.go 0 ⟨(asc "TMP_FILE".toList, tmp) :: vars, true, code bench ++ o, t'.remove tmp⟩) := by
      have hne : [[asc "rm".toList, tmp]] ≠ [[asc "set".toList, asc "-e".toList]] := fun e =>
        absurd (List.cons.inj (List.cons.inj e).1).1 (by decide +kernel)
      rw [pipe_step (rm_words h.tmpPlain h.tmpSome) hne (external_one (by decide +kernel))
        (show pipe env _ [] t' = _ from h.rm [] t' _ htmp), after_zero, List.append_nil]
    rw [runCmds_go h4]
    simp only [ne_eq, not_true, if_false]
    rfl
  · rw [after_ne h0 rfl] at h3
    rw [runCmds_exit h3]
    simp only [ne_eq, h0, not_false_eq_true, if_true]

/-- C64: on a README of the expected shape the script puts the new benchmarks in the place of the old ones, and changes nothing
else, **even if `go test` fails**: its status is the status of `tee`. -/
theorem C64_update_replace (h : UpdateEnv env tmp home testStatus bench w true none) (vars : List (Text × Text))
    (hv : (vars.lookup (asc "SBYTE_HOME".toList)).getD [] = home) (t : Tree) (ht : t tmp = none) (hr : tmp ≠ readmePath home)
    {pre mid post : List Byte} (hs : Shape pre mid post) (hb : tooLong bench = false)
    (hd : t (readmePath home) = some (code (pre ++ (startSentinel ++ (mid ++ (endSentinel ++ post)))))) :
    script env updateSh vars t = some (0, code bench,
      t.put (readmePath home) (code (pre ++ (startSentinel ++ (newSection bench ++ (endSentinel ++ post)))))) := by
  rw [C64_update h vars hv t ht hr (fun c hc => ⟨_, Option.some.inj (hc.symm.trans hd)⟩),
    toolRun_some bench (readme := pre ++ (startSentinel ++ (mid ++ (endSentinel ++ post)))) (by rw [Tree.put, if_neg (Ne.symm hr), hd]),
    C41_replace_partial hs hb]
  simp only [if_true, ne_eq, not_true, if_false, List.append_nil]
  generalize code (pre ++ (startSentinel ++ (newSection bench ++ (endSentinel ++ post)))) = new
  have e : Tree.remove (Tree.put (t.put tmp (code bench)) (readmePath home) new) tmp = t.put (readmePath home) new := by
    funext q
    simp only [Tree.remove, Tree.put]
    by_cases h1 : q = tmp
    · rw [if_pos h1, h1, if_neg hr, ht]
    · rw [if_neg h1, if_neg h1]
  rw [e]

/-- C64: if the README is not there or has not both sentinels (or the output of the tests has a line of 64 KiB or more), the
script ends with status 1 and has changed nothing but for the temporary file, which stays. -/
theorem C64_update_fail (h : UpdateEnv env tmp home testStatus bench w canCreate writeFails) (vars : List (Text × Text))
    (hv : (vars.lookup (asc "SBYTE_HOME".toList)).getD [] = home) (t : Tree) (ht : t tmp = none) (hr : tmp ≠ readmePath home)
    (hd : t (readmePath home) = none ∨
      ∃ readme, t (readmePath home) = some (code readme) ∧ ∀ f, rewrite readme bench ≠ .written f) :
    script env updateSh vars t = some (1, code bench, t.put tmp (code bench)) := by
  have e : (t.put tmp (code bench)) (readmePath home) = t (readmePath home) := if_neg (Ne.symm hr)
  rcases hd with hd | ⟨readme, hd, hn⟩
  · rw [C64_update h vars hv t ht hr (fun c hc => absurd (hc.symm.trans hd) (by simp)), toolRun_none bench (by rw [e, hd])]
    simp
  · rw [C64_update h vars hv t ht hr (fun c hc => ⟨_, Option.some.inj (hc.symm.trans hd)⟩),
      toolRun_some bench (readme := readme) (by rw [e, hd])]
    cases hw : rewrite readme bench with
    | fatal => simp
    | panic => simp
    | written f => exact absurd hw (hn f)

/-- C64: if writing the README fails after `k` bytes, the script ends with status 1 and the rest of the README is gone; the
output of the tests is still in the temporary file. -/
theorem C64_update_lost {k : Nat} (h : UpdateEnv env tmp home testStatus bench w true (some k)) (vars : List (Text × Text))
    (hv : (vars.lookup (asc "SBYTE_HOME".toList)).getD [] = home) (t : Tree) (ht : t tmp = none) (hr : tmp ≠ readmePath home)
    {readme f : List Byte} (hd : t (readmePath home) = some (code readme)) (hw : rewrite readme bench = .written f) :
    script env updateSh vars t = some (1, code bench, (t.put tmp (code bench)).put (readmePath home) (code (f.take k))) := by
  rw [C64_update h vars hv t ht hr (fun c hc => ⟨_, Option.some.inj (hc.symm.trans hd)⟩),
    toolRun_some bench (readme := readme) (by rw [Tree.put, if_neg (Ne.symm hr), hd]), hw]
  simp

/-- C64: without a temporary file the script ends before it runs any test. -/
theorem C64_no_temp {σ : Type} {env : Env σ} (vars : List (Text × Text)) (t t' : σ) (st : Nat) (o : Text)
    (hm : env [asc "mktemp".toList] [] t = (st, o, t')) (hs : st ≠ 0) : script env updateSh vars t = some (st, [], t') := by
  rw [script, update_parsed]
  show runCmds env updateCmds 0 ⟨vars, false, [], t⟩ = _
  have h1 := assign_step (env := env) (x := asc "TMP_FILE".toList) (p := [[lw "mktemp".toList]]) (cs := [[asc "mktemp".toList]])
    (vars := vars) (o := []) rfl (by decide +kernel) (show pipe env _ [] t = _ from hm)
  rw [after_ne hs rfl] at h1
  rw [updateCmds, runCmds_go (run_set ..), runCmds_exit h1]

end

/-! ## Concrete cases -/

section
open SVB.Gen

/-- Two commands, as words. -/
def isCmd (c : List Text) (ws : List (List Char)) : Bool := c == ws.map asc

/-- One tracked file, one file that git lists if it is there. -/
def exTracked (p : Text) : Prop := p = asc "pkg/decode/decode_amd64.s".toList
def exListed (p : Text) : Prop := p = asc "pkg/new.go".toList

def exDiff (t : Tree) : Text :=
  match t (asc "pkg/decode/decode_amd64.s".toList) with
  | none => []
  | some c => 43 :: c

def exStatus (t : Tree) : Text := if (t (asc "pkg/new.go".toList)).isSome then asc "?? pkg/new.go\n".toList else []

def exSha (i : Text) : Text := if i.isEmpty then asc "da39".toList else asc "b6c5".toList

theorem exGit : Git exDiff exStatus exTracked exListed where
  diffs t t' := by
    constructor
    · rintro h p rfl
      unfold exDiff at h
      cases e : t (asc "pkg/decode/decode_amd64.s".toList) <;> cases e' : t' (asc "pkg/decode/decode_amd64.s".toList) <;>
        rw [e, e'] at h <;> simp_all
    · intro h
      rw [exDiff, exDiff, h _ rfl]
  same t t' _ h := by rw [exStatus, exStatus, h]
  new t t' h p hp := by
    subst hp
    unfold exStatus at h
    cases e : (t (asc "pkg/new.go".toList)).isSome <;> cases e' : (t' (asc "pkg/new.go".toList)).isSome <;>
      rw [e, e'] at h <;> first | rfl | exact absurd h (by decide)

/-- All commands but `make`, with these `go generate` and `go run`.  `go test` fails. -/
def exBase (gen : Tree → Nat × Text × Tree) (tool : Text → Tree → Nat × Text × Tree) : Env Tree := fun c i t =>
  bif isCmd c ["git".toList, "diff".toList] then (0, exDiff t, t)
  else bif isCmd c ["git".toList, "status".toList, "--porcelain".toList] then (0, exStatus t, t)
  else bif isCmd c ["sha1sum".toList] then (0, exSha i ++ asc "  -\n".toList, t)
  else bif isCmd c ["go".toList, "generate".toList, "./pkg/...".toList] then gen t
  else bif isCmd c ["mktemp".toList] then (0, asc "/tmp/x\n".toList, t.put (asc "/tmp/x".toList) [])
  else bif isCmd c ["go".toList, "test".toList, "-bench".toList, ".".toList, "./pkg/...".toList] then (1, code exBench, t)
  else bif isCmd c ["tee".toList, "/tmp/x".toList] then (0, i, t.put (asc "/tmp/x".toList) i)
  else bif isCmd c ["cat".toList, "/tmp/x".toList] then (0, (t (asc "/tmp/x".toList)).getD [], t)
  else bif isCmd c ["go".toList, "run".toList, "/src/tools/parse_and_write_bench.go".toList, "-w".toList] then tool i t
  else bif isCmd c ["rm".toList, "/tmp/x".toList] then (0, [], t.remove (asc "/tmp/x".toList))
  else (127, [], t)

def exMake (gen : Tree → Nat × Text × Tree) (tool : Text → Tree → Nat × Text × Tree) : Env Tree := fun c i t =>
  bif isCmd c ["make".toList, "generate".toList] then
    (make (exBase gen tool) (fun p t => (t p).isSome) makefile (asc "generate".toList) t).getD (2, [], t)
  else exBase gen tool c i t

def exEnv (w : Script.World) : Env Tree :=
  exMake (goGenerate [⟨decG, decX⟩, ⟨decG, decX⟩] [⟨encG, encX⟩, ⟨encG, encDX⟩] w)
    fun i t => toolRun w true none (asc "/src".toList) (i.map (BitVec.ofNat 8)) t

section
variable (gen : Tree → Nat × Text × Tree) (tool : Text → Tree → Nat × Text × Tree) (i : Text) (t : Tree)

private theorem ex_diff : exMake gen tool [asc "git".toList, asc "diff".toList] i t = (0, exDiff t, t) := by kernel_rfl
private theorem ex_status : exMake gen tool [asc "git".toList, asc "status".toList, asc "--porcelain".toList] i t =
    (0, exStatus t, t) := by kernel_rfl
private theorem ex_sum : exMake gen tool [asc "sha1sum".toList] i t = (0, exSha i ++ asc "  -\n".toList, t) := by kernel_rfl
private theorem ex_go : exMake gen tool [asc "go".toList, asc "generate".toList, asc "./pkg/...".toList] i t = gen t := by kernel_rfl
private theorem ex_go' : exBase gen tool [asc "go".toList, asc "generate".toList, asc "./pkg/...".toList] i t = gen t := by kernel_rfl
private theorem ex_temp : exMake gen tool [asc "mktemp".toList] i t =
    (0, asc "/tmp/x".toList ++ [10], t.put (asc "/tmp/x".toList) []) := by kernel_rfl
private theorem ex_test : exMake gen tool [asc "go".toList, asc "test".toList, asc "-bench".toList, asc ".".toList,
    asc "./pkg/...".toList] i t = (1, code exBench, t) := by kernel_rfl
private theorem ex_tee : exMake gen tool [asc "tee".toList, asc "/tmp/x".toList] i t =
    (0, i, t.put (asc "/tmp/x".toList) i) := by kernel_rfl
private theorem ex_cat : exMake gen tool [asc "cat".toList, asc "/tmp/x".toList] i t =
    (0, (t (asc "/tmp/x".toList)).getD [], t) := by kernel_rfl
private theorem ex_tool : exMake gen tool [asc "go".toList, asc "run".toList, toolPath (asc "/src".toList), asc "-w".toList] i t =
    tool i t := by kernel_rfl
private theorem ex_rm : exMake gen tool [asc "rm".toList, asc "/tmp/x".toList] i t =
    (0, [], t.remove (asc "/tmp/x".toList)) := by kernel_rfl

private theorem ex_make : exMake gen tool [asc "make".toList, asc "generate".toList] [] t =
    (make (exMake gen tool) (fun p t => (t p).isSome) makefile (asc "generate".toList) t).getD (2, [], t) := by
  have h : (isCmd [asc "make".toList, asc "generate".toList] ["make".toList, "generate".toList]) = true := by decide +kernel
  have e' : make (exBase gen tool) (fun p t => (t p).isSome) makefile (asc "generate".toList) t =
      make (exMake gen tool) (fun p t => (t p).isSome) makefile (asc "generate".toList) t := by
    rw [make, make, recipe_eq, runRecipe, runRecipe, words_eq]
    simp only [Option.bind_eq_bind, Option.bind_some, ex_go, ex_go', runRecipe]
  rw [← e', exMake, h, cond_true]

end

theorem exCheckEnv (w : Script.World) : CheckEnv (exEnv w) exDiff exStatus exSha where
  gitDiff t := ⟨0, ex_diff _ _ _ t⟩
  gitStatus t := ⟨0, ex_status _ _ _ t⟩
  sum i t := ex_sum _ _ i t
  hex i := by unfold exSha; split <;> decide

theorem exGenerateEnv (w : Script.World) :
    GenerateEnv (exEnv w) [⟨decG, decX⟩, ⟨decG, decX⟩] [⟨encG, encX⟩, ⟨encG, encDX⟩] w where
  make t r h := by
    rw [exEnv] at h ⊢
    rw [ex_make, h]
    rfl
  go t := by rw [exEnv, ex_go]

/-- A tree with the tracked file missing: the check makes it and fails. -/
example (w : Script.World) : ∃ t', script (exEnv w) checkSh [] (fun _ => none) = some (1, makeSays ++ asc message ++ [10], t') ∧
    t' (asc "pkg/decode/decode_amd64.s".toList) = some decodeText := by
  obtain ⟨t', _, h, hd, _⟩ := C64_stale (exCheckEnv w) exGit (exGenerateEnv w) [] (fun _ => none) rfl
    (Or.inl ⟨rfl, by simp⟩)
  refine ⟨t', h ?_, hd⟩
  rw [show exDiff t' = 43 :: decodeText by rw [exDiff, hd]]
  generalize decodeText = c
  show asc "da39".toList ≠ asc "b6c5".toList
  decide

/-- A tree with the three files as they should be. -/
def exTree : Tree := Tree.put (Tree.put (Tree.put (fun _ => none) (asc "pkg/decode/decode_amd64.s".toList) decodeText)
  (asc "pkg/encode/encode_amd64.s".toList) encodeText) (asc "pkg/shared/tables.go".toList) tablesText

example (w : Script.World) : script (exEnv w) checkSh [] exTree = some (0, makeSays, exTree) := by
  refine C64_repo (exCheckEnv w) (exGenerateEnv w) [] exTree ?_ ?_ ?_ ?_
  · rw [exTree, Tree.put, if_neg (by decide +kernel), Tree.put, if_neg (by decide +kernel), Tree.put, if_neg (by decide +kernel)]
  · rw [exTree, Tree.put, if_neg (by decide +kernel), Tree.put, if_neg (by decide +kernel), put_at]
  · rw [exTree, Tree.put, if_neg (by decide +kernel), put_at]
  · rw [exTree, put_at]

/-- A file with the name `generate`. -/
example (w : Script.World) : script (exEnv w) checkSh [] (Tree.put (fun _ => none) (asc "generate".toList) []) =
    some (0, asc "make: 'generate' is up to date.\n".toList, Tree.put (fun _ => none) (asc "generate".toList) []) :=
  C64_not_phony (exCheckEnv w) (exGenerateEnv w) [] _ (by rw [put_at]; simp)

/-- `make generate` creates a file that git lists. -/
example (env : Env Tree) (h : CheckEnv env exDiff exStatus exSha)
    (hm : env [asc "make".toList, asc "generate".toList] [] (fun _ => none) =
      (0, [], Tree.put (fun _ => none) (asc "pkg/new.go".toList) [])) :
    script env checkSh [] (fun _ => none) =
      some (1, [] ++ asc message ++ [10], Tree.put (fun _ => none) (asc "pkg/new.go".toList) []) := by
  refine (C64_pass h exGit [] _ _ 0 [] (fun _ => ?_) (fun hs => ?_) hm).2.2.1 rfl (Or.inr ⟨_, rfl, ?_⟩)
  · rw [exDiff, exDiff, Tree.put, if_neg (by decide +kernel)]
  · have e : exStatus (Tree.put (fun _ => none) (asc "pkg/new.go".toList) []) = asc "?? pkg/new.go\n".toList := by
      rw [exStatus, put_at]; rfl
    rw [e] at hs
    exact absurd hs (by decide +kernel)
  · rw [put_at]; decide

private theorem uncode (b : List Byte) : (code b).map (BitVec.ofNat 8) = b := by
  rw [code, List.map_map]
  conv => rhs; rw [← List.map_id b]
  apply List.map_congr_left
  intro x _
  show BitVec.ofNat 8 x.toNat = x
  exact BitVec.eq_of_toNat_eq (by rw [BitVec.toNat_ofNat, Nat.mod_eq_of_lt x.isLt])

theorem exUpdateEnv (w : Script.World) :
    UpdateEnv (exEnv w) (asc "/tmp/x".toList) (asc "/src".toList) 1 exBench w true none where
  mktemp t _ := ex_temp _ _ _ t
  test t := ex_test _ _ _ t
  tee i t := ex_tee _ _ i t
  cat i t c h := by rw [exEnv, ex_cat, h]; rfl
  tool b t := by rw [exEnv, ex_tool, uncode]
  rm i t c _ := ex_rm _ _ i t
  tmpPlain := by decide +kernel
  tmpSome := by decide +kernel
  homePlain := by decide +kernel

/-- The tests fail; the README gets the new section all the same. -/
example (w : Script.World) (t : Tree) (h0 : t (asc "/tmp/x".toList) = none)
    (hd : t (asc "/src/README.md".toList) = some (code ([65, 10] ++ (startSentinel ++ ([66, 10] ++ (endSentinel ++ [67, 10])))))) :
    script (exEnv w) updateSh [(asc "SBYTE_HOME".toList, asc "/src".toList)] t = some (0, code exBench,
      t.put (asc "/src/README.md".toList) (code ([65, 10] ++ (startSentinel ++ (newSection exBench ++ (endSentinel ++ [67, 10])))))) := by
  have hp : readmePath (asc "/src".toList) = asc "/src/README.md".toList := by decide +kernel
  have h := C64_update_replace (exUpdateEnv w) [(asc "SBYTE_HOME".toList, asc "/src".toList)] (by decide +kernel) t h0
    (by decide +kernel) C41_exShape (by decide +kernel) (by rw [hp]; exact hd)
  rw [hp] at h
  exact h

/-- No README: the temporary file stays. -/
example (w : Script.World) : script (exEnv w) updateSh [(asc "SBYTE_HOME".toList, asc "/src".toList)] (fun _ => none) =
    some (1, code exBench, Tree.put (fun _ => none) (asc "/tmp/x".toList) (code exBench)) :=
  C64_update_fail (exUpdateEnv w) _ (by decide +kernel) _ rfl (by decide +kernel) (Or.inl rfl)

end

end SVB.Props
