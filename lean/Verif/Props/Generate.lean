import Verif.Model.Generate
import Verif.Proofs.ScriptParse
import Verif.Proofs.ScriptTablesMain
import Verif.Props.SourceFiles

/-! # C58: `go generate` reproduces the generated files

`gentables.go` and the two `asm.go` programs are parsed from their texts and run by the interpreter in `ScriptSem.lean`,
with the command lines in the `gen.go` files. -/

set_option autoImplicit false
set_option maxRecDepth 100000

namespace SVB.Props
open Sources Script Gen

/-! ## The commands -/

/-- C58: the commands of the three packages. -/
theorem C58_commands :
    commands (genGo.map line) = [some (asc "./main/gentables.go".toList,
      [(asc "out".toList, asc "./tables.go".toList), (asc "package".toList, asc "shared".toList)])] ∧
    commands (encodeGenGo.map line) = [some (asc "./main/asm.go".toList, [(asc "out".toList, asc "./encode_amd64.s".toList)])] ∧
    commands (decodeGenGo.map line) = [some (asc "./main/asm.go".toList, [(asc "out".toList, asc "./decode_amd64.s".toList)])] := by
  exact ⟨by kernel_rfl, by kernel_rfl, by kernel_rfl⟩

/-! ## `gentables.go` -/

/-- The program with the package it imports, run from its text. -/
def runTables (depth : Nat) (w : World) : Option (Nat × List (Text × Text) × Text) :=
  match [utilGo, randGo, gentablesGo].mapM parse with
  | some files => (runMain depth files w {}).outcome
  | none => none

theorem runTables_eq (depth : Nat) (w : World) : runTables depth w = (runMain depth Tables.files w {}).outcome := by
  have h : [utilGo, randGo, gentablesGo].mapM parse = some Tables.files := by
    simp only [List.mapM_cons, List.mapM_nil, util_parsed, rand_parsed, gentables_parsed]
    rfl
  rw [runTables, h]

theorem gofmt_file (pkg : Text) : gofmt (GenTables.output pkg) = unlines (GenTables.file pkg) := by
  simp only [gofmt, unlines, GenTables.file, List.flatMap_def, List.map_map]
  rfl

/-- A world with these two flags on the command line; everything else is arbitrary, except that no loop may have more
than 300 iterations (the longest one has 256). -/
def tablesWorld (path pkg : Text) (canCreate : Bool) (writeFails : Option Nat) (w : World) : World :=
  { w with args := [(asc "out".toList, path), (asc "package".toList, pkg)], canCreate, writeFails, fuel := 300 }

/-- C58: with a path and a package name, if the file can be created and written, the program ends with status 0 and has
written one file there: the lines in `GenTables.file`, in which `pkg` is the name of the package.  It prints nothing. -/
theorem C58_tables_run (d : Nat) (path pkg : Text) (hp : path ≠ []) (w : World) :
    runTables (d + 60) (tablesWorld path pkg true none w) = some (0, [(path, unlines (GenTables.file pkg))], []) := by
  obtain ⟨c, cs, rfl⟩ : ∃ c cs, path = c :: cs := by
    cases path with
    | nil => exact absurd rfl hp
    | cons c cs => exact ⟨c, cs, rfl⟩
  obtain ⟨s, h, hf, ho⟩ := Tables.run_ok d w c cs pkg
  rw [runTables_eq, show tablesWorld (c :: cs) pkg true none w = Tables.worldOf (c :: cs) pkg true none w from rfl, h]
  simp only [Res.outcome, hf, ho, gofmt_file]

/-- C58: if the file cannot be created, or without a path, the program ends with status 1 and has written nothing; if
writing fails after `k` bytes, it ends with status 1 and the file has these bytes. -/
theorem C58_tables_fail (d : Nat) (path pkg : Text) (w : World) :
    (∀ writeFails, runTables (d + 60) (tablesWorld path pkg false writeFails w) = some (1, [], [])) ∧
    (∀ canCreate writeFails, runTables (d + 60) (tablesWorld [] pkg canCreate writeFails w) = some (1, [], [])) ∧
    (path ≠ [] → ∀ k, runTables (d + 60) (tablesWorld path pkg true (some k) w) =
      some (1, [(path, (unlines (GenTables.file pkg)).take k)], [])) := by
  have empty : ∀ canCreate writeFails, runTables (d + 60) (tablesWorld [] pkg canCreate writeFails w) = some (1, [], []) := by
    intro cc wf
    obtain ⟨s, h, hf, ho⟩ := Tables.run_empty d w pkg cc wf
    rw [runTables_eq, show tablesWorld [] pkg cc wf w = Tables.worldOf [] pkg cc wf w from rfl, h]
    simp only [Res.outcome, hf, ho]
  refine ⟨fun wf => ?_, empty, fun hp k => ?_⟩
  · cases path with
    | nil => exact empty false wf
    | cons c cs =>
      obtain ⟨s, h, hf, ho⟩ := Tables.run_create d w c cs pkg wf
      rw [runTables_eq, show tablesWorld (c :: cs) pkg false wf w = Tables.worldOf (c :: cs) pkg false wf w from rfl, h]
      simp only [Res.outcome, hf, ho]
  · obtain ⟨c, cs, rfl⟩ : ∃ c cs, path = c :: cs := by
      cases path with
      | nil => exact absurd rfl hp
      | cons c cs => exact ⟨c, cs, rfl⟩
    obtain ⟨s, h, hf, ho⟩ := Tables.run_write d w c cs pkg k
    rw [runTables_eq, show tablesWorld (c :: cs) pkg true (some k) w = Tables.worldOf (c :: cs) pkg true (some k) w from rfl, h]
    simp only [Res.outcome, hf, ho, gofmt_file]

/-- C58: a flag the program does not know ends it with status 2 before anything is written. -/
theorem C58_tables_flags (d : Nat) (w : World) (n v : Text) (rest : List (Text × Text)) (hn : n ≠ asc "out".toList)
    (hn' : n ≠ asc "package".toList) :
    runTables (d + 60) { w with args := (n, v) :: rest } = some (2, [], []) := by
  rw [runTables_eq, Tables.runMain_eq]
  have h := Tables.apply_main_exit (n := d + 59) (w := { w with args := (n, v) :: rest }) (s := Tables.start) (c := 2)
    (s' := Tables.start) (Tables.flags_exit d w n v rest hn hn')
  rw [h]
  rfl

/-- C58: the command in `/repo/pkg/shared/gen.go` writes the checked-in `tables.go`: its only argument pair names that
file, and what is written is the text of the file. -/
theorem C58_tables (d : Nat) (w : World) :
    ∃ program args, commands (genGo.map line) = [some (program, args)] ∧ program = asc "./main/gentables.go".toList ∧
      runTables (d + 60) { w with args, canCreate := true, writeFails := none, fuel := 300 } =
        some (0, [(asc "./tables.go".toList, unlines (tablesGo.map line))], []) := by
  refine ⟨_, _, C58_commands.1, rfl, ?_⟩
  rw [← C55_tables_generated]
  exact C58_tables_run d _ _ (by decide) w

/-! ## `asm.go` -/

/-- An `asm.go` program with the package it imports, run from its text. -/
def runAsm (text : List Nat) (depth : Nat) (w : World) : Option (Res (List V)) :=
  match [sharedAsmGo, text].mapM parse with
  | some files => some (runMain depth files w {})
  | none => none

/-- C58: the command in `/repo/pkg/encode/gen.go` writes the checked-in `encode_amd64.s`, when `avo` assigns the
registers `encG`, `encX`, `encDX`. -/
theorem C58_encode (w : World) :
    ∃ program out r, commands (encodeGenGo.map line) = [some (program, [(asc "out".toList, out)])] ∧
      program = asc "./main/asm.go".toList ∧ out = asc "./encode_amd64.s".toList ∧ runAsm encodeAsmGo 100 w = some r ∧
      avoFile out [⟨encG, encX⟩, ⟨encG, encDX⟩] r = some (encodeS.map line) := by
  refine ⟨_, _, runMain 100 [Files.sharedAsm, Files.encAsm] w {}, C58_commands.2.1, rfl, rfl, ?_, by kernel_rfl⟩
  simp only [runAsm, List.mapM_cons, List.mapM_nil, sharedAsm_parsed, encAsm_parsed]
  rfl

/-- C58: the same for `decode_amd64.s`. -/
theorem C58_decode (w : World) :
    ∃ program out r, commands (decodeGenGo.map line) = [some (program, [(asc "out".toList, out)])] ∧
      program = asc "./main/asm.go".toList ∧ out = asc "./decode_amd64.s".toList ∧ runAsm decodeAsmGo 100 w = some r ∧
      avoFile out [⟨decG, decX⟩, ⟨decG, decX⟩] r = some (decodeS.map line) := by
  refine ⟨_, _, runMain 100 [Files.sharedAsm, Files.decAsm] w {}, C58_commands.2.2, rfl, rfl, ?_, by kernel_rfl⟩
  simp only [runAsm, List.mapM_cons, List.mapM_nil, sharedAsm_parsed, decAsm_parsed]
  rfl

/-- What a program has told `avo`, before registers are assigned. -/
def asked : Res (List V) → Option (List (Text × Nat) × List (Text × Sig × Option (List (GInstr Nat Nat))))
  | .ok _ s => if s.generated then some (s.consts, s.fns.reverse.map fun f => (f.name, f.sig, f.instrs)) else none
  | _ => none

/-- C58: the programs as interpreted ask `avo` for exactly the functions of the model in `Gen.lean`, on which C44 is
about. -/
theorem C58_model (w : World) :
    (runAsm encodeAsmGo 100 w).map asked = some (some ([(asc "mask0101".toList, 0x0101), (asc "mask7F00".toList, 0x7f00)],
      [(asc "Put8uint32FastAsm".toList, Enc.signature, Enc.regular),
        (asc "Put8uint32DeltaFastAsm".toList, Enc.signatureDelta, Enc.differential)])) ∧
    (runAsm decodeAsmGo 100 w).map asked = some (some ([],
      [(asc "Get8uint32FastAsm".toList, Dec.signature, Dec.regular),
        (asc "Get8uint32DeltaFastAsm".toList, Dec.signatureDelta, Dec.differential)])) := by
  constructor
  · rw [show runAsm encodeAsmGo 100 w = some (runMain 100 [Files.sharedAsm, Files.encAsm] w {}) by
      simp only [runAsm, List.mapM_cons, List.mapM_nil, sharedAsm_parsed, encAsm_parsed]; rfl]
    kernel_rfl
  · rw [show runAsm decodeAsmGo 100 w = some (runMain 100 [Files.sharedAsm, Files.decAsm] w {}) by
      simp only [runAsm, List.mapM_cons, List.mapM_nil, sharedAsm_parsed, decAsm_parsed]; rfl]
    kernel_rfl

/-! ## Concrete cases -/

/-- A world: nothing on the disk, everything can be created. -/
def someWorld : World :=
  { args := [], canCreate := true, canRead := true, writeFails := none, disk := fun _ => none, getenv := fun _ => [], inputErr := false,
    uint32 := fun _ => 0, int63 := fun _ => 0, fuel := 0 }

/-- The package name is in the text, and another one gives another file. -/
example : (GenTables.file (asc "p".toList))[2]? = some (asc "package p".toList) ∧
    GenTables.file (asc "p".toList) ≠ tablesGo.map line := by
  have h : (GenTables.file (asc "p".toList))[2]? = some (asc "package p".toList) := by kernel_rfl
  have h' : (tablesGo.map line)[2]? = some (asc "package shared".toList) := by kernel_rfl
  refine ⟨h, fun e => ?_⟩
  rw [e, h'] at h
  exact absurd h (by decide)

example : runTables 60 (tablesWorld (asc "x.go".toList) (asc "p".toList) true none someWorld) =
    some (0, [(asc "x.go".toList, unlines (GenTables.file (asc "p".toList)))], []) :=
  C58_tables_run 0 _ _ (by decide) _

/-- The disk is full after ten bytes. -/
example : runTables 60 (tablesWorld (asc "x.go".toList) (asc "p".toList) true (some 10) someWorld) =
    some (1, [(asc "x.go".toList, (unlines (GenTables.file (asc "p".toList))).take 10)], []) :=
  (C58_tables_fail 0 _ _ _).2.2 (by decide) 10

example : runTables 60 { someWorld with args := [(asc "pkg".toList, asc "p".toList)] } = some (2, [], []) :=
  C58_tables_flags 0 someWorld _ _ [] (by decide) (by decide)

/-- Other registers give another file. -/
example : avoFile (asc "./encode_amd64.s".toList) [⟨encG, encX⟩, ⟨encG, encX⟩]
    (runMain 100 [Files.sharedAsm, Files.encAsm] someWorld {}) ≠ some (encodeS.map line) := by
  have h : ((avoFile (asc "./encode_amd64.s".toList) [⟨encG, encX⟩, ⟨encG, encX⟩]
    (runMain 100 [Files.sharedAsm, Files.encAsm] someWorld {})).map (· == encodeS.map line)) = some false := by kernel_rfl
  intro e
  rw [e] at h
  simp at h

end SVB.Props
