import Lean.Elab.Command
import Lean.Util.CollectAxioms
import Verif.Props.Writers
import Verif.Props.Readers
import Verif.Props.RoundTrip
import Verif.Props.Blocks
import Verif.Props.Tables
import Verif.Props.Dispatch
import Verif.Props.Counts
import Verif.Props.Safety
import Verif.Props.Concurrency
import Verif.Props.Util
import Verif.Props.Bench
import Verif.Props.Registers
import Verif.Props.Work
import Verif.Props.Sizes
import Verif.Props.Races
import Verif.Props.Generator
import Verif.Props.RacyWriter
import Verif.Props.RacyReader
import Verif.Props.SpareCap
import Verif.Props.Reencode
import Verif.Props.Access
import Verif.Props.PanicState
import Verif.Props.SourceFiles
import Verif.Props.GoText
import Verif.Props.GoBuild
import Verif.Props.NegCounts
import Verif.Props.Generate
import Verif.Props.Programs
import Verif.Props.Tests
import Verif.Props.Readme
import Verif.Props.Benchmarks
import Verif.Props.Sort
import Verif.Props.Scripts
import Verif.Props.Formats
import Verif.Props.Oblivious
import Verif.Props.Client
import Verif.Props.Shift
import Verif.Props.Flat
import Verif.Props.FlatRun
import Verif.Props.FlatAcc
import Verif.Props.SizeLaws
import Verif.Props.Overlap
import Verif.Props.FlatReach
import Verif.Props.Timed
import Verif.Props.Word32
import Verif.Props.Cost
import Verif.Props.Together
import Verif.Props.OverlapUtil
import Verif.Props.VByte
import Verif.Props.Endian
import Verif.Props.Patch
import Verif.Props.Lanes
import Verif.Props.Archive
import Verif.Props.Parallel
import Verif.Props.Chunked
import Verif.Props.Extract
import Verif.Props.Append
import Verif.Props.Replace
import Verif.Props.Seek
import Verif.Props.Word32Util

/-! # Axiom check

Fails the build if any property theorem (anything in namespace `SVB.Props`) depends on an axiom other than
Lean's three standard ones. -/

open Lean Elab Command in
run_cmd do
  let env ← getEnv
  let allowed : List Name := [``propext, ``Classical.choice, ``Quot.sound]
  let mut count : Nat := 0
  for (n, ci) in env.constants.map₁.toList do
    if (`SVB.Props).isPrefixOf n && !n.isInternal then
      if let .thmInfo _ := ci then
        let axs ← liftCoreM (collectAxioms n)
        for a in axs do
          unless allowed.contains a do throwError "{n} depends on {a}"
        count := count + 1
  if count == 0 then throwError "no property theorems found"
  logInfo m!"{count} theorems checked, axioms used: at most {allowed}"
