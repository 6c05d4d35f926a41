import Verif.Model.GoProgram
import Verif.Proofs.GoParse
import Verif.Proofs.GoUtil

/-! # What the program built from the texts is, and what its variables are -/

set_option autoImplicit false

namespace SVB.Go
open SVB.Sources

theorem texts_amd64 (x y : Bool) : goTexts.filter (builtFor ⟨true, x, y⟩) =
    [genGo, modeGo, encodeMainGo, encodeGo, decodeMainGo, decodeGo, writerGo, writerAmd64Go, readerGo, readerAmd64Go,
      varintGo, utilGo] := by kernel_rfl

theorem texts_other (x y : Bool) : goTexts.filter (builtFor ⟨false, x, y⟩) =
    [genGo, modeGo, encodeMainGo, encodeBaseGo, decodeMainGo, decodeBaseGo, writerGo, writerBaseGo, readerGo, readerBaseGo,
      varintGo, utilGo] := by kernel_rfl

theorem goProgram_eq (c : Cpu) : goProgram c = some (filesFor c) := by
  obtain ⟨b, x, y⟩ := c
  unfold goProgram
  cases b
  · rw [texts_other]
    simp only [List.mapM_cons, List.mapM_nil, gen_parsed, mode_parsed, enc_parsed, encBase_parsed, dec_parsed, decBase_parsed,
      wr_parsed, wrBase_parsed, rd_parsed, rdBase_parsed, vint_parsed, util_parsed, Option.bind_eq_bind, Option.bind_some,
      Option.pure_def]
    rfl
  · rw [texts_amd64]
    simp only [List.mapM_cons, List.mapM_nil, gen_parsed, mode_parsed, enc_parsed, encAmd64_parsed, dec_parsed, decAmd64_parsed,
      wr_parsed, wrAmd64_parsed, rd_parsed, rdAmd64_parsed, vint_parsed, util_parsed, Option.bind_eq_bind, Option.bind_some,
      Option.pure_def]
    rfl

/-- The variables after the `init` functions have run. -/
def startVars (c : Cpu) : List Nat → Option Val := fun p => match p with
  | [pkg, n] =>
    if pkg = n!"encode" then Env.get [(n!"putImpl", putChoice c), (n!"putDeltaImpl", putDeltaChoice c)] n
    else if pkg = n!"decode" then Env.get [(n!"getImpl", getChoice c), (n!"getDeltaImpl", getDeltaChoice c)] n
    else none
  | _ => none

theorem initAll_eq (W : World) (hW : W.prog = filesFor W.cpu) (d : Nat) : initAll W (d + 1) = .ret (startVars W.cpu) := by
  unfold initAll
  rw [init_encode W hW, init_decode W hW]
  rfl

theorem Started.prog {W : World} (h : Started W) : W.prog = filesFor W.cpu := by
  have := h.text
  rw [goProgram_eq, Option.some.injEq] at this
  exact this.symm

theorem Started.vars {W : World} (h : Started W) : W.vars = startVars W.cpu := by
  have := h.init
  rw [initAll_eq { W with vars := fun _ => none } h.prog 1, Prog.ret.injEq] at this
  exact this.symm

theorem Started.putImpl {W : World} (h : Started W) : W.vars [n!"encode", n!"putImpl"] = some (putChoice W.cpu) := by
  rw [h.vars]; rfl
theorem Started.putDeltaImpl {W : World} (h : Started W) :
    W.vars [n!"encode", n!"putDeltaImpl"] = some (putDeltaChoice W.cpu) := by
  rw [h.vars]; rfl
theorem Started.getImpl {W : World} (h : Started W) : W.vars [n!"decode", n!"getImpl"] = some (getChoice W.cpu) := by
  rw [h.vars]; rfl
theorem Started.getDeltaImpl {W : World} (h : Started W) :
    W.vars [n!"decode", n!"getDeltaImpl"] = some (getDeltaChoice W.cpu) := by
  rw [h.vars]; rfl

theorem started_mk (c : Cpu) (fuel : Nat) (fresh : Block) : Started ⟨filesFor c, c, startVars c, fuel, fresh⟩ :=
  ⟨goProgram_eq c, initAll_eq _ rfl 1⟩

end SVB.Go
