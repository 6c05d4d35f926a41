import Verif.Proofs.GoSound
import Verif.Proofs.GoProgram

/-! # The started library has variables of the right types -/

set_option autoImplicit false

namespace SVB.Go

variable {P : Program} {pkgs : List Nat}

/-! ## Declared types are assignable to themselves -/

theorem assignable_basic {n : Nat} {t : Ty} (h : basic n = some t) : assignable P pkgs t t = true := by
  unfold basic at h
  repeat' split at h
  all_goals cases h
  all_goals rfl

theorem assignable_resolved {pkg : Nat} {g : GoType} {t : Ty} (h : resolve P pkg g = some t) : assignable P pkgs t t = true := by
  cases g with
  | named n =>
    simp only [resolve] at h
    split at h
    · next u hu => cases h; exact assignable_basic hu
    · rw [Option.map_eq_some_iff] at h
      obtain ⟨d, _, rfl⟩ := h
      simp only [assignable, decide_true]
  | qual p n =>
    simp only [resolve, Option.map_eq_some_iff] at h
    obtain ⟨d, _, rfl⟩ := h
    simp only [assignable, decide_true]
  | slice u =>
    cases u <;> simp only [resolve, reduceCtorEq] at h
    split at h
    · cases h; rfl
    · split at h <;> cases h
      rfl
  | array n u => cases h
  | ptr u =>
    simp only [resolve, Option.map_eq_some_iff] at h
    obtain ⟨d, _, rfl⟩ := h
    simp only [assignable, decide_true]

theorem assignableAll_resolved {pkg : Nat} : ∀ {l : List (Nat × GoType)} {ts : List Ty}, resolveAll P pkg l = some ts →
    assignableAll P pkgs ts ts = true
  | [], _, h => by cases h; rfl
  | (_, g) :: l, ts, h => by
    simp only [resolveAll, Option.bind_eq_bind, Option.bind_eq_some_iff, Option.pure_def, Option.some.injEq] at h
    obtain ⟨a, h1, r, h2, rfl⟩ := h
    simp only [assignableAll, assignable_resolved h1, assignableAll_resolved h2, Bool.and_self]

theorem assignableAll_sig {p g : Nat} {ps rs : List Ty} (h : sigOf P pkgs p g = some (ps, rs)) :
    assignableAll P pkgs ps ps = true := by
  unfold sigOf at h
  split at h
  · cases h
  · split at h
    · split at h
      · simp only [Option.bind_eq_bind, Option.bind_eq_some_iff, Option.pure_def, Option.some.injEq, Prod.mk.injEq] at h
        obtain ⟨a, h1, r, h2, rfl, rfl⟩ := h
        exact assignableAll_resolved h1
      · cases h
    · split at h
      · unfold externalSig at h
        repeat' split at h
        all_goals cases h
        all_goals simp only [assignableAll, assignable, decide_true, Bool.and_self]
      · cases h

/-! ## The variables -/

theorem isVar_mem {p n : Nat} (h : P.isVar p n = true) : (p, n) ∈ P.flatMap fun F => F.vars.map fun v => (F.pkg, v.1) := by
  simp only [Program.isVar, List.any_eq_true, Bool.and_eq_true, beq_iff_eq] at h
  obtain ⟨F, h1, rfl, v, h2, rfl⟩ := h
  exact List.mem_flatMap.2 ⟨F, h1, List.mem_map.2 ⟨v, h2, rfl⟩⟩

theorem fn_typed {p g : Nat} {t : Ty} (h : assignable P pkgs (.fn p g) t = true) : HasType P pkgs (.fn p g) t :=
  assign_typed (s := .fn p g) ⟨rfl, rfl⟩ h fun _ => nofun

theorem started_varsOk {W : World} (hW : Started W) (hc : W.cpu.amd64 = true) :
    VarsOk W.prog [n!"shared", n!"encode", n!"decode", n!"writer", n!"reader"] W.vars := by
  intro p n t _ hi ht
  rw [hW.prog, filesFor, hc, if_pos rfl] at hi ht ⊢
  have hm := isVar_mem hi
  have e : (amd64Files.flatMap fun F => F.vars.map fun v => (F.pkg, v.1)) =
      [(n!"encode", n!"putImpl"), (n!"encode", n!"putDeltaImpl"), (n!"decode", n!"getImpl"), (n!"decode", n!"getDeltaImpl")] := by
    decide +kernel
  rw [e] at hm
  simp only [List.mem_cons, List.not_mem_nil, or_false, Prod.mk.injEq] at hm
  rcases hm with ⟨rfl, rfl⟩ | ⟨rfl, rfl⟩ | ⟨rfl, rfl⟩ | ⟨rfl, rfl⟩
  · have e : (amd64Files.varDecl n!"encode" n!"putImpl").bind (resolve amd64Files n!"encode") =
      some (.named n!"encode" n!"Put8Impl") := by decide +kernel
    rw [e] at ht
    cases ht
    refine ⟨_, hW.putImpl, ?_⟩
    unfold putChoice
    split <;> exact fn_typed (by decide +kernel)
  · have e : (amd64Files.varDecl n!"encode" n!"putDeltaImpl").bind (resolve amd64Files n!"encode") =
      some (.named n!"encode" n!"Put8DeltaImpl") := by decide +kernel
    rw [e] at ht
    cases ht
    refine ⟨_, hW.putDeltaImpl, ?_⟩
    unfold putDeltaChoice
    split <;> exact fn_typed (by decide +kernel)
  · have e : (amd64Files.varDecl n!"decode" n!"getImpl").bind (resolve amd64Files n!"decode") =
      some (.named n!"decode" n!"Get8Impl") := by decide +kernel
    rw [e] at ht
    cases ht
    refine ⟨_, hW.getImpl, ?_⟩
    unfold getChoice
    split <;> exact fn_typed (by decide +kernel)
  · have e : (amd64Files.varDecl n!"decode" n!"getDeltaImpl").bind (resolve amd64Files n!"decode") =
      some (.named n!"decode" n!"Get8DeltaImpl") := by decide +kernel
    rw [e] at ht
    cases ht
    refine ⟨_, hW.getDeltaImpl, ?_⟩
    unfold getDeltaChoice
    split <;> exact fn_typed (by decide +kernel)

end SVB.Go
