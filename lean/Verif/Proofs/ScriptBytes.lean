import Verif.Proofs.ScriptBench
import Verif.Model.Bench

/-! # Bytes and texts in `parse_and_write_bench.go`

`Model/Bench.lean` is about bytes, the interpreter about numbers. -/

set_option autoImplicit false

namespace SVB.Script.Bench

open SVB.Sources

/-- The numbers of bytes. -/
def code (bs : List Byte) : Text := bs.map BitVec.toNat

theorem code_append (a b : List Byte) : code (a ++ b) = code a ++ code b := List.map_append
theorem code_cons (a : Byte) (b : List Byte) : code (a :: b) = a.toNat :: code b := rfl
theorem code_length (a : List Byte) : (code a).length = a.length := List.length_map ..

theorem prefix_code (p s : List Byte) : (code p).isPrefixOf (code s) = p.isPrefixOf s := by
  induction p generalizing s with
  | nil => rfl
  | cons a p ih =>
    cases s with
    | nil => rfl
    | cons b s =>
      have e : (a.toNat == b.toNat) = (a == b) := by
        rw [Bool.eq_iff_iff, beq_iff_eq, beq_iff_eq, BitVec.toNat_inj]
      simp only [code_cons, List.isPrefixOf, e, ih]

theorem hasPrefix_code (s p : List Byte) : hasPrefix (code s) (code p) = SVB.Bench.hasPrefix s p := prefix_code p s

theorem goos_code : goos = code SVB.Bench.goos := by decide
theorem goarch_code : goarch = code SVB.Bench.goarch := by decide
theorem pkg_code : pkg = code SVB.Bench.pkg := by decide
theorem cpu_code : cpu = code SVB.Bench.cpu := by decide
theorem benchmark_code : benchmark = code SVB.Bench.benchmark := by decide
theorem dashes_code : dashes = code SVB.Bench.dashes := by decide
theorem start_code : startSentinel = code SVB.Bench.startSentinel := by decide
theorem end_code : endSentinel = code SVB.Bench.endSentinel := by decide

theorem anyPrefix_code (s : List Byte) : anyPrefix (code s) = SVB.Bench.anyPrefix s := by
  simp only [anyPrefix, SVB.Bench.anyPrefix, SVB.Bench.validPrefixes, List.any_cons, List.any_nil, goos_code, goarch_code,
    pkg_code, cpu_code, benchmark_code, hasPrefix_code]

theorem trim_code (s : List Byte) : trim (code s) = code (SVB.Bench.trimPrefix s SVB.Bench.benchmark) := by
  simp only [trim, SVB.Bench.trimPrefix, benchmark_code, hasPrefix_code, code_length]
  cases SVB.Bench.hasPrefix s SVB.Bench.benchmark
  · rfl
  · simp only [cond_true, if_true, code, List.map_drop]

theorem step_code (c : Bool × List (List Byte)) (l : List Byte) :
    step (c.1, c.2.map code) (code l) = ((SVB.Bench.scanStep c l).1, (SVB.Bench.scanStep c l).2.map code) := by
  simp only [step, SVB.Bench.scanStep, anyPrefix_code, trim_code]
  rw [benchmark_code, goos_code, cpu_code, dashes_code]
  simp only [hasPrefix_code]
  cases SVB.Bench.anyPrefix l
  · rfl
  · cases c.1 <;> cases SVB.Bench.hasPrefix l SVB.Bench.benchmark <;> cases SVB.Bench.hasPrefix l SVB.Bench.goos <;>
      cases SVB.Bench.hasPrefix l SVB.Bench.cpu <;>
      simp [code]

theorem fold_code (ls : List (List Byte)) (c : Bool × List (List Byte)) :
    (ls.map code).foldl step (c.1, c.2.map code) =
      ((ls.foldl SVB.Bench.scanStep c).1, (ls.foldl SVB.Bench.scanStep c).2.map code) := by
  induction ls generalizing c with
  | nil => rfl
  | cons l ls ih => rw [List.map_cons, List.foldl_cons, step_code, ih, List.foldl_cons]

theorem join_code (ls : List (List Byte)) :
    joinTexts [10] ((ls.map code).map .str) = some (code (SVB.Bench.join ls)) := by
  induction ls with
  | nil => rfl
  | cons l ls ih =>
    cases ls with
    | nil => rfl
    | cons l' ls =>
      have e : joinTexts [10] (((l :: l' :: ls).map code).map .str) =
          (joinTexts [10] (((l' :: ls).map code).map .str)).map fun r => code l ++ ([10] ++ r) := rfl
      have j : SVB.Bench.join (l :: l' :: ls) = l ++ 10 :: SVB.Bench.join (l' :: ls) := rfl
      rw [e, ih, j, Option.map_some, code_append, code_cons]
      rfl

theorem indexOf_code (p s : List Byte) (k : Nat) :
    indexOf (code p) (code s) k = (SVB.Bench.index p s).map (· + k) := by
  induction s generalizing k with
  | nil =>
    cases p with
    | nil => simp [code, indexOf, SVB.Bench.index]
    | cons a p => rfl
  | cons b s ih =>
    rw [code_cons, indexOf, SVB.Bench.index, ← code_cons, hasPrefix, prefix_code, ih]
    cases p.isPrefixOf (b :: s)
    · simp only [cond_false, Bool.false_eq_true, if_false, Option.map_map]
      congr 1
      funext x
      simp only [Function.comp]
      omega
    · simp only [cond_true, if_true, Option.map_some, Nat.zero_add]

theorem index_le {p s : List Byte} {n : Nat} (h : SVB.Bench.index p s = some n) : n ≤ s.length := by
  induction s generalizing n with
  | nil =>
    rw [SVB.Bench.index] at h
    split at h
    · cases h; exact Nat.le_refl _
    · cases h
  | cons b s ih =>
    rw [SVB.Bench.index] at h
    split at h
    · cases h; exact Nat.zero_le _
    · rw [Option.map_eq_some_iff] at h
      obtain ⟨m, hm, rfl⟩ := h
      have := ih hm
      simp only [List.length_cons]
      omega

end SVB.Script.Bench
