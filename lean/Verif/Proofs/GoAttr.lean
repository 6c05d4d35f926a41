import Lean.Meta.Tactic.Simp.RegisterCommand

/-- Lemmas that run the interpreter of Go source text. -/
register_simp_attr go
