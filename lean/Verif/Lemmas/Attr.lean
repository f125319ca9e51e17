import Lean.Meta.Tactic.Simp.RegisterCommand
/-- Rewrites machine-integer expressions on bytes into `Nat` arithmetic (`/`, `%`, `*`, `+`). -/
register_simp_attr bytenorm
/-- Unfolding of the Go vocabulary and of the readers on literal byte lists. -/
register_simp_attr goeval
