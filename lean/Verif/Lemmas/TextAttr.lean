import Lean.Meta.Tactic.Simp.RegisterCommand
/-- Equalities of a text of the code (`Shown.…`) with that of the model. -/
register_simp_attr shown_text
