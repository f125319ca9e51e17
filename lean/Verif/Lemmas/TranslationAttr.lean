import Mathlib.Tactic.Attr.Register
/-! The simp set of the equations between the mechanical translation (Model/Translation) and the hand-written model. -/
/-- Equations turning the translated functions into those of the hand-written model. -/
register_simp_attr translated
