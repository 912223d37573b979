import Lean.Meta.Tactic.Simp.RegisterCommand

/-! # The simp set `py` -/

/-- Lemmas for running Python programs. -/
register_simp_attr py
