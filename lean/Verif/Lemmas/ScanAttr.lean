import Lean.Meta.Tactic.Simp.RegisterCommand

/-!
# The rewrite rules for evaluating the text of the parser
-/

/-- Rules that run the body of a function. -/
register_simp_attr exec_scan
