import Lean.Meta.Tactic.Simp.RegisterCommand

/-!
# The rewrite rules for evaluating the text of the headers
-/

/-- Rules that choose the function to call. -/
register_simp_attr pick

/-- Rules that run the body of a function. -/
register_simp_attr exec_header
