import Verif.Spec.Expr

/-!
# Dyadic rationals

The numbers whose denominator in lowest terms is a power of two, and the expressions that do not
leave them.
-/

namespace Ieme

/-- The denominator in lowest terms is a power of two. -/
def IsDyadic (q : ℚ) : Prop := ∃ k : ℕ, q.den = 2 ^ k

/-- Every fraction object is dyadic or undefined and nothing is divided. -/
def Expr.Undivided : Expr → Prop
  | .lit f => ∀ q, litValue f = some q → IsDyadic q
  | .neg e => e.Undivided
  | .pos e => e.Undivided
  | .ff op e1 e2 => op ≠ .divides ∧ e1.Undivided ∧ e2.Undivided
  | .fr op e _ => op ≠ .divides ∧ e.Undivided
  | .rf op _ e => op ≠ .divides ∧ e.Undivided

end Ieme
