import Verif.Spec.Rational

/-!
# Ordering fractions by value
-/

namespace Ieme

/-- The value of a defined fraction. -/
def Raw.quot (f : Raw) : ℚ := (f.num : ℚ) / f.den

/-- Fractions a policy puts in the right order: those with positive denominators, and for a policy
that ends in `safe` all defined ones. -/
def Ops.Orders (o : Ops) (f : Raw) : Prop := 0 < f.den ∨ o.SafeBased ∧ f.den ≠ 0

end Ieme
