import Verif.Model.Numeric
import Verif.Spec.Algorithms
import Verif.Spec.CommonDen
import Mathlib.Algebra.BigOperators.Group.List.Basic

/-!
# What the numeric algorithms must compute
-/

namespace Ieme

/-- The sum of the values of a list of fractions. -/
def sumOf (xs : List Raw) : ℚ := (xs.map Raw.quot).sum

/-- The product of the values of a list of fractions. -/
def prodOf (xs : List Raw) : ℚ := (xs.map Raw.quot).prod

/-- The sum of the products of the values of two lists of fractions. -/
def dotOf (xs ys : List Raw) : ℚ := (List.zipWith (fun x y => x.quot * y.quot) xs ys).sum

/-- All denominators are nonzero. -/
def AllDefined (xs : List Raw) : Prop := ∀ x ∈ xs, x.den ≠ 0

/-- The sum of the magnitudes of the elements, in units of `1/D`. -/
def weightOver (D : ℤ) (xs : List Raw) : ℤ := (xs.map fun x => |x.over D|).sum

/-- `g` is a bracketing that `std::reduce` may use for the initial value and the range. -/
def Std.Grouping.Of (g : Std.Grouping) (init : Raw) (xs : List Raw) : Prop :=
  g.elements.Perm (init :: xs)

end Ieme
