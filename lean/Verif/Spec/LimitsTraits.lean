import Verif.Spec.Rational

/-!
# What the constants of `std::numeric_limits` promise

In the words of [numeric.limits.members]; of the model only types are used.
-/

namespace Ieme

/-- The rational number is the value of a fraction of the type. -/
def Holds (T : IntTy) (x : ℚ) : Prop := ∃ f : Raw, f.InRange T ∧ Denotes f x

/-- The operands are the whole numbers `x` and `y`, as fractions with denominator one or as
integers. -/
def Args.Whole : Args → ℤ → ℤ → Prop
  | .ff l r, x, y => l = ⟨x, 1⟩ ∧ r = ⟨y, 1⟩
  | .fr l r, x, y => l = ⟨x, 1⟩ ∧ r = y
  | .rf l r, x, y => l = x ∧ r = ⟨y, 1⟩

/-- Sum, difference and product of integers: the operations that `is_modulo` is about. -/
def ArithOp.Ring : ArithOp → ℤ → ℤ → ℤ → Prop
  | .plus, x, y, z => z = x + y
  | .minus, x, y, z => z = x - y
  | .multiplies, x, y, z => z = x * y
  | .divides, _, _, _ => False
  | .modulus, _, _, _ => False

end Ieme
