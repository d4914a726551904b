import Verif.Spec.Rational
import Verif.Model.Expr

/-!
# The rational value of an expression

`Expr.value` is `none` when a division or modulus by zero, or an undefined literal,
occurs anywhere in the tree.
-/

namespace Ieme

/-- The value of a fraction object, if defined. -/
def litValue (f : Raw) : Option ℚ := if f.den = 0 then none else some ((f.num : ℚ) / f.den)

/-- Exact rational arithmetic; `none` for division or modulus by zero. -/
def ArithOp.value : ArithOp → ℚ → ℚ → Option ℚ
  | .plus, x, y => some (x + y)
  | .minus, x, y => some (x - y)
  | .multiplies, x, y => some (x * y)
  | .divides, x, y => if y = 0 then none else some (x / y)
  | .modulus, x, y => if y = 0 then none else some (x - y * ratTrunc (x / y))

/-- The exact value of an expression. -/
def Expr.value : Expr → Option ℚ
  | .lit f => litValue f
  | .neg e => e.value.map (fun x => -x)
  | .pos e => e.value
  | .ff op e1 e2 => e1.value.bind fun x => e2.value.bind fun y => op.value x y
  | .fr op e n => e.value.bind fun x => op.value x n
  | .rf op n e => e.value.bind fun y => op.value n y

/-- Every fraction object has a positive denominator and every divisor a positive value. -/
def Expr.PosDivisors : Expr → Prop
  | .lit f => 0 < f.den
  | .neg e => e.PosDivisors
  | .pos e => e.PosDivisors
  | .ff op e1 e2 => e1.PosDivisors ∧ e2.PosDivisors ∧
      (op = .divides → ∃ y, e2.value = some y ∧ 0 < y)
  | .fr op e n => e.PosDivisors ∧ (op = .divides → 0 < n)
  | .rf op _ e => e.PosDivisors ∧ (op = .divides → ∃ y, e.value = some y ∧ 0 < y)

/-- The fractions and integers written in the expression are values of the type. -/
def Expr.LeavesInRange (T : IntTy) : Expr → Prop
  | .lit f => f.InRange T
  | .neg e => e.LeavesInRange T
  | .pos e => e.LeavesInRange T
  | .ff _ e1 e2 => e1.LeavesInRange T ∧ e2.LeavesInRange T
  | .fr _ e n => e.LeavesInRange T ∧ T.InRange n
  | .rf _ n e => T.InRange n ∧ e.LeavesInRange T

end Ieme
