import Verif.Spec.Expr
import Verif.Model.Assign

/-!
# The rational value accumulated by compound assignments
-/

namespace Ieme

/-- Exact value after one assignment. -/
def Assign.value (x : ℚ) : Assign → Option ℚ
  | .frac op r => (litValue r).bind (op.value x)
  | .int op r => op.value x r

/-- Exact value after a sequence of assignments. -/
def Assign.values (x : ℚ) : List Assign → Option ℚ
  | [] => some x
  | s :: rest => (s.value x).bind (Assign.values · rest)

/-- The right operand is a value of the type. -/
def Assign.InRange (T : IntTy) : Assign → Prop
  | .frac _ r => r.InRange T
  | .int _ r => T.InRange r

end Ieme
