import Verif.Model.Narrow
import Verif.Spec.Rational

/-!
# Vocabulary for types narrower than `int`
-/

namespace Ieme

/-- All operands are values of the narrow type. -/
def Args.InNarrow (N : NarrowTy) : Args → Prop
  | .ff l r => l.InNarrow N ∧ r.InNarrow N
  | .fr l r => l.InNarrow N ∧ N.InRange r
  | .rf l r => N.InRange l ∧ r.InNarrow N

/-- Each operand is a value of its own type. -/
def Args.InTypes (L R : NarrowTy) : Args → Prop
  | .ff l r => l.InNarrow L ∧ r.InNarrow R
  | .fr l r => l.InNarrow L ∧ R.InRange r
  | .rf l r => L.InRange l ∧ r.InNarrow R

/-- Neither part is the least value of a signed type. -/
def Raw.AvoidsMin (N : NarrowTy) (f : Raw) : Prop :=
  N.signed = true → f.num ≠ N.min ∧ f.den ≠ N.min

/-- The product of any two values of the type is an `int`: `signed char`, `unsigned char` and
`short`, but not `unsigned short`. -/
def NarrowTy.ProductsFit (N : NarrowTy) : Prop := N.bits ≤ if N.signed then 16 else 15

instance (N : NarrowTy) : Decidable N.ProductsFit := inferInstanceAs (Decidable (_ ≤ _))

end Ieme
