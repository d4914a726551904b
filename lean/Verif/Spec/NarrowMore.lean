import Verif.Spec.Stream
import Verif.Spec.Narrow

/-!
# What the standard library extracts into a narrow integer
-/

namespace Ieme.NarrowTy

/-- The integers that are extracted without failure: those that fit, and for unsigned types also
the negatives of those. -/
def Accepts (N : NarrowTy) (n : Int) : Prop :=
  if N.signed then N.InRange n else (n.natAbs : Int) ≤ N.max

/-- What the variable holds after extraction of the integer `n`, successful or not. -/
def receives (N : NarrowTy) (n : Int) : Int :=
  if N.signed then Max.max N.min (Min.min n N.max)
  else if (n.natAbs : Int) ≤ N.max then n % 2 ^ N.bits else N.max

instance (N : NarrowTy) (n : Int) : Decidable (N.Accepts n) := by unfold Accepts; infer_instance

end Ieme.NarrowTy
