import Verif.Model.FloatingPoint
import Verif.Spec.Directed

/-!
# Conversion to floating point in any rounding direction

`Verif/Model/FloatingPoint.lean` evaluates the two conversions and the division of
`fraction_to_floating_point` in the default rounding direction.  A program may select another
one with `std::fesetround`; here the same function is evaluated in a given direction.
`ofFractionTo_nearest` (in `Verif/Lemmas/Directed.lean`) says that for the default direction
nothing changes.  The conversion from floating point to fractions computes with integers only
and does not depend on the direction.
-/

namespace Ieme
namespace Fmt

/-- Does the direction ask to round a number of the given sign away from zero? -/
def away : Direction → Bool → Bool
  | .upward, neg => !neg
  | .downward, neg => neg
  | _, _ => false

/-- Rounding of the magnitude `a` of a number with the given sign: pattern without sign.  In
the directions that do not go away from zero the largest finite number takes the place of
infinity. -/
def roundTo (F : Fmt) (d : Direction) (neg : Bool) (a : ℚ) : ℕ :=
  let field := (F.scale a - (1 - F.bias)).toNat * 2 ^ F.mant
  let t := a / 2 ^ (F.scale a - F.mant)
  if d = .nearest then F.roundAbs a
  else if away d neg then min (field + ⌈t⌉₊) F.infBits
  else min (field + ⌊t⌋₊) (F.infBits - 1)

/-- `static_cast<Float>(n)` of an integer. -/
def ofIntTo (F : Fmt) (d : Direction) (n : ℤ) : ℕ :=
  F.withSign (decide (n < 0)) (F.roundTo d (decide (n < 0)) n.natAbs)

/-- `x / y` of two floating-point numbers. -/
def divTo (F : Fmt) (d : Direction) (x y : ℕ) : ℕ :=
  let neg := F.signField x != F.signField y
  if F.NaN x ∨ F.NaN y ∨ (F.Inf x ∧ F.Inf y) then F.quietNaN
  else if F.Inf x then F.withSign neg F.infBits
  else if F.Inf y then F.withSign neg 0
  else if F.magnitude y = 0 then
    if F.magnitude x = 0 then F.quietNaN else F.withSign neg F.infBits
  else F.withSign neg (F.roundTo d neg (F.magnitude x / F.magnitude y))

end Fmt

namespace FloatingPoint

/-- `fraction_to_floating_point`, `/repo/include/ieme/floating_point.hpp` lines 212-219, with
the floating-point operations rounding in direction `d`. -/
def ofFractionTo (F : Fmt) (T : IntTy) (d : Direction) (f : Raw) : Res Nat := do
  let reduced ← f.reduce T .normalizeSigns
  return F.divTo d (F.ofIntTo d reduced.num) (F.ofIntTo d reduced.den)

end FloatingPoint
end Ieme
