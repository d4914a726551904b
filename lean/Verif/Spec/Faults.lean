import Verif.Spec.Rational
import Verif.Model.Chrono
import Verif.Model.Ieee

/-!
# What can go wrong
-/

namespace Ieme

/-- If the evaluation fails, then in one of the given ways. -/
def Res.FaultsIn {α : Type} (x : Res α) (ks : List Fault) : Prop := ∀ k, x = .fault k → k ∈ ks

/-- All fractions among the operands are defined. -/
def Args.Defined : Args → Prop
  | .ff l r => l.den ≠ 0 ∧ r.den ≠ 0
  | .fr l _ => l.den ≠ 0
  | .rf _ r => r.den ≠ 0

/-- The right operand is zero. -/
def Args.ZeroRight : Args → Prop
  | .ff _ r => r.num = 0
  | .fr _ n => n = 0
  | .rf _ r => r.num = 0

/-- What can go wrong in arithmetic on `T`: signed types overflow or violate the precondition
of `std::gcd`, unsigned types do not; every type can violate that of `std::lcm`.  `dz` tells
whether a division by zero is possible. -/
def Fault.Arith (T : IntTy) (dz : Prop) : Fault → Prop
  | .overflow => T.signed = true
  | .gcdPrecond => T.signed = true
  | .lcmPrecond => True
  | .divByZero => dz
  | _ => False

/-- The same for functions that use several types. -/
def Fault.Calc (dz : Prop) : Fault → Prop
  | .overflow => True
  | .gcdPrecond => True
  | .lcmPrecond => True
  | .divByZero => dz
  | _ => False

/-- What can go wrong when a floating-point number becomes a fraction: the computation, or the
shift for the power of two; the program is ill-formed when the mantissa has more bits than the
type. -/
def Fault.FromFloat (T : IntTy) (F : Fmt) (k : Fault) : Prop :=
  Fault.Calc (T.signed = false) k ∨ k = .shiftRange ∨ k = .illFormed ∧ T.bits ≤ F.mant

/-- The count of a duration is a fraction with denominator zero. -/
def Chrono.Count.Undefined : Chrono.Count → Prop
  | .int _ => False
  | .frac f => f.den = 0

end Ieme
