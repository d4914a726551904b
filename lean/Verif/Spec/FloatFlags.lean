import Verif.Spec.Directed

/-!
# Exception flags of floating-point arithmetic

The five flags of `<cfenv>` and what IEEE 754 (section 7) says about the flags of an operation with
a finite exact result.
-/

namespace Ieme

/-- `FE_INVALID`, `FE_DIVBYZERO`, `FE_OVERFLOW`, `FE_UNDERFLOW`, `FE_INEXACT` -/
structure Flags where
  invalid : Bool
  divByZero : Bool
  overflow : Bool
  underflow : Bool
  inexact : Bool
deriving DecidableEq, Repr

namespace Fmt

/-- The largest finite number. -/
def maxFinite (F : Fmt) : ℚ := 2 ^ (F.bias + 1) - 2 ^ (F.bias - F.mant)

/-- Rounded with the significand of the format but without a bound for the exponent, the number is
larger in magnitude than all finite ones: when rounding to nearest, from halfway to the next power of
two on; when rounding away from zero, above the largest finite number; when rounding toward zero, from
the next power of two on. -/
def Overflows (F : Fmt) (d : Direction) (x : ℚ) : Prop :=
  match d with
  | .nearest => F.overflowBound ≤ |x|
  | .upward => F.maxFinite < x ∨ x ≤ -2 ^ (F.bias + 1)
  | .downward => x < -F.maxFinite ∨ 2 ^ (F.bias + 1) ≤ x
  | .towardZero => 2 ^ (F.bias + 1) ≤ |x|

/-- The number is not zero and below the least normal one. -/
def Subnormal (F : Fmt) (x : ℚ) : Prop := x ≠ 0 ∧ |x| < 2 ^ (1 - F.bias)

/-- Rounded with the significand of the format but without a bound for the exponent, the number is not
zero and below the least normal one. -/
def SubnormalRounded (F : Fmt) (d : Direction) (x : ℚ) : Prop :=
  match d with
  | .nearest => x ≠ 0 ∧ |x| < 2 ^ (1 - F.bias) - 2 ^ (-F.bias - F.mant - 1)
  | .upward => (0 < x ∧ x ≤ 2 ^ (1 - F.bias) - 2 ^ (-F.bias - F.mant)) ∨
      (x < 0 ∧ -2 ^ (1 - F.bias) < x)
  | .downward => (0 < x ∧ x < 2 ^ (1 - F.bias)) ∨
      (x < 0 ∧ -(2 ^ (1 - F.bias) - 2 ^ (-F.bias - F.mant)) ≤ x)
  | .towardZero => x ≠ 0 ∧ |x| < 2 ^ (1 - F.bias)

end Fmt
end Ieme
