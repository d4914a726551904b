import Verif.Spec.Rational

/-!
# What the default policy computes, in terms of values
-/

namespace Ieme

/-- The rational in lowest terms, with positive denominator. -/
def ratParts (x : ℚ) : Raw := ⟨x.num, x.den⟩

/-- The least common denominator. -/
def leastCommon (x y : ℚ) : ℕ := Nat.lcm x.den y.den

/-- The numerator of `x` over `D`, a multiple of its denominator. -/
def numOver (x : ℚ) (D : ℕ) : ℤ := x.num * (D / x.den : ℕ)

/-- The exact result; an undefined quotient is `0/0`. -/
def ArithOp.answer : ArithOp → ℚ → ℚ → Raw
  | .plus, x, y => ratParts (x + y)
  | .minus, x, y => ratParts (x - y)
  | .multiplies, x, y => ratParts (x * y)
  | .divides, x, y => if y = 0 then ⟨0, 0⟩ else ratParts (x / y)
  | .modulus, x, y => ratParts (x - y * ratTrunc (x / y))

/-- The least common denominator and both numerators over it are representable. -/
def CommonFits (T : IntTy) (x y : ℚ) : Prop :=
  T.InRange (leastCommon x y) ∧ T.InRange (numOver x (leastCommon x y)) ∧
    T.InRange (numOver y (leastCommon x y))

/-- The intermediate values of the default policy are representable. -/
def ArithOp.Fits (T : IntTy) : ArithOp → ℚ → ℚ → Prop
  | .plus, x, y => CommonFits T x y ∧
      T.InRange |numOver x (leastCommon x y) + numOver y (leastCommon x y)|
  | .minus, x, y => CommonFits T x y ∧
      T.InRange (numOver x (leastCommon x y) - numOver y (leastCommon x y)) ∧
      T.InRange |numOver x (leastCommon x y) - numOver y (leastCommon x y)|
  | .multiplies, x, y => T.InRange |x.num * y.num| ∧ T.InRange (x.den * y.den)
  | .divides, x, y => y = 0 ∨ T.InRange |x.num * y.den| ∧ T.InRange |x.den * y.num|
  | .modulus, x, y => CommonFits T x y ∧ y ≠ 0 ∧
      T.InRange ((numOver x (leastCommon x y)).tdiv (numOver y (leastCommon x y)))

/-- Fractions that meet an integer have positive denominators. -/
def Args.IntegerPosDen : Args → Prop
  | .ff _ _ => True
  | .fr l _ => 0 < l.den
  | .rf _ r => 0 < r.den

/-- No part of an operand exceeds `B` in magnitude. -/
def Args.PartsAtMost (B : ℤ) : Args → Prop
  | .ff l r => |l.num| ≤ B ∧ |l.den| ≤ B ∧ |r.num| ≤ B ∧ |r.den| ≤ B
  | .fr l n => |l.num| ≤ B ∧ |l.den| ≤ B ∧ |n| ≤ B
  | .rf n r => |n| ≤ B ∧ |r.num| ≤ B ∧ |r.den| ≤ B

instance (T : IntTy) (x y : ℚ) : Decidable (CommonFits T x y) := by
  unfold CommonFits; infer_instance

instance (T : IntTy) (op : ArithOp) (x y : ℚ) : Decidable (op.Fits T x y) := by
  cases op <;> unfold ArithOp.Fits <;> infer_instance

end Ieme
