import Verif.Spec.FloatRounding

/-!
# The four rounding directions

What IEEE 754 (sections 4.3.1 and 4.3.2) asks of a result in each of the four rounding
directions of binary formats.  As in `Verif/Spec/FloatRounding.lean` only bit patterns and
their values are mentioned, not how rounding is carried out.
-/

namespace Ieme

/-- The rounding directions that `std::fesetround` selects. -/
inductive Direction
  /-- `FE_TONEAREST` -/
  | nearest
  /-- `FE_UPWARD` -/
  | upward
  /-- `FE_DOWNWARD` -/
  | downward
  /-- `FE_TOWARDZERO` -/
  | towardZero
  deriving DecidableEq, Repr

namespace Fmt

/-- `b` is the least floating-point number, infinity included, that is not below `x`. -/
def LeastAbove (F : Fmt) (x : ℚ) (b : ℕ) : Prop :=
  (F.Inf b ∧ 0 < x ∧ ∀ c, F.Finite c → F.value c < x) ∨
  (F.Finite b ∧ x ≤ F.value b ∧ ∀ c, F.Finite c → x ≤ F.value c → F.value b ≤ F.value c)

/-- `b` is the greatest floating-point number, infinity included, that is not above `x`. -/
def GreatestBelow (F : Fmt) (x : ℚ) (b : ℕ) : Prop :=
  (F.Inf b ∧ x < 0 ∧ ∀ c, F.Finite c → x < F.value c) ∨
  (F.Finite b ∧ F.value b ≤ x ∧ ∀ c, F.Finite c → F.value c ≤ x → F.value c ≤ F.value b)

/-- `b` is the finite number of greatest magnitude that is not larger in magnitude than `x`. -/
def GreatestWithin (F : Fmt) (x : ℚ) (b : ℕ) : Prop :=
  F.Finite b ∧ |F.value b| ≤ |x| ∧
    ∀ c, F.Finite c → |F.value c| ≤ |x| → |F.value c| ≤ |F.value b|

/-- `b` is the pattern for the number `x` correctly rounded in direction `d`: its sign is that
of `x`, and plus for zero. -/
def RoundedTo (F : Fmt) (d : Direction) (x : ℚ) (b : ℕ) : Prop :=
  F.Valid b ∧ F.signField b = (if x < 0 then 1 else 0) ∧
  match d with
  | .nearest => F.Rounded x b
  | .upward => F.LeastAbove x b
  | .downward => F.GreatestBelow x b
  | .towardZero => F.GreatestWithin x b

/-- Largest relative error of one rounding in the normal range: half a unit in the last place
when rounding to nearest, a whole one otherwise. -/
def unit (F : Fmt) : Direction → ℚ
  | .nearest => 1 / 2 ^ (F.mant + 1)
  | .upward => 1 / 2 ^ F.mant
  | .downward => 1 / 2 ^ F.mant
  | .towardZero => 1 / 2 ^ F.mant

end Fmt
end Ieme
