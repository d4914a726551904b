import Verif.Model.Chrono
import Verif.Spec.Rational

/-!
# What durations measure
-/

namespace Ieme.Chrono

/-- Length of a period in seconds. -/
def Period.seconds (p : Period) : ℚ := p.num / p.den

/-- The factor by which counts change in a conversion from period `p` to period `q`. -/
def conversionFactor (p q : Period) : ℚ := p.seconds / q.seconds

/-- The parts of a rational number in lowest terms are values of the type. -/
def FitsParts (T : IntTy) (x : ℚ) : Prop := T.InRange x.num ∧ T.InRange x.den

instance (T : IntTy) (x : ℚ) : Decidable (FitsParts T x) := inferInstanceAs (Decidable (_ ∧ _))

/-- The count has the value `x`. -/
def Count.Is : Count → ℚ → Prop
  | .int n, x => (n : ℚ) = x
  | .frac f, x => Denotes f x

/-- The count is defined and its parts are at most `K` in absolute value. -/
def Count.AbsLe (K : ℕ) : Count → Prop
  | .int n => n.natAbs ≤ K
  | .frac f => f.AbsLe K ∧ f.den ≠ 0

/-- The duration of count `c` and period `p` lasts `t` seconds. -/
def Lasts (p : Period) (c : Count) (t : ℚ) : Prop := c.Is (t / p.seconds)

/-- `s` is a common measure of both periods: each is a whole number of times `s`. -/
def CommonMeasure (p q : Period) (s : ℚ) : Prop :=
  0 < s ∧ ∃ k m : ℕ, p.seconds = k * s ∧ q.seconds = m * s

/-- A fractional count has a positive denominator. -/
def Count.PosDen : Count → Prop
  | .int _ => True
  | .frac f => 0 < f.den

/-- A fractional count has representable parts; an integer count is any integer. -/
def Count.InRange (T : IntTy) : Count → Prop
  | .int _ => True
  | .frac f => f.InRange T

/-- The count as a fraction. -/
def Count.parts : Count → Raw
  | .int n => ⟨n, 1⟩
  | .frac f => f

/-- An integer count is a value of the type. -/
def Count.Fits (T : IntTy) : Count → Prop
  | .int n => T.InRange n
  | .frac _ => True

end Ieme.Chrono
