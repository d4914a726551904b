import Verif.Spec.Ieee

/-!
# Correct rounding

What IEEE 754 (section 4.3.1) asks of a result under round to nearest, ties to even.  It
refers to bit patterns and their values only, not to how rounding is carried out.
-/

namespace Ieme.Fmt

/-- The pattern is that of a finite number. -/
def Finite (F : Fmt) (b : ℕ) : Prop := F.Valid b ∧ F.expField b < 2 ^ F.exp - 1

instance (F : Fmt) (b : ℕ) : Decidable (F.Finite b) := inferInstanceAs (Decidable (_ ∧ _))

/-- The number is the value of some finite pattern. -/
def Representable (F : Fmt) (x : ℚ) : Prop := ∃ b, F.Finite b ∧ F.value b = x

/-- Magnitude from which on results overflow: halfway between the largest finite number and
the next power of two. -/
def overflowBound (F : Fmt) : ℚ := 2 ^ (F.bias + 1) - 2 ^ (F.bias - F.mant - 1)

/-- `b` is the correctly rounded pattern for the number `x`. -/
structure Rounded (F : Fmt) (x : ℚ) (b : ℕ) : Prop where
  valid : F.Valid b
  /-- the sign is that of `x`, and plus for zero -/
  sign : F.signField b = if x < 0 then 1 else 0
  /-- large numbers become infinite -/
  overflow : F.overflowBound ≤ |x| → F.Inf b
  /-- all others become finite -/
  finite : |x| < F.overflowBound → F.Finite b
  /-- no finite number is closer -/
  nearest : |x| < F.overflowBound → ∀ c, F.Finite c → |F.value b - x| ≤ |F.value c - x|
  /-- if another one is as close, the last bit is zero -/
  tie : |x| < F.overflowBound → ∀ c, F.Finite c → F.value c ≠ F.value b →
    |F.value c - x| = |F.value b - x| → b % 2 = 0

/-- `b <= c` as floating-point numbers. -/
def Le (F : Fmt) (b c : ℕ) : Prop :=
  (F.Inf b ∧ F.signField b = 1 ∧ ¬ F.NaN c) ∨ (F.Inf c ∧ F.signField c = 0 ∧ ¬ F.NaN b) ∨
  (F.Finite b ∧ F.Finite c ∧ F.value b ≤ F.value c)

end Ieme.Fmt
