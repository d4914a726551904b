import Verif.Spec.Rational

/-!
# What the rounding functions answer

These definitions describe the answers including the wrong ones.
-/

namespace Ieme

/-- What `floor` answers for the value `x`: the floor, except between -1 and 0. -/
def floorAnswer (x : ℚ) : ℤ := if -1 < x ∧ x < 0 then 0 else ⌊x⌋

/-- What `ceil` answers for the value `x`: the ceiling, except between -1 and 0. -/
def ceilAnswer (x : ℚ) : ℤ := if -1 < x ∧ x < 0 then 1 else ⌈x⌉

/-- `round` answers `n` for the value `x`: it starts from the answer of `floor` and adds one
unless less than one half is missing; where the comparison inside is reversed, unless more than
one half is missing. -/
def RoundAnswer (properly : Prop) (x : ℚ) (n : ℤ) : Prop :=
  (properly → n = if x - floorAnswer x < 1 / 2 then floorAnswer x else floorAnswer x + 1) ∧
  (¬ properly → n = if 1 / 2 < x - floorAnswer x then floorAnswer x else floorAnswer x + 1)

/-- The minimum value over minus one, the one defined fraction whose value overflows. -/
def Raw.MinOverMinusOne (T : IntTy) (f : Raw) : Prop := f.num = T.min ∧ f.den = -1

instance (T : IntTy) (f : Raw) : Decidable (f.MinOverMinusOne T) :=
  inferInstanceAs (Decidable (_ ∧ _))

end Ieme
