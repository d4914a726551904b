import Verif.Spec.Assign

/-!
# Sums over a common denominator
-/

namespace Ieme

/-- The numerator of the fraction when it is written over `D`, a multiple of its denominator. -/
def Raw.over (D : ℤ) (f : Raw) : ℤ := f.num * (D / f.den)

/-- The assignment adds or subtracts a defined fraction whose denominator divides `D`, or an
integer. -/
def Assign.Sums (D : ℤ) : Assign → Prop
  | .frac op t => (op = .plus ∨ op = .minus) ∧ t.den ≠ 0 ∧ t.den ∣ D
  | .int op _ => op = .plus ∨ op = .minus

/-- What such an assignment contributes, as a multiple of `1/D`. -/
def Assign.over (D : ℤ) : Assign → ℤ
  | .frac .minus t => -t.over D
  | .frac _ t => t.over D
  | .int .minus n => -(n * D)
  | .int _ n => n * D

/-- The policy ends in `safe`, under any stack of reducing wrappers. -/
def Ops.BasedOnSafe : Ops → Prop
  | .safe => True
  | .fast => False
  | .reducedInput o _ => o.BasedOnSafe
  | .reducedOutput o _ => o.BasedOnSafe

end Ieme
