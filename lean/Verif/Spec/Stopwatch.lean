import Verif.Spec.Chrono
import Verif.Spec.CommonDen

/-!
# Readings of a clock over a common denominator
-/

namespace Ieme.Chrono

/-- A reading of a clock of period `p`, counted in periods `q`, as a multiple of `1/E`. -/
def reading (p q : Period) (E n : ℤ) : ℤ :=
  n * (conversionFactor p q).num * (E / (conversionFactor p q).den)

/-- A clock of period `p` can be wrapped with period `q`; the numerator of the conversion factor and
the denominator `E`, a multiple of that of the factor, are values of the type. -/
structure Grid (T : IntTy) (p q : Period) (E : ℤ) : Prop where
  compiles : FitsParts i64 (conversionFactor p q)
  period : i64.InRange q.den
  divides : ((conversionFactor p q).den : ℤ) ∣ E
  pos : 0 < E
  fits : E ≤ T.max
  factor : (conversionFactor p q).num ≤ T.max

/-- The period of the clocks of the usual standard libraries, a nanosecond. -/
def nano : Period := ⟨1, 1000000000, by decide, by decide, by decide⟩

/-- A second. -/
def second : Period := ⟨1, 1, by decide, by decide, by decide⟩

end Ieme.Chrono
