import Verif.Model.Duration
import Verif.Model.Limits

/-!
# Algorithms of `std::chrono` on fractional durations

`ieme::chrono::duration` is an alias of `std::chrono::duration`
(`/repo/include/ieme/chrono.hpp:30-31`), so `abs`, `floor` and `ceil` of `<chrono>` apply to it
([time.duration.alg], [time.duration.cast]).  The standard says what `floor` and `ceil` return;
modelled is how the common implementations do it: convert, compare with the source, and correct
by one.

Not modelled: `round`, which the standard disables for a target that counts as floating, as
fractions do (lines 17-19); `++` and `--`, for which `fraction` has no operators; rounding to a
duration that counts in integers, since `fraction` converts to no integer.
-/

namespace Ieme.Chrono

/-- `duration::zero()`: `duration_values<fraction>::zero()` is `fraction(0)`. -/
def zero : Raw := Fraction.mk 0

/-- `duration::min()`: `duration_values<fraction>::min()` is `numeric_limits<fraction>::lowest()`,
`/repo/include/ieme/limits.hpp:217-222`. -/
def durMin (T : IntTy) : Raw := Limits.stdLowest T

/-- `duration::max()`: `numeric_limits<fraction>::max()`,
`/repo/include/ieme/limits.hpp:224-229`. -/
def durMax (T : IntTy) : Raw := Limits.stdMax T

/-- `std::chrono::abs`: requires `numeric_limits<fraction>::is_signed`, which is that of the
representation (`/repo/include/ieme/limits.hpp:62`). -/
def abs (T : IntTy) (o : Ops) (p : Period) (f : Raw) : Res Raw :=
  if T.signed then do
    let ge ← cmp T o .greaterEqual p p (.frac f) (.frac zero)
    if ge then return f else neg T o f
  else .fault .illFormed

/-- `std::chrono::floor` to a fractional duration of period `q`. -/
def floor (T : IntTy) (o : Ops) (p q : Period) (c : Count) : Res Raw := do
  let to ← durationCast T o p q c
  let gt ← cmp T o .greater q p (.frac to) c
  if gt then arith T o .minus q q (.frac to) (.frac (Fraction.mk 1)) else return to

/-- `std::chrono::ceil` to a fractional duration of period `q`. -/
def ceil (T : IntTy) (o : Ops) (p q : Period) (c : Count) : Res Raw := do
  let to ← durationCast T o p q c
  let lt ← cmp T o .less q p (.frac to) c
  if lt then arith T o .plus q q (.frac to) (.frac (Fraction.mk 1)) else return to

end Ieme.Chrono
