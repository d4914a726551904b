import Verif.Model.MixedNumber

/-!
# `limits.hpp`

Models `limits<fraction<Rep, Ops>>` and `std::numeric_limits<ieme::fraction<Rep, Ops>>` of
`/repo/include/ieme/limits.hpp`.

Not modelled: `limits<mixed_number<Rep, Ops>>` (lines 175-201) and
`std::numeric_limits<ieme::mixed_number<Rep, Ops>>` (from line 88).  `mixed_number` takes three
template arguments, so these match `mixed_number<W, F, ops::defaults>` with `F` in the place of
`Ops`; they then name its member `fraction_type` (lines 39 and 101), which it does not have
(it is called `fractional_type`), so that every use of them is ill-formed.
-/

namespace Ieme.Limits

/-- `limits::max`, `/repo/include/ieme/limits.hpp:151-155`. -/
def max (T : IntTy) : Raw := Fraction.mk T.max

/-- `limits::min`, lines 157-161. -/
def min (T : IntTy) : Raw := Fraction.mk T.min

/-- `limits::smallest`, lines 163-167. -/
def smallest (T : IntTy) : Raw := Fraction.mk 1 T.max

/-- `limits::undefined`, lines 169-173. -/
def undefined : Raw := Fraction.mk 0 0

/-! `std::numeric_limits<ieme::fraction<Rep, Ops>>`, lines 55-88 and 210-271.  For an
integer type `Rep` the standard fixes `round_error()`, `infinity()`, `signaling_NaN()` and
`denorm_min()` to zero ([numeric.limits.members]). -/

/-- `numeric_limits::min`, lines 210-215. -/
def stdMin (T : IntTy) : Raw := min T

/-- `numeric_limits::lowest`, lines 217-222. -/
def stdLowest (T : IntTy) : Raw := min T

/-- `numeric_limits::max`, lines 224-229. -/
def stdMax (T : IntTy) : Raw := max T

/-- `numeric_limits::epsilon`, lines 231-236. -/
def stdEpsilon (T : IntTy) : Raw := smallest T

/-- `numeric_limits::round_error`, lines 238-243. -/
def stdRoundError : Raw := Fraction.mk 0

/-- `numeric_limits::infinity`, lines 245-250. -/
def stdInfinity : Raw := Fraction.mk 0

/-- `numeric_limits::quiet_NaN`, lines 252-257. -/
def stdQuietNaN : Raw := undefined

/-- `numeric_limits::signaling_NaN`, lines 259-264. -/
def stdSignalingNaN : Raw := Fraction.mk 0

/-- `numeric_limits::denorm_min`, lines 266-271. -/
def stdDenormMin : Raw := Fraction.mk 0

end Ieme.Limits
