import Verif.Model.Machine

/-!
# `raw_fraction`, its queries and its mathematics

Models `/repo/include/ieme/raw_fraction.hpp`, `raw_fraction_queries.hpp`,
`raw_fraction_math.hpp`, `reduce_mode.hpp` and `abs` of `math_utilities.hpp`.
The representation type `Rep` is the parameter `T`.
-/

namespace Ieme

/-- `raw_fraction<Rep>`: a numerator and a denominator.
`/repo/include/ieme/raw_fraction.hpp:13-26`. -/
structure Raw where
  num : Int
  den : Int
deriving DecidableEq, Repr

/-- Both parts are values of type `T` (always true of a C++ object). -/
def Raw.InRange (T : IntTy) (f : Raw) : Prop := T.InRange f.num ∧ T.InRange f.den

instance (T : IntTy) (f : Raw) : Decidable (f.InRange T) :=
  inferInstanceAs (Decidable (_ ∧ _))

/-- Converting constructor: `static_cast` of each part.
`/repo/include/ieme/raw_fraction.hpp:48-55`. -/
def Raw.conv (T : IntTy) (f : Raw) : Res Raw := do
  let n ← T.conv f.num
  let d ← T.conv f.den
  return ⟨n, d⟩

/-- `enum class reduce_mode`. `/repo/include/ieme/reduce_mode.hpp:8`.
Values outside the two enumerators (reachable only by a cast) are in `Model/ReduceAny`. -/
inductive ReduceMode where
  | normalizeSigns
  | ignoreSigns
deriving DecidableEq, Repr

/-- `math_utilities::abs`. `/repo/include/ieme/math_utilities.hpp:26-30`. -/
def mathAbs (T : IntTy) (v : Int) : Res Int :=
  if v ≥ 0 then pure v else T.neg v

namespace Raw

/-! ## Queries: `/repo/include/ieme/raw_fraction_queries.hpp` -/

/-- `is_defined`, lines 65-69. -/
def isDefined (f : Raw) : Bool := f.den != 0

/-- `is_undefined`, lines 71-75. -/
def isUndefined (f : Raw) : Bool := !f.isDefined

/-- `is_positive`, lines 77-82. -/
def isPositive (f : Raw) : Bool :=
  (decide (f.num > 0) && decide (f.den > 0)) || (decide (f.num < 0) && decide (f.den < 0))

/-- `is_non_negative`, lines 84-89. -/
def isNonNegative (f : Raw) : Bool :=
  (decide (f.num ≥ 0) && decide (f.den > 0)) || (decide (f.num ≤ 0) && decide (f.den < 0))

/-- `is_zero`, lines 91-95. -/
def isZero (f : Raw) : Bool := f.isDefined && f.num == 0

/-- `is_non_positive`, lines 97-102. -/
def isNonPositive (f : Raw) : Bool :=
  (decide (f.num ≥ 0) && decide (f.den < 0)) || (decide (f.num ≤ 0) && decide (f.den > 0))

/-- `is_negative`, lines 104-109. -/
def isNegative (f : Raw) : Bool :=
  (decide (f.num > 0) && decide (f.den < 0)) || (decide (f.num < 0) && decide (f.den > 0))

/-- `is_integer`, lines 111-115 (short-circuit `&&`). -/
def isInteger (T : IntTy) (f : Raw) : Res Bool :=
  if f.isDefined then do
    let m ← T.mod f.num f.den
    return m == 0
  else pure false

/-- `is_unit_fraction`, lines 117-123 (short-circuit `&&`). -/
def isUnitFraction (T : IntTy) (f : Raw) : Res Bool :=
  if f.isDefined && f.num != 0 then do
    let m ← T.mod f.den f.num
    return m == 0
  else pure false

/-- `is_reduced_ignore_signs`, lines 125-130 (short-circuit `&&`). -/
def isReducedIgnoreSigns (T : IntTy) (f : Raw) : Res Bool :=
  if f.isDefined then do
    let g ← T.gcd f.num f.den
    return g == 1
  else pure false

/-- `is_reduced`, lines 132-139 (short-circuit `&&`). -/
def isReduced (T : IntTy) (f : Raw) : Res Bool :=
  if decide (f.num > 0) || decide (f.den > 0) then f.isReducedIgnoreSigns T else pure false

/-- `is_proper`, lines 141-146. -/
def isProper (T : IntTy) (f : Raw) : Res Bool := do
  let n ← mathAbs T f.num
  let d ← mathAbs T f.den
  return decide (n < d)

/-- `is_improper`, lines 148-152. -/
def isImproper (T : IntTy) (f : Raw) : Res Bool := do
  let p ← f.isProper T
  return !p

/-- `are_identical`, lines 154-160. -/
def areIdentical (l r : Raw) : Bool := l.num == r.num && l.den == r.den

/-- `are_different`, lines 162-167. -/
def areDifferent (l r : Raw) : Bool := !areIdentical l r

/-! ## Mathematics: `/repo/include/ieme/raw_fraction_math.hpp` -/

/-- `reciprocal`, lines 38-42. -/
def reciprocal (f : Raw) : Raw := ⟨f.den, f.num⟩

/-- `normalize_signs`, lines 44-51. -/
def normalizeSigns (T : IntTy) (f : Raw) : Res Raw :=
  if f.den > 0 then pure f
  else do
    let n ← T.neg f.num
    let d ← T.neg f.den
    return ⟨n, d⟩

/-- `reduce_ignore_signs`, lines 75-85. -/
def reduceIgnoreSigns (T : IntTy) (f : Raw) : Res Raw :=
  if f.isUndefined then pure ⟨0, 0⟩
  else do
    let g ← T.gcd f.num f.den
    let n ← T.div f.num g
    let d ← T.div f.den g
    return ⟨n, d⟩

/-- `reduce_normalize_signs`, lines 68-73. -/
def reduceNormalizeSigns (T : IntTy) (f : Raw) : Res Raw := do
  let g ← f.reduceIgnoreSigns T
  g.normalizeSigns T

/-- `reduce`, lines 53-66. -/
def reduce (T : IntTy) (mode : ReduceMode) (f : Raw) : Res Raw :=
  match mode with
  | .normalizeSigns => f.reduceNormalizeSigns T
  | .ignoreSigns => f.reduceIgnoreSigns T

end Raw
end Ieme
