import Verif.Model.Directed
import Verif.Spec.FloatFlags

/-!
# Exception flags of the conversion to floating point

`Verif/Model/Directed.lean` evaluates the two conversions and the division of
`fraction_to_floating_point`; here also the flags that they raise, as `std::fetestexcept` shows them
to a program with access to the floating-point environment.  Whether a result counts as tiny before
or after it is rounded is up to the implementation; both are covered.
-/

namespace Ieme

namespace Flags

/-- No flag. -/
def none : Flags := ⟨false, false, false, false, false⟩

/-- Flags stay raised. -/
def or (a b : Flags) : Flags :=
  ⟨a.invalid || b.invalid, a.divByZero || b.divByZero, a.overflow || b.overflow,
    a.underflow || b.underflow, a.inexact || b.inexact⟩

end Flags

namespace Fmt

/-- A significand rounded to an integer. -/
def roundSig (d : Direction) (neg : Bool) (t : ℚ) : ℕ :=
  if d = .nearest then roundHalfEven t else if away d neg then ⌈t⌉₊ else ⌊t⌋₊

/-- Is the magnitude `a`, not zero, below the least normal number? -/
def tiny (F : Fmt) (d : Direction) (after neg : Bool) (a : ℚ) : Bool :=
  if after then
    decide ((roundSig d neg (a / 2 ^ (Int.log 2 a - F.mant)) : ℚ) * 2 ^ (Int.log 2 a - F.mant) <
      2 ^ (1 - F.bias))
  else decide (a < 2 ^ (1 - F.bias))

/-- Flags of rounding the magnitude `a`. -/
def roundFlags (F : Fmt) (d : Direction) (after neg : Bool) (a : ℚ) : Flags :=
  let t := a / 2 ^ (F.scale a - F.mant)
  let over := decide (F.infBits ≤
    (F.scale a - (1 - F.bias)).toNat * 2 ^ F.mant + roundSig d neg t)
  let inexact := over || decide (t ≠ ⌊t⌋₊)
  ⟨false, false, over, a ≠ 0 && F.tiny d after neg a && inexact, inexact⟩

/-- Flags of `static_cast<Float>(n)`. -/
def ofIntFlags (F : Fmt) (d : Direction) (after : Bool) (n : ℤ) : Flags :=
  F.roundFlags d after (decide (n < 0)) n.natAbs

/-- Flags of `x / y`; NaN operands are quiet. -/
def divFlags (F : Fmt) (d : Direction) (after : Bool) (x y : ℕ) : Flags :=
  if F.NaN x ∨ F.NaN y then .none
  else if F.Inf x ∧ F.Inf y then { Flags.none with invalid := true }
  else if F.Inf x ∨ F.Inf y then .none
  else if F.magnitude y = 0 then
    if F.magnitude x = 0 then { Flags.none with invalid := true }
    else { Flags.none with divByZero := true }
  else F.roundFlags d after (F.signField x != F.signField y) (F.magnitude x / F.magnitude y)

end Fmt

namespace FloatingPoint

/-- `fraction_to_floating_point`, `/repo/include/ieme/floating_point.hpp` lines 212-219: the result
and the flags raised. -/
def convert (F : Fmt) (T : IntTy) (d : Direction) (after : Bool) (f : Raw) : Res (ℕ × Flags) := do
  let reduced ← f.reduce T .normalizeSigns
  let n := F.ofIntTo d reduced.num
  let m := F.ofIntTo d reduced.den
  return (F.divTo d n m,
    ((F.ofIntFlags d after reduced.num).or (F.ofIntFlags d after reduced.den)).or
      (F.divFlags d after n m))

/-- Converting one fraction after the other; `std::feclearexcept` before the first. -/
def convertAll (F : Fmt) (T : IntTy) (d : Direction) (after : Bool) :
    List Raw → Res (List ℕ × Flags)
  | [] => pure ([], .none)
  | f :: fs => do
    let b ← convert F T d after f
    let bs ← convertAll F T d after fs
    return (b.1 :: bs.1, b.2.or bs.2)

end FloatingPoint
end Ieme
