import Verif.Model.Machine
import Verif.Spec.Ieee
import Mathlib.Data.Int.Log

/-!
# Binary floating-point arithmetic

The conversion of an integer to a binary format and division, both rounding to nearest with
ties to even.  Nothing here models a function of `/repo`; it models the arithmetic of the
floating types that `/repo/include/ieme/floating_point.hpp` uses.  The formats themselves are
in `Verif/Spec/Ieee.lean`.  Flags, signalling and the payload and sign of NaN results are left
out.
-/

namespace Ieme
namespace Fmt

/-- The unsigned integer type as wide as the format: `uint32_t`, `uint64_t`. -/
def uint (F : Fmt) : IntTy := ⟨false, 1 + F.mant + F.exp, F.wide⟩

/-- The nearest integer of a non-negative rational, ties to even. -/
def roundHalfEven (x : ℚ) : ℕ :=
  if x - ⌊x⌋₊ < 1 / 2 then ⌊x⌋₊
  else if 1 / 2 < x - ⌊x⌋₊ then ⌊x⌋₊ + 1
  else if ⌊x⌋₊ % 2 = 0 then ⌊x⌋₊ else ⌊x⌋₊ + 1

/-- Pattern of positive infinity. -/
def infBits (F : Fmt) : ℕ := (2 ^ F.exp - 1) * 2 ^ F.mant

/-- Exponent to which the non-negative rational `a` is scaled. -/
def scale (F : Fmt) (a : ℚ) : ℤ :=
  if a = 0 then 1 - F.bias else max (Int.log 2 a) (1 - F.bias)

/-- Rounding of the non-negative rational `a`: pattern without sign.  A significand that
rounds up to the next power of two carries into the exponent field. -/
def roundAbs (F : Fmt) (a : ℚ) : ℕ :=
  min ((F.scale a - (1 - F.bias)).toNat * 2 ^ F.mant
    + roundHalfEven (a / 2 ^ (F.scale a - F.mant))) F.infBits

/-- Put a sign to a pattern without one. -/
def withSign (F : Fmt) (neg : Bool) (b : ℕ) : ℕ := if neg then 2 ^ (F.mant + F.exp) + b else b

/-- `static_cast<Float>(n)` of an integer. -/
def ofInt (F : Fmt) (n : ℤ) : ℕ := F.withSign (decide (n < 0)) (F.roundAbs n.natAbs)

/-- A quiet NaN. -/
def quietNaN (F : Fmt) : ℕ := F.infBits + 2 ^ (F.mant - 1)

/-- `x / y` of two floating-point numbers. -/
def div (F : Fmt) (x y : ℕ) : ℕ :=
  let neg := F.signField x != F.signField y
  if F.NaN x ∨ F.NaN y ∨ (F.Inf x ∧ F.Inf y) then F.quietNaN
  else if F.Inf x then F.withSign neg F.infBits
  else if F.Inf y then F.withSign neg 0
  else if F.magnitude y = 0 then
    if F.magnitude x = 0 then F.quietNaN else F.withSign neg F.infBits
  else F.withSign neg (F.roundAbs (F.magnitude x / F.magnitude y))

end Fmt
end Ieme
