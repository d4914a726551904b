import Verif.Model.Limits
import Mathlib.Data.Nat.Log

/-!
# The constants of `std::numeric_limits<ieme::fraction<Rep, Ops>>`

Models lines 62-85 of `/repo/include/ieme/limits.hpp`, as far as the constants mean something for a
type that is not floating-point.  Most are those of `Rep`, which are the ones that
[numeric.limits.members] prescribes for an integer type; `is_modulo` is false for signed types, as in
all implementations.
-/

namespace Ieme.Limits

/-- The constants that are modelled. -/
structure Traits where
  isSigned : Bool
  isInteger : Bool
  isExact : Bool
  isBounded : Bool
  isModulo : Bool
  hasInfinity : Bool
  hasQuietNaN : Bool
  traps : Bool
  radix : Nat
  digits : Nat
  digits10 : Nat
deriving DecidableEq, Repr

/-- `std::numeric_limits<Rep>::digits`: the bits other than the sign. -/
def repDigits (T : IntTy) : Nat := if T.signed then T.bits - 1 else T.bits

/-- `std::numeric_limits<Rep>::digits10`: the number of decimal digits that `digits` bits can hold
in any case. -/
def repDigits10 (T : IntTy) : Nat := Nat.log 10 (2 ^ repDigits T)

/-- `std::numeric_limits<ieme::fraction<Rep, Ops>>`, lines 62-85. -/
def traits (T : IntTy) : Traits where
  isSigned := T.signed
  isInteger := false
  isExact := true
  isBounded := true
  isModulo := !T.signed
  hasInfinity := false
  hasQuietNaN := true
  traps := false
  radix := 2
  digits := repDigits T
  digits10 := repDigits10 T

end Ieme.Limits
