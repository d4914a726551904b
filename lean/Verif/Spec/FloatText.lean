import Verif.Spec.ScanText
import Verif.Model.FloatProgram

/-!
# Spec: what the text of the floating-point conversions computes

`floats order long` is what the text of the conversions parses to, together with what it takes from
the platform: the byte order, and the number of bytes of `long double`.
-/

namespace Ieme.Script

open Header

/-- On a platform with the given byte order and number of bytes of `long double`, the call of `f`,
evaluated from the text, returns `r`, provided it is given enough steps. -/
def Computes (order : FloatingPoint.Endian) (long f : Nat) (ts : List TVal) (args : List V)
    (r : Res V) : Prop :=
  ∃ k, ∀ n, k ≤ n → invoke (floats order long) n f ts args = r

/-- a `float` with the given bits -/
def floatValue (bits : Nat) : V := .flt 4 bits

/-- a `double` with the given bits -/
def doubleValue (bits : Nat) : V := .flt 8 bits

/-- a `long double` with the given bits, in a format of `long` bytes -/
def longDoubleValue (long bits : Nat) : V := .flt long bits

end Ieme.Script
