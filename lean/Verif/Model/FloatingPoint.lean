import Verif.Model.FractionMath
import Verif.Model.Limits
import Verif.Model.Ieee

/-!
# `floating_point.hpp`

Models `floating_point_to_fraction` and `fraction_to_floating_point` of
`/repo/include/ieme/floating_point.hpp`.  `floating_point_string_to_fraction` (lines 91-129)
is in `Verif/Model/Parse.lean`.

The bytes of a floating-point number and of an integer of the same size are assumed to be
stored in the same order, as on all current targets, so that the `std::memcpy` of lines
147-149 yields the bit pattern as an integer.
-/

namespace Ieme.FloatingPoint

/-- `std::endian::native`; `mixed` stands for any value other than `little` and `big`. -/
inductive Endian where
  | little | big | mixed
deriving DecidableEq, Repr

/-- A constant expression: undefined behaviour makes the program ill-formed
([expr.const]). -/
def constant {α : Type} : Res α → Res α
  | .ok a w => .ok a w
  | .fault _ => .fault .illFormed

/-- `make_repeating_1s`, lines 139-140. -/
def repeatingOnes (U : IntTy) (count : Int) : Res Int := do
  let s ← U.shl 1 count
  U.sub s 1

/-- `extract_bit_field`, lines 153-156. -/
def bitField (U : IntTy) (bits : Nat) (offset size : Int) : Res Nat :=
  if 0 ≤ offset ∧ offset < U.bits then do
    let ones ← repeatingOnes U size
    return (bits >>> offset.toNat) &&& ones.toNat
  else .fault .shiftRange

/-- Offsets of the sign, exponent and mantissa fields, lines 158-179.  For other byte orders
control flows off the end of a constant-evaluated lambda. -/
def offsets (F : Fmt) : Endian → Res (Int × Int × Int)
  | .little => do
    let s ← F.uint.add F.mant F.exp
    return (s, F.mant, 0)
  | .big => do
    let m ← F.uint.add 1 F.exp
    return (0, 1, m)
  | .mixed => .fault .illFormed

/-- `exponent_bias`, lines 194-195. -/
def exponentBias (F : Fmt) : Res Int := constant do
  let e ← i32.sub F.exp 1
  let p ← mathPow2 i32 e
  i32.sub p 1

/-- `mantissa_fraction_denominator`, lines 199-200. -/
def mantissaDenominator (T : IntTy) (F : Fmt) : Res Int := constant do
  let m ← T.conv F.mant
  mathPow2 T m

/-- `sign`, line 192. -/
def signFactor (T : IntTy) (signPart : Nat) : Res Int :=
  if signPart = 0 then pure 1 else T.neg 1

/-- Lines 192-209: the fraction for the three fields. -/
def assemble (T : IntTy) (o : Ops) (bias den : Int) (signPart exponentPart mantissaPart : Nat) :
    Res Raw := do
  let sign ← signFactor T signPart
  let e ← i32.conv exponentPart
  let exponent ← i32.sub e bias
  let num ← T.conv mantissaPart
  let mantissa ← Fraction.arith T T o .plus (.rf 1 (Fraction.mk num den))
  let signed ← Fraction.arith T T o .multiplies (.rf sign mantissa)
  let power ← Fraction.pow2 T exponent
  Fraction.arith T T o .multiplies (.ff signed power)

/-- `floating_point_to_fraction`, lines 131-210; `to_fraction` of a `float` (lines 57-63) and
of a `double` (lines 65-71) are the instances `binary32` and `binary64`.  The constants
are evaluated first since they decide whether the program is well-formed. -/
def toFraction (E : Endian) (F : Fmt) (T : IntTy) (o : Ops) (bits : Nat) : Res Raw := do
  let offs ← constant (offsets F E)
  let bias ← exponentBias F
  let den ← mantissaDenominator T F
  let signPart ← bitField F.uint bits offs.1 1
  let exponentPart ← bitField F.uint bits offs.2.1 F.exp
  let mantissaPart ← bitField F.uint bits offs.2.2 F.mant
  let ones ← repeatingOnes F.uint F.exp
  if (exponentPart : Int) = ones ∧ mantissaPart ≠ 0 then return Limits.undefined
  else assemble T o bias den signPart exponentPart mantissaPart

/-- `fraction_to_floating_point`, lines 212-219; `to_float`, `to_double`, `to_long_double`
(lines 73-89) are instances. -/
def ofFraction (F : Fmt) (T : IntTy) (f : Raw) : Res Nat := do
  let reduced ← f.reduce T .normalizeSigns
  return F.div (F.ofInt reduced.num) (F.ofInt reduced.den)

end Ieme.FloatingPoint
