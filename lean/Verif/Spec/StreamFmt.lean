import Verif.Spec.Stream
import Verif.Model.StreamFmt

/-!
# When a formatted fraction can be read back

`Readable` describes, in terms of the flags and the parts only, the formatted fractions that the
same stream settings can read; padding is by whitespace, and whether there is any is a parameter.
Of the model it uses the types only.
-/

namespace Ieme.Stream

/-- The text does not begin with a hexadecimal digit or an `x`, so it can not be taken for a
continuation of an integer. -/
def NoContinuation (l : List Char) : Prop :=
  ∀ c t, l = c :: t → c ∉ Lit.hexDigits ∧ c ≠ 'x' ∧ c ≠ 'X'

/-- The flags make integers appear in octal or hexadecimal. -/
def Flags.NonDecimal (fl : Flags) : Prop := fl.base = .oct ∨ fl.base = .hex

/-- A sign or a prefix `0x` appears before the digits of `v`. -/
def Flags.Marked (fl : Flags) (T : IntTy) (v : Int) : Prop :=
  (¬ fl.NonDecimal ∧ (v < 0 ∨ (fl.showpos = true ∧ T.signed = true))) ∨
    (fl.base = .hex ∧ fl.showbase = true ∧ v ≠ 0)

/-- The fraction can be read back: negative parts are in decimal, and padding of the numerator
follows it, or precedes it where whitespace is skipped, and does not come between sign or prefix
and digits. -/
def Readable (fl : Flags) (padded : Prop) (T : IntTy) (f : Raw) : Prop :=
  (fl.NonDecimal → 0 ≤ f.num ∧ 0 ≤ f.den) ∧
  (padded → fl.adjust = .left ∨
    (fl.skipws = true ∧ (fl.adjust = .internal → ¬ fl.Marked T f.num)))

end Ieme.Stream
