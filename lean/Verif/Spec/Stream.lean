import Verif.Spec.Parse
import Verif.Model.Machine

/-!
# The text of a fraction

Mentions nothing of the model but the ranges of the integer types; digits and their value are
those of `Verif/Spec/Parse.lean`.
-/

namespace Ieme.Stream

/-- The white-space characters of the classic locale: space, `\t`, `\n`, `\v`, `\f`, `\r`. -/
def whitespace : List Char := [' ', '\t', '\n', '\x0b', '\x0c', '\r']

/-- Whitespace only. -/
def Spaces (w : List Char) : Prop := ∀ c ∈ w, c ∈ whitespace

/-- A decimal integer with an optional sign, and its value. -/
inductive Numeral : List Char → Int → Prop
  | bare {ds : List Char} : ds ≠ [] → (∀ c ∈ ds, c ∈ Lit.decDigits) →
      Numeral ds (Lit.seqValue 10 ds : Int)
  | plus {ds : List Char} : ds ≠ [] → (∀ c ∈ ds, c ∈ Lit.decDigits) →
      Numeral ('+' :: ds) (Lit.seqValue 10 ds : Int)
  | minus {ds : List Char} : ds ≠ [] → (∀ c ∈ ds, c ∈ Lit.decDigits) →
      Numeral ('-' :: ds) (-(Lit.seqValue 10 ds : Int))

/-- The text does not begin with a digit. -/
def NoDigitFirst (l : List Char) : Prop := ∀ c t, l = c :: t → c ∉ Lit.decDigits

/-- The text is an integer `n`, something without a slash, a slash, an integer `d` and `rest`;
whitespace may precede the integers, which extend as far as they can. -/
def IsFraction (text : List Char) (n d : Int) (rest : List Char) : Prop :=
  ∃ w a junk w' b, text = w ++ (a ++ (junk ++ '/' :: (w' ++ (b ++ rest)))) ∧
    Spaces w ∧ Numeral a n ∧ '/' ∉ junk ∧ NoDigitFirst (junk ++ ['/']) ∧
    Spaces w' ∧ Numeral b d ∧ NoDigitFirst rest

/-- After whitespace the text has the integer `n`, which extends as far as it can. -/
def LeadingInt (text : List Char) (n : Int) (rest : List Char) : Prop :=
  ∃ w a, text = w ++ (a ++ rest) ∧ Spaces w ∧ Numeral a n ∧ NoDigitFirst rest

/-- The integers that the standard library extracts into a `T` without failure: those that fit,
and for unsigned types also the negatives of those. -/
def Accepted (T : IntTy) (n : Int) : Prop :=
  if T.signed then T.InRange n else (n.natAbs : Int) ≤ T.max

/-- What a `T` holds after extraction of the integer `n`, successful or not: the nearest value
for signed types; for unsigned types the value modulo `2^bits`, or the maximum. -/
def received (T : IntTy) (n : Int) : Int :=
  if T.signed then max T.min (min n T.max)
  else if (n.natAbs : Int) ≤ T.max then n % 2 ^ T.bits else T.max

/-- How extraction of an integer into a variable that holds `old` can fail, and what the variable
holds then: there is only whitespace, there is no integer, or it is not accepted. -/
inductive IntFailure (T : IntTy) (old : Int) (text : List Char) : Int → Prop
  | blank : Spaces text → IntFailure T old text old
  | noInt : ¬ Spaces text → (∀ n rest, ¬ LeadingInt text n rest) → IntFailure T old text 0
  | outOfRange {n : Int} {rest : List Char} : LeadingInt text n rest → ¬ Accepted T n →
      IntFailure T old text (received T n)

/-- How extraction of a fraction into one with parts `p` and `q` can fail, and what its parts
are then: the numerator fails; there is no slash; the denominator fails. -/
inductive FractionFailure (T : IntTy) (p q : Int) (text : List Char) : Int → Int → Prop
  | numerator {n : Int} : IntFailure T p text n → FractionFailure T p q text n q
  | slash {n : Int} {rest : List Char} : LeadingInt text n rest → Accepted T n → '/' ∉ rest →
      FractionFailure T p q text (received T n) q
  | denominator {n d : Int} {junk rest : List Char} :
      LeadingInt text n (junk ++ '/' :: rest) → Accepted T n → '/' ∉ junk →
      IntFailure T q rest d → FractionFailure T p q text (received T n) d

end Ieme.Stream
