import Verif.Spec.StreamRead
import Verif.Spec.Numeric

/-!
# What reading a text of fractions to its end must give

Of the model it uses the type `Flags` of the formatting state only.
-/

namespace Ieme.Stream

/-- The text begins with the fractions `xs`, as the flags and the type allow, and `rest` follows. -/
inductive Records (fl : Flags) (T : IntTy) : List Char → List Raw → List Char → Prop
  | none {text : List Char} : Records fl T text [] text
  | more {text text' rest : List Char} {n d : ℤ} {xs : List Raw} : IsFractionF fl text n d text' →
      Accepted T n → Accepted T d → Records fl T text' xs rest →
      Records fl T text (⟨received T n, received T d⟩ :: xs) rest

/-- The text does not begin with a fraction that the type accepts. -/
def NoRecord (fl : Flags) (T : IntTy) (text : List Char) : Prop :=
  ∀ n d rest, IsFractionF fl text n d rest → ¬ (Accepted T n ∧ Accepted T d)

/-- Nothing is left after an integer has been looked for: there is only whitespace, only a sign, or
only an integer, accepted or not. -/
def IntEnd (text : List Char) : Prop :=
  Spaces text ∨ (∃ w c, text = w ++ [c] ∧ Spaces w ∧ (c = '+' ∨ c = '-')) ∨
    ∃ n, LeadingInt text n []

/-- Nothing is left after a fraction has been looked for in vain, with default flags: the text ends
with the numerator, there is no slash after it, or the text ends with the denominator. -/
def UsedUp (T : IntTy) (text : List Char) : Prop :=
  IntEnd text ∨
  (∃ n rest, LeadingInt text n rest ∧ Accepted T n ∧ '/' ∉ rest) ∨
  ∃ n junk rest, LeadingInt text n (junk ++ '/' :: rest) ∧ Accepted T n ∧ '/' ∉ junk ∧ IntEnd rest

/-- Fractions with whitespace before each, which only the first may lack. -/
def SpacedFile (T : IntTy) (vs : List (List Char × Raw)) : Prop :=
  (∀ v ∈ vs, Spaces v.1 ∧ v.2.InRange T) ∧ ∀ v ∈ vs.tail, v.1 ≠ []

end Ieme.Stream
