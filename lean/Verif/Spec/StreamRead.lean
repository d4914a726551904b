import Verif.Spec.Stream
import Verif.Model.StreamFmt

/-!
# The text that a stream with formatting flags reads as a fraction

What [facet.num.get.virtuals] prescribes, as conditions on the text.  Of the model it uses the
type `Flags` of the formatting state only.
-/

namespace Ieme.Stream

/-- The mark of a hexadecimal number. -/
def HexMark (p : List Char) : Prop := p = ['0', 'x'] ∨ p = ['0', 'X']

/-- The text does not begin with the mark of a hexadecimal number. -/
def Unmarked (l : List Char) : Prop := ∀ p t, HexMark p → l ≠ p ++ t

/-- The digits of a base. -/
def radixDigits (r : ℕ) : List Char :=
  if r = 8 then ['0', '1', '2', '3', '4', '5', '6', '7']
  else if r = 10 then Lit.decDigits
  else Lit.hexDigits

/-- How the flags let a number begin behind its sign: a mark `pre`, and the base `r` in which
`body` is read.  Without base flag the text decides. -/
inductive Flags.Reads (fl : Flags) : (pre body : List Char) → (r : ℕ) → Prop
  | dec {body : List Char} : fl.base = .dec → fl.Reads [] body 10
  | oct {body : List Char} : fl.base = .oct → fl.Reads [] body 8
  | mark {pre body : List Char} : fl.base = .hex ∨ fl.base = .unset → HexMark pre →
      fl.Reads pre body 16
  | hex {body : List Char} : fl.base = .hex → Unmarked body → fl.Reads [] body 16
  | zero {t : List Char} : fl.base = .unset → Unmarked ('0' :: t) → fl.Reads [] ('0' :: t) 8
  | other {body : List Char} : fl.base = .unset → (∀ t, body ≠ '0' :: t) → fl.Reads [] body 10

/-- After whitespace, if that is skipped, the text has the integer `n`, which extends as far as it
can. -/
def LeadingIntF (fl : Flags) (text : List Char) (n : Int) (rest : List Char) : Prop :=
  ∃ w sign pre ds r, text = w ++ (sign ++ (pre ++ (ds ++ rest))) ∧
    Spaces w ∧ (fl.skipws = true ∨ w = []) ∧
    (sign = [] ∨ sign = ['+'] ∨ sign = ['-']) ∧
    fl.Reads pre (ds ++ rest) r ∧
    ds ≠ [] ∧ (∀ c ∈ ds, c ∈ radixDigits r) ∧ (∀ c t, rest = c :: t → c ∉ radixDigits r) ∧
    n = (if sign = ['-'] then -(Lit.seqValue r ds : Int) else Lit.seqValue r ds)

/-- The text is an integer `n`, something without a slash, a slash, an integer `d` and `rest`. -/
def IsFractionF (fl : Flags) (text : List Char) (n d : Int) (rest : List Char) : Prop :=
  ∃ junk t, LeadingIntF fl text n (junk ++ '/' :: t) ∧ '/' ∉ junk ∧ LeadingIntF fl t d rest

/-- How extraction of an integer into a variable that holds `old` can fail, and what the variable
holds then. -/
inductive IntFailureF (fl : Flags) (T : IntTy) (old : Int) (text : List Char) : Int → Prop
  | blank : fl.skipws = true → Spaces text → IntFailureF fl T old text old
  | noInt : ¬ (fl.skipws = true ∧ Spaces text) → (∀ n rest, ¬ LeadingIntF fl text n rest) →
      IntFailureF fl T old text 0
  | outOfRange {n : Int} {rest : List Char} : LeadingIntF fl text n rest → ¬ Accepted T n →
      IntFailureF fl T old text (received T n)

/-- How extraction of a fraction into one with parts `p` and `q` can fail, and what its parts
are then. -/
inductive FractionFailureF (fl : Flags) (T : IntTy) (p q : Int) (text : List Char) :
    Int → Int → Prop
  | numerator {n : Int} : IntFailureF fl T p text n → FractionFailureF fl T p q text n q
  | slash {n : Int} {rest : List Char} : LeadingIntF fl text n rest → Accepted T n →
      '/' ∉ rest → FractionFailureF fl T p q text (received T n) q
  | denominator {n d : Int} {junk rest : List Char} :
      LeadingIntF fl text n (junk ++ '/' :: rest) → Accepted T n → '/' ∉ junk →
      IntFailureF fl T q rest d → FractionFailureF fl T p q text (received T n) d

end Ieme.Stream
