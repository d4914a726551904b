import Mathlib.Data.Rat.Defs
import Mathlib.Algebra.Field.Rat
import Mathlib.Algebra.Order.Field.Rat

/-!
# C++ floating-point literals and their values

Written from the grammar of the C++ standard ([lex.fcon], [lex.icon]); mentions nothing of
the model.
-/

namespace Ieme
namespace Lit

/-- *digit* -/
def decDigits : List Char := ['0', '1', '2', '3', '4', '5', '6', '7', '8', '9']

/-- *hexadecimal-digit* -/
def hexDigits : List Char :=
  decDigits ++ ['a', 'b', 'c', 'd', 'e', 'f', 'A', 'B', 'C', 'D', 'E', 'F']

/-- *digit-sequence* / *hexadecimal-digit-sequence* over the digits `D`: digits, with an
optional single quote between any two of them. -/
inductive DigitSeq (D : List Char) : List Char → Prop
  | digit {d} : d ∈ D → DigitSeq D [d]
  | snoc {s d} : DigitSeq D s → d ∈ D → DigitSeq D (s ++ [d])
  | sep {s d} : DigitSeq D s → d ∈ D → DigitSeq D (s ++ ['\'', d])

/-- The number a digit stands for. -/
def digitValue : Char → ℕ
  | '0' => 0 | '1' => 1 | '2' => 2 | '3' => 3 | '4' => 4
  | '5' => 5 | '6' => 6 | '7' => 7 | '8' => 8 | '9' => 9
  | 'a' => 10 | 'b' => 11 | 'c' => 12 | 'd' => 13 | 'e' => 14 | 'f' => 15
  | 'A' => 10 | 'B' => 11 | 'C' => 12 | 'D' => 13 | 'E' => 14 | 'F' => 15
  | _ => 0

/-- The digits of a sequence: everything but the separators. -/
def digits (s : List Char) : List Char := s.filter (· ≠ '\'')

/-- The text in lower case. -/
def lower (s : List Char) : List Char := s.map Char.toLower

/-- The number a digit sequence denotes in base `b`, most significant digit first. -/
def seqValue (b : ℕ) (s : List Char) : ℕ :=
  (digits s).foldl (fun v d => v * b + digitValue d) 0

/-- *exponent-part* / *binary-exponent-part*: marker, optional sign, digits. -/
structure Exponent where
  marker : Char
  sign : Option Char
  digits : List Char
deriving DecidableEq

def Exponent.render (e : Exponent) : List Char := e.marker :: (e.sign.toList ++ e.digits)

structure _root_.Ieme.FloatLit where
  /-- `none`: decimal; `some c`: hexadecimal with prefix `0c` -/
  hexPrefix : Option Char
  whole : List Char
  /-- the literal has a radix point -/
  point : Bool
  frac : List Char
  exp : Option Exponent
deriving DecidableEq

end Lit

namespace FloatLit
open Lit

/-- The digits of the significand. -/
def digitSet (l : FloatLit) : List Char := if l.hexPrefix.isSome then hexDigits else decDigits

/-- The characters of the literal. -/
def render (l : FloatLit) : List Char :=
  (match l.hexPrefix with | none => [] | some c => ['0', c]) ++ l.whole ++
  (if l.point then '.' :: l.frac else []) ++
  (match l.exp with | none => [] | some e => e.render)

/-- The literal follows the grammar of *floating-point-literal* without suffix. -/
structure Valid (l : FloatLit) : Prop where
  hexPrefix : ∀ c ∈ l.hexPrefix, c = 'x' ∨ c = 'X'
  whole : l.whole = [] ∨ DigitSeq l.digitSet l.whole
  frac : l.frac = [] ∨ DigitSeq l.digitSet l.frac
  some_digit : l.whole ≠ [] ∨ l.frac ≠ []
  /-- digits behind the point need a point -/
  frac_point : l.point = false → l.frac = []
  /-- a hexadecimal literal, or one without point, must have an exponent -/
  exp_needed : l.hexPrefix.isSome ∨ l.point = false → l.exp.isSome
  marker : ∀ e ∈ l.exp, e.marker ∈ if l.hexPrefix.isSome then ['p', 'P'] else ['e', 'E']
  sign : ∀ e ∈ l.exp, ∀ c ∈ e.sign, c = '+' ∨ c = '-'
  exp_digits : ∀ e ∈ l.exp, DigitSeq decDigits e.digits

/-- Base of the significand. -/
def base (l : FloatLit) : ℕ := if l.hexPrefix.isSome then 16 else 10

/-- Base of the exponent. -/
def expBase (l : FloatLit) : ℕ := if l.hexPrefix.isSome then 2 else 10

/-- The literal with `m` zeros put before the whole part and `n` behind the fraction. -/
def pad (l : FloatLit) (m n : ℕ) : FloatLit :=
  { l with
    whole := List.replicate m '0' ++ l.whole
    frac := l.frac ++ List.replicate n '0' }

/-- The exponent as a number. -/
def expValue (l : FloatLit) : ℤ :=
  match l.exp with
  | none => 0
  | some e => if e.sign = some '-' then -(seqValue 10 e.digits : ℤ) else seqValue 10 e.digits

/-- The number the literal denotes ([lex.fcon]/3). -/
def value (l : FloatLit) : ℚ :=
  ((seqValue l.base l.whole : ℚ) + seqValue l.base l.frac / (l.base : ℚ) ^ (digits l.frac).length) *
    (l.expBase : ℚ) ^ l.expValue

end FloatLit

/-- `s` is a C++ floating-point literal without suffix. -/
def IsFloatLit (s : List Char) : Prop := ∃ l : FloatLit, l.Valid ∧ l.render = s

/-- `s` is a C++ floating-point literal with a radix point and without suffix. -/
def IsPointedFloatLit (s : List Char) : Prop :=
  ∃ l : FloatLit, l.Valid ∧ l.point = true ∧ l.render = s

end Ieme
