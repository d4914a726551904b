import Verif.Spec.StreamFmt

/-!
# The text of a formatted integer

What [facet.num.put.virtuals] prescribes, as conditions on the text.
-/

namespace Ieme.Stream

/-- The base of the digits. -/
def Flags.radix (fl : Flags) : ℕ :=
  match fl.base with
  | .oct => 8
  | .hex => 16
  | _ => 10

/-- The digits that may appear. -/
def Flags.digitSet (fl : Flags) : List Char :=
  match fl.base with
  | .oct => ['0', '1', '2', '3', '4', '5', '6', '7']
  | .hex => Lit.decDigits ++
      (if fl.uppercase then ['A', 'B', 'C', 'D', 'E', 'F'] else ['a', 'b', 'c', 'd', 'e', 'f'])
  | _ => Lit.decDigits

/-- The natural number that the digits show: the absolute value in decimal, otherwise the number
modulo `2^bits`. -/
def Flags.Shows (fl : Flags) (T : IntTy) (v : ℤ) (n : ℕ) : Prop :=
  (fl.NonDecimal → (n : ℤ) = v % 2 ^ T.bits) ∧ (¬ fl.NonDecimal → (n : ℤ) = |v|)

/-- The sign before the digits. -/
def Flags.IsSign (fl : Flags) (T : IntTy) (v : ℤ) (s : List Char) : Prop :=
  (¬ fl.NonDecimal ∧ v < 0 ∧ s = ['-']) ∨
  (¬ fl.NonDecimal ∧ 0 ≤ v ∧ fl.showpos = true ∧ T.signed = true ∧ s = ['+']) ∨
  ((fl.NonDecimal ∨ (0 ≤ v ∧ ¬ (fl.showpos = true ∧ T.signed = true))) ∧ s = [])

/-- The prefix before the digits of `n`. -/
def Flags.IsPrefix (fl : Flags) (n : ℕ) (s : List Char) : Prop :=
  (fl.base = .oct ∧ fl.showbase = true ∧ n ≠ 0 ∧ s = ['0']) ∨
  (fl.base = .hex ∧ fl.showbase = true ∧ n ≠ 0 ∧ fl.uppercase = true ∧ s = ['0', 'X']) ∨
  (fl.base = .hex ∧ fl.showbase = true ∧ n ≠ 0 ∧ fl.uppercase = false ∧ s = ['0', 'x']) ∨
  ((¬ fl.NonDecimal ∨ fl.showbase = false ∨ n = 0) ∧ s = [])

/-- `ds` are the digits of `n`, without leading zeros. -/
def Flags.IsDigits (fl : Flags) (n : ℕ) (ds : List Char) : Prop :=
  ds ≠ [] ∧ (∀ t, ds = '0' :: t → t = []) ∧ (∀ c ∈ ds, c ∈ fl.digitSet) ∧
    Lit.seqValue fl.radix ds = n

end Ieme.Stream
