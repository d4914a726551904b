import Verif.Model.StreamLocale
import Verif.Spec.Stream
import Mathlib.Data.Nat.Basic

/-!
# What users expect of streams in a locale that groups digits
-/

namespace Ieme.Stream

/-- The separator cannot be taken for a part of a fraction. -/
def Punct.Sane (L : Punct) : Prop := L.sep ∉ Lit.decDigits ∧ L.sep ∉ ['+', '-', '/']

/-- The number is written without separators: the first group has room for all its digits. -/
def Punct.Unbroken (L : Punct) (n : ℕ) : Prop :=
  ∀ c cs, L.grouping = c :: cs → 0 < c → c ≠ 127 → n < 10 ^ c.toNat

/-- The locale breaks long numbers into groups. -/
def Punct.Breaks (L : Punct) : Prop := ∃ c cs, L.grouping = c :: cs ∧ 0 < c ∧ c ≠ 127

/-- Groups of digits, from the left, are as the locale wants them, or the number is not broken: every
group but the leftmost has exactly the size that the grouping gives for its place from the right,
where the last entry is repeated; the leftmost may be shorter. -/
def Punct.Conforms (L : Punct) (ps : List (List Char)) : Prop :=
  ps.length = 1 ∨ L.Breaks ∧ ∀ (i : ℕ) (p : List Char) (c : ℤ), ps.reverse[i]? = some p →
    L.grouping[min i (L.grouping.length - 1)]? = some c →
    (i + 1 < ps.length → (p.length : ℤ) = c) ∧
    (i + 1 = ps.length → 0 < c → c ≠ 127 → (p.length : ℤ) ≤ c)

/-- A decimal numeral, perhaps with a sign and with separators where the locale wants them. -/
def Punct.Grouped (L : Punct) (a : List Char) (v : ℤ) : Prop :=
  ∃ sign ps, a = sign ++ [L.sep].intercalate ps ∧ sign ∈ [[], ['+'], ['-']] ∧
    (∀ p ∈ ps, p ≠ [] ∧ ∀ c ∈ p, c ∈ Lit.decDigits) ∧ L.Conforms ps ∧
    Numeral (sign ++ ps.flatten) v

/-- The text goes on neither with a digit nor with a separator that counts. -/
def Punct.Stops (L : Punct) (rest : List Char) : Prop :=
  ∀ c t, rest = c :: t → c ∉ Lit.decDigits ∧ (L.Breaks → c ≠ L.sep)

/-- The number that the digits of the leftmost group make. -/
def leading : ℕ → List ℤ → ℕ → ℕ
  | 0, _, n => n
  | _, [], n => n
  | k + 1, c :: cs, n =>
    if c ≤ 0 ∨ c = 127 ∨ n < 10 ^ c.toNat then n
    else leading k (if cs = [] then [c] else cs) (n / 10 ^ c.toNat)

/-- The number left of the first separator, with the sign of the whole. -/
def Punct.lead (L : Punct) (v : ℤ) : ℤ := v.sign * leading v.natAbs L.grouping v.natAbs

end Ieme.Stream
