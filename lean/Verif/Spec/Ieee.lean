import Mathlib.Data.Rat.Floor

/-!
# Binary floating-point formats

IEEE 754 binary formats: their fields and the number that a pattern stands for.  A
floating-point number is its bit pattern, a natural number.  Mentions nothing of the model.
-/

namespace Ieme

/-- A binary format: the width of the stored fraction and of the exponent field. -/
structure Fmt where
  mant : ℕ
  exp : ℕ
  mant_pos : 1 ≤ mant
  mant_le : mant ≤ 1000000
  exp_ge : 2 ≤ exp
  exp_le : exp ≤ 30
  wide : 32 ≤ 1 + mant + exp

/-- `float` -/
def binary32 : Fmt := ⟨23, 8, by decide, by decide, by decide, by decide, by decide⟩
/-- `double` -/
def binary64 : Fmt := ⟨52, 11, by decide, by decide, by decide, by decide, by decide⟩
/-- `long double` on x86.  The explicit leading bit of that format carries no information
and is left out of the pattern. -/
def extended80 : Fmt := ⟨63, 15, by decide, by decide, by decide, by decide, by decide⟩
/-- `long double` on AArch64 -/
def binary128 : Fmt := ⟨112, 15, by decide, by decide, by decide, by decide, by decide⟩

namespace Fmt

/-- Exponent bias. -/
def bias (F : Fmt) : ℤ := 2 ^ (F.exp - 1) - 1

/-- The pattern is one of the format. -/
def Valid (F : Fmt) (b : ℕ) : Prop := b < 2 ^ (1 + F.mant + F.exp)

/-- Sign field. -/
def signField (F : Fmt) (b : ℕ) : ℕ := b / 2 ^ (F.mant + F.exp) % 2
/-- Exponent field. -/
def expField (F : Fmt) (b : ℕ) : ℕ := b / 2 ^ F.mant % 2 ^ F.exp
/-- Fraction field. -/
def mantField (F : Fmt) (b : ℕ) : ℕ := b % 2 ^ F.mant

/-- The exponent field is neither all zeros nor all ones. -/
def Normal (F : Fmt) (b : ℕ) : Prop := 0 < F.expField b ∧ F.expField b < 2 ^ F.exp - 1
/-- Zero or subnormal. -/
def Tiny (F : Fmt) (b : ℕ) : Prop := F.expField b = 0
/-- Not a number. -/
def NaN (F : Fmt) (b : ℕ) : Prop := F.expField b = 2 ^ F.exp - 1 ∧ F.mantField b ≠ 0
/-- Infinity of either sign. -/
def Inf (F : Fmt) (b : ℕ) : Prop := F.expField b = 2 ^ F.exp - 1 ∧ F.mantField b = 0

instance (F : Fmt) (b : ℕ) : Decidable (F.Valid b) := inferInstanceAs (Decidable (_ < _))
instance (F : Fmt) (b : ℕ) : Decidable (F.Normal b) := inferInstanceAs (Decidable (_ ∧ _))
instance (F : Fmt) (b : ℕ) : Decidable (F.Tiny b) := inferInstanceAs (Decidable (_ = _))
instance (F : Fmt) (b : ℕ) : Decidable (F.NaN b) := inferInstanceAs (Decidable (_ ∧ _))
instance (F : Fmt) (b : ℕ) : Decidable (F.Inf b) := inferInstanceAs (Decidable (_ ∧ _))

/-- Magnitude of a finite pattern: `1.f · 2^(e - bias)` for a normal number,
`0.f · 2^(1 - bias)` for zero and subnormals. -/
def magnitude (F : Fmt) (b : ℕ) : ℚ :=
  if F.expField b = 0 then (F.mantField b : ℚ) / 2 ^ F.mant * 2 ^ (1 - F.bias)
  else (1 + (F.mantField b : ℚ) / 2 ^ F.mant) * 2 ^ ((F.expField b : ℤ) - F.bias)

/-- The sign as a factor. -/
def sgn (F : Fmt) (b : ℕ) : ℚ := if F.signField b = 0 then 1 else -1

/-- The value of a finite pattern. -/
def value (F : Fmt) (b : ℕ) : ℚ := F.sgn b * F.magnitude b

end Fmt
end Ieme
