import Verif.Spec.Ieee

/-!
# The fields of a pattern in the reverse order
-/

namespace Ieme.Fmt

/-- The pattern whose sign is the lowest bit of `b`, whose exponent the bits above it, and whose
fraction the rest. -/
def reordered (F : Fmt) (b : ℕ) : ℕ :=
  b % 2 * 2 ^ (F.mant + F.exp) + b / 2 % 2 ^ F.exp * 2 ^ F.mant + b / 2 ^ (1 + F.exp) % 2 ^ F.mant

end Ieme.Fmt
