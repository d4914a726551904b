import Verif.Lemmas.FloatRounding
import Verif.Spec.Parse
import Mathlib.Data.Nat.Prime.Basic
import Mathlib.Algebra.GCDMonoid.Nat

/-!
# Powers of ten as floating-point numbers
-/

namespace Ieme
namespace Fmt
open Lit

variable {F : Fmt}

/-- A divisor of a power of ten is representable if the power of five fits the mantissa. -/
theorem representable_dvd_ten {m d : ℕ} (h5 : 5 ^ m < 2 ^ (F.mant + 1))
    (hlt : (10 : ℚ) ^ m < F.overflowBound) (hd : d ∣ 10 ^ m) : F.Representable d := by
  have hle : d ≤ 10 ^ m := Nat.le_of_dvd (by positivity) hd
  rw [show (10 : ℕ) = 2 * 5 by norm_num, Nat.mul_pow] at hd
  obtain ⟨x, y, hx, hy, rfl⟩ := exists_dvd_and_dvd_of_dvd_mul hd
  obtain ⟨a, -, rfl⟩ := (Nat.dvd_prime_pow Nat.prime_two).1 hx
  have hk : y < 2 ^ (F.mant + 1) := (Nat.le_of_dvd (by positivity) hy).trans_lt h5
  have e : ((2 ^ a * y : ℕ) : ℚ) = (y : ℚ) * 2 ^ (a : ℤ) := by
    push_cast; rw [zpow_natCast, mul_comm]
  have := representable_grid (F := F) (k := y) (j := a) false hk
    (by have := bias_pos F; omega)
    (by rw [← e]; exact lt_of_le_of_lt (by exact_mod_cast hle) hlt)
  rw [e]
  simpa using this

end Fmt

namespace FloatLit
open Lit

/-- The denominator of a decimal literal divides the power of ten of its fractional digits and
its negative exponent. -/
theorem den_dvd {l : FloatLit} {m : ℕ} (hx : l.hexPrefix = none)
    (hm : ((digits l.frac).length : ℤ) - l.expValue ≤ m) :
    l.value.den ∣ 10 ^ m := by
  have hb : l.base = 10 := by simp [base, hx]
  have he : l.expBase = 10 := by simp [expBase, hx]
  obtain ⟨j, hj⟩ := Int.eq_ofNat_of_zero_le (sub_nonneg.2 hm)
  have hz : l.expValue = (digits l.frac).length + (j : ℤ) - m := by
    omega
  have h10 : (10 : ℚ) ≠ 0 := by norm_num
  have e : l.value = ((((seqValue 10 l.whole * 10 ^ (digits l.frac).length + seqValue 10 l.frac) *
      10 ^ j : ℕ) : ℤ) : ℚ) / ((10 ^ m : ℕ) : ℤ) := by
    rw [value, hb, he, hz]
    push_cast
    rw [zpow_sub₀ h10, zpow_add₀ h10, zpow_natCast, zpow_natCast, zpow_natCast]
    field_simp
  rw [e]
  exact_mod_cast Rat.den_dvd _ ((10 ^ m : ℕ) : ℤ)

end FloatLit
end Ieme
