import Verif.Lemmas.FloatConvert

/-!
# Runs of the conversion from floating point
-/

namespace Ieme

open Res IntTy FloatingPoint

variable {F : Fmt} {T : IntTy} {o : Ops} {r : Raw} {b : ℕ} {w : Bool}

theorem Fmt.value_of_normal (hb : F.expField b ≠ 0) : F.value b =
    (if F.signField b = 0 then 1 else -1) * (1 + (F.mantField b : ℚ) / ((2 ^ F.mant : ℕ) : ℤ)) *
      2 ^ ((F.expField b : ℤ) - F.bias) := by
  rw [Fmt.value, Fmt.sgn, Fmt.magnitude, if_neg hb]
  push_cast
  ring

theorem Fmt.mantField_lt (F : Fmt) (b : ℕ) : F.mantField b < 2 ^ F.mant :=
  Nat.mod_lt _ (Nat.pow_pos (by decide))

theorem Fmt.expField_bounds (F : Fmt) (b : ℕ) : F.expField b ≤ 1073741823 ∧
    (F.expField b : ℤ) ≤ 2 * F.bias + 1 := by
  have h1 : F.expField b < 2 ^ F.exp := Nat.mod_lt _ (Nat.pow_pos (by decide))
  obtain ⟨h2, h3, h4⟩ := bias_bounds F
  omega

/-- What a finishing run looks like: the mantissa fits and the parts were assembled. -/
theorem toFraction_split (h : toFraction .little F T o b = .ok r w) (hn : ¬ F.NaN b) :
    ∃ den w₁ w₂, T.conv ((2 ^ F.mant : ℕ) : ℤ) = .ok den w₁ ∧
      assemble T o F.bias den (F.signField b) (F.expField b) (F.mantField b) = .ok r w₂ ∧
      w = (w₁ || w₂) := by
  rw [toFraction_little, mantissaDenominator_eq] at h
  obtain ⟨den, w1, w2, h1, h2, h3⟩ := bind_eq_ok.1 h
  split at h1
  · rw [if_neg hn] at h2
    exact ⟨den, w1, w2, h1, h2, h3⟩
  · cases h1

theorem toFraction_fault_of_exponent (hb : ((F.expField b : ℤ) - F.bias).natAbs ≥ T.bits) (hn : ¬ F.NaN b) :
    ¬ (toFraction .little F T o b).Finishes := by
  rintro ⟨r, w, h⟩
  obtain ⟨den, w1, w2, h1, h2, -⟩ := toFraction_split h hn
  obtain ⟨sg, u1, v1, k1, g1, -⟩ := bind_eq_ok.1 h2
  obtain ⟨e', u2, v2, k2, g2, -⟩ := bind_eq_ok.1 g1
  obtain ⟨k, u3, v3, k3, g3, -⟩ := bind_eq_ok.1 g2
  obtain ⟨n, u4, v4, k4, g4, -⟩ := bind_eq_ok.1 g3
  obtain ⟨f, u5, v5, k5, g5, -⟩ := bind_eq_ok.1 g4
  obtain ⟨g, u6, v6, k6, g6, -⟩ := bind_eq_ok.1 g5
  obtain ⟨p, u7, v7, k7, g7, -⟩ := bind_eq_ok.1 g6
  obtain ⟨l1, l2⟩ := Fmt.expField_bounds F b
  obtain ⟨b1, b2, -⟩ := bias_bounds F
  rw [conv_small (by omega)] at k2
  simp only [Res.ok.injEq] at k2
  obtain ⟨rfl, rfl⟩ := k2
  obtain ⟨hk, rfl, -⟩ := arith_signed_ok (T := i32) rfl k3
  rw [Fraction.pow2_eq hk (by omega), if_neg (by omega)] at k7
  cases k7

end Ieme
