import Verif.Lemmas.Limits
import Verif.Model.Limits
import Mathlib.Order.Bounds.Basic

/-!
# `epsilon()`: property C89
-/

namespace Ieme

open IntTy

variable {T : IntTy}

/-- **C89, partial.**  Full claim: `std::numeric_limits<fraction>::epsilon()` is the difference
between one and the least representable value above it.  Proved for signed representations;
false for every unsigned one, see `C89_unsigned_gap`. -/
theorem C89_epsilon_partial (hs : T.signed = true) {e : ℚ} (he : Denotes (Limits.stdEpsilon T) e) :
    IsLeast {x : ℚ | 1 < x ∧ ∃ f : Raw, f.InRange T ∧ Denotes f x} (1 + e) := by
  have h1 := T.max_ge
  have hm : T.min = -T.max - 1 := by unfold IntTy.min IntTy.max; simp [hs]
  have hM : (0 : ℚ) < T.max := by exact_mod_cast (by omega : 0 < T.max)
  obtain rfl : e = 1 / T.max := by
    rw [← he.2]; simp [Limits.stdEpsilon, Limits.smallest, Fraction.mk]
  refine ⟨⟨by simpa using hM, ⟨T.min, -T.max⟩, ?_, show -T.max ≠ 0 by omega, ?_⟩, ?_⟩
  · simp only [Raw.InRange, IntTy.InRange]; omega
  · simp only [hm]; push_cast; field_simp; ring
  · rintro x ⟨hx, f, ⟨⟨a1, a2⟩, b1, b2⟩, h0, rfl⟩
    -- with the sign of the denominator normalised
    obtain ⟨n, d, hd, e, hn, hdm⟩ : ∃ n d : ℤ, 0 < d ∧ (f.num : ℚ) / f.den = n / d ∧
        n ≤ T.max + 1 ∧ d ≤ T.max + 1 := by
      rcases lt_or_gt_of_ne h0 with h | h
      · exact ⟨-f.num, -f.den, by omega, by push_cast; rw [neg_div_neg_eq], by omega, by omega⟩
      · exact ⟨f.num, f.den, h, rfl, by omega, by omega⟩
    have hd' : (0 : ℚ) < d := by exact_mod_cast hd
    rw [e] at hx ⊢
    rw [lt_div_iff₀ hd', one_mul] at hx
    have hnd : d < n := by exact_mod_cast hx
    have : (T.max + 1) * d ≤ n * T.max := by nlinarith
    have : ((T.max : ℚ) + 1) * d ≤ n * T.max := by exact_mod_cast this
    rw [le_div_iff₀ hd']
    have e2 : (1 + 1 / (T.max : ℚ)) * d = ((T.max : ℚ) + 1) * d / T.max := by field_simp
    rw [e2, div_le_iff₀ hM]
    exact this

/-- **C89** (negation) For every unsigned representation the least value above one is
`1 + 1/(max - 1)`, and `1 + epsilon()` is not representable. -/
theorem C89_unsigned_gap (hs : T.signed = false) {e : ℚ} (he : Denotes (Limits.stdEpsilon T) e) :
    IsLeast {x : ℚ | 1 < x ∧ ∃ f : Raw, f.InRange T ∧ Denotes f x} (1 + 1 / ((T.max : ℚ) - 1)) ∧
    e < 1 / ((T.max : ℚ) - 1) ∧ ¬ ∃ f : Raw, f.InRange T ∧ Denotes f (1 + e) := by
  have h1 := T.max_ge
  have hm : T.min = 0 := by unfold IntTy.min; simp [hs]
  have hM : (0 : ℚ) < T.max := by exact_mod_cast (by omega : 0 < T.max)
  have hM1 : (0 : ℚ) < (T.max : ℚ) - 1 := by
    have : (1 : ℚ) < T.max := by exact_mod_cast (by omega : 1 < T.max)
    linarith
  have he1 : e = 1 / T.max := by
    rw [← he.2]; simp [Limits.stdEpsilon, Limits.smallest, Fraction.mk]
  have lt : e < 1 / ((T.max : ℚ) - 1) := by
    rw [he1]; exact one_div_lt_one_div_of_lt hM1 (by linarith)
  have least : IsLeast {x : ℚ | 1 < x ∧ ∃ f : Raw, f.InRange T ∧ Denotes f x}
      (1 + 1 / ((T.max : ℚ) - 1)) := by
    refine ⟨⟨by simpa using hM1, ⟨T.max, T.max - 1⟩, ?_, show T.max - 1 ≠ 0 by omega, ?_⟩, ?_⟩
    · simp only [Raw.InRange, IntTy.InRange]; omega
    · simp only; push_cast; field_simp; ring
    · rintro x ⟨hx, f, ⟨⟨a1, a2⟩, b1, b2⟩, h0, rfl⟩
      have hd : 0 < f.den := by omega
      have hd' : (0 : ℚ) < f.den := by exact_mod_cast hd
      rw [lt_div_iff₀ hd', one_mul] at hx
      have hnd : f.den < f.num := by exact_mod_cast hx
      have : T.max * f.den ≤ f.num * (T.max - 1) := by nlinarith
      have : (T.max : ℚ) * f.den ≤ f.num * ((T.max : ℚ) - 1) := by exact_mod_cast this
      rw [le_div_iff₀ hd']
      have e2 : (1 + 1 / ((T.max : ℚ) - 1)) * f.den = (T.max : ℚ) * f.den / ((T.max : ℚ) - 1) := by
        field_simp; ring
      rw [e2, div_le_iff₀ hM1]
      exact this
  refine ⟨least, lt, fun ⟨f, hf, hx⟩ => ?_⟩
  have := least.2 ⟨?_, f, hf, hx⟩
  · linarith
  · rw [he1]; simpa using hM

example : Denotes (Limits.stdEpsilon i32) (1 / 2147483647) ∧ i32.signed = true ∧
    Denotes (Limits.stdEpsilon u64) (1 / 18446744073709551615) ∧ u64.signed = false :=
  ⟨⟨by decide, by norm_num [Limits.stdEpsilon, Limits.smallest, Fraction.mk, IntTy.max, i32]⟩, rfl,
    ⟨by decide, by norm_num [Limits.stdEpsilon, Limits.smallest, Fraction.mk, IntTy.max, u64]⟩, rfl⟩

end Ieme
