import Verif.Lemmas.Limits
import Verif.Model.Limits
import Verif.Lemmas.Fraction
import Mathlib.Tactic.Positivity
import Mathlib.Tactic.FieldSimp

/-!
# Limits: property C66
-/

namespace Ieme

open Res IntTy

variable {T : IntTy} {f : Raw} {x : ℚ}

/-- `max()`, `min()`, `smallest()` hold the values their names say and `undefined()` is
undefined; all are values of the type. -/
theorem C66_limit_values : Denotes (Limits.max T) T.max ∧ Denotes (Limits.min T) T.min ∧
    Denotes (Limits.smallest T) (1 / T.max) ∧ Limits.undefined.den = 0 ∧
    (Limits.max T).InRange T ∧ (Limits.min T).InRange T ∧ (Limits.smallest T).InRange T ∧
    Limits.undefined.InRange T := by
  have h1 := T.max_ge
  have h2 := T.min_le_zero
  refine ⟨?_, ?_, ?_, rfl, ?_, ?_, ?_, ?_⟩
  · exact ⟨one_ne_zero, by simp [Limits.max, Fraction.mk]⟩
  · exact ⟨one_ne_zero, by simp [Limits.min, Fraction.mk]⟩
  · exact ⟨by simp only [Limits.smallest, Fraction.mk]; omega, by simp [Limits.smallest, Fraction.mk]⟩
  all_goals
    simp only [Raw.InRange, IntTy.InRange, Limits.max, Limits.min, Limits.smallest,
      Limits.undefined, Fraction.mk]
    omega

/-- **C66** No defined fraction is below `min()`. -/
theorem C66_lower_bound (hf : f.InRange T) (hx : Denotes f x) : (T.min : ℚ) ≤ x := by
  obtain ⟨n, d, hd, rfl, h1, -, -, -, -⟩ := limit_parts hf hx
  have hd' : (0 : ℚ) < d := by exact_mod_cast hd
  rw [le_div_iff₀ hd']
  have h2 := T.min_le_zero
  have : T.min * d ≤ n := by nlinarith
  exact_mod_cast this

/-- **C66, partial.**  Full claim: no defined fraction is above `max()`.  Proved for every
fraction except `min/(-1)`, where it is false: see `C66_bounds_broken`. -/
theorem C66_upper_bound_partial (hf : f.InRange T) (hx : Denotes f x) (hne : f ≠ ⟨T.min, -1⟩) :
    x ≤ T.max := by
  obtain ⟨n, d, hd, rfl, -, h1, -, -, -⟩ := limit_parts hf hx
  have hd' : (0 : ℚ) < d := by exact_mod_cast hd
  rw [div_le_iff₀ hd']
  exact_mod_cast h1 hne

/-- **C66, partial.**  Full claim: no positive fraction is below `smallest()`.  Proved for
every fraction except `(-1)/min`, where it is false: see `C66_bounds_broken`. -/
theorem C66_smallest_partial (hf : f.InRange T) (hx : Denotes f x) (h0 : 0 < x)
    (hne : f ≠ ⟨-1, T.min⟩) : 1 / (T.max : ℚ) ≤ x := by
  obtain ⟨n, d, hd, rfl, -, -, -, h1, -⟩ := limit_parts hf hx
  have hd' : (0 : ℚ) < d := by exact_mod_cast hd
  have hn : 0 < n := by
    have := mul_pos h0 hd'
    rw [div_mul_cancel₀ _ hd'.ne'] at this
    exact_mod_cast this
  have hT : (0 : ℚ) < T.max := by have := T.max_ge; exact_mod_cast (by omega : 0 < T.max)
  rw [div_le_div_iff₀ hT hd', one_mul]
  have := h1 hne hn
  rw [mul_comm] at this
  exact_mod_cast this

/-- **C66, refuted in general.**  For every signed type `min/(-1)` is a defined fraction
above `max()` and `(-1)/min` a positive fraction below `smallest()`. -/
theorem C66_bounds_broken (hs : T.signed = true) :
    (∃ f x, f.InRange T ∧ Denotes f x ∧ (T.max : ℚ) < x) ∧
    (∃ f x, f.InRange T ∧ Denotes f x ∧ 0 < x ∧ x < 1 / (T.max : ℚ)) := by
  have h1 := T.max_ge
  have hm : T.min = -T.max - 1 := by unfold IntTy.min IntTy.max; simp [hs]
  have hM : (0 : ℚ) < T.max := by exact_mod_cast (by omega : 0 < T.max)
  refine ⟨⟨⟨T.min, -1⟩, T.max + 1, ?_, ⟨show (-1 : ℤ) ≠ 0 by decide, ?_⟩, by simp⟩,
    ⟨⟨-1, T.min⟩, 1 / (T.max + 1), ?_, ⟨?_, ?_⟩, by positivity, ?_⟩⟩
  · simp only [Raw.InRange, IntTy.InRange]; omega
  · rw [hm]; push_cast; ring
  · simp only [Raw.InRange, IntTy.InRange]; omega
  · simp only; omega
  · rw [hm]; push_cast
    rw [show (-(T.max : ℚ) - 1) = -(T.max + 1) by ring, neg_div_neg_eq]
  · rw [one_div, one_div]
    exact inv_strictAnti₀ hM (by linarith)

/-- **C66** For unsigned types all three bounds hold without exception. -/
theorem C66_unsigned_bounds (hs : T.signed = false) (hf : f.InRange T) (hx : Denotes f x) :
    (T.min : ℚ) ≤ x ∧ x ≤ T.max ∧ (0 < x → 1 / (T.max : ℚ) ≤ x) := by
  have hm : T.min = 0 := by unfold IntTy.min; simp [hs]
  obtain ⟨⟨a1, a2⟩, b1, b2⟩ := hf
  refine ⟨C66_lower_bound ⟨⟨a1, a2⟩, b1, b2⟩ hx, ?_, fun h0 => ?_⟩
  · refine C66_upper_bound_partial ⟨⟨a1, a2⟩, b1, b2⟩ hx fun e => ?_
    rw [e] at b1; simp only at b1; omega
  · refine C66_smallest_partial ⟨⟨a1, a2⟩, b1, b2⟩ hx h0 fun e => ?_
    rw [e] at a1; simp only at a1; omega

/-- **C66** The `std::numeric_limits` members are those of `limits`; those a type without
infinity, signalling NaN and denormals does not support are zero. -/
theorem C66_numeric_limits : Limits.stdMin T = Limits.min T ∧ Limits.stdLowest T = Limits.min T ∧
    Limits.stdMax T = Limits.max T ∧ Limits.stdEpsilon T = Limits.smallest T ∧
    Limits.stdQuietNaN.isUndefined = true ∧ Denotes Limits.stdRoundError 0 ∧
    Denotes Limits.stdInfinity 0 ∧ Denotes Limits.stdSignalingNaN 0 ∧
    Denotes Limits.stdDenormMin 0 := by
  refine ⟨rfl, rfl, rfl, rfl, rfl, ?_, ?_, ?_, ?_⟩ <;> exact ⟨one_ne_zero, by
    simp [Limits.stdRoundError, Limits.stdInfinity, Limits.stdSignalingNaN, Limits.stdDenormMin,
      Fraction.mk]⟩

example : (⟨-7, 3⟩ : Raw).InRange i32 ∧ Denotes ⟨-7, 3⟩ (-7/3) ∧ (⟨-7, 3⟩ : Raw) ≠ ⟨i32.min, -1⟩ ∧
    (⟨5, 2147483647⟩ : Raw).InRange i32 ∧ Denotes ⟨5, 2147483647⟩ (5/2147483647) ∧
    (⟨5, 2147483647⟩ : Raw) ≠ ⟨-1, i32.min⟩ ∧ i32.signed = true ∧ u64.signed = false :=
  ⟨by decide, by norm_num [Denotes], by decide, by decide, by norm_num [Denotes], by decide, rfl,
    rfl⟩

end Ieme
