import Verif.Model.Limits
import Verif.Lemmas.Fraction
import Mathlib.Tactic.Positivity
import Mathlib.Tactic.FieldSimp

/-!
# Bounds on the parts of a fraction
-/

namespace Ieme

open Res IntTy

variable {T : IntTy} {f : Raw} {x : ℚ}

theorem limit_parts (hf : f.InRange T) (hx : Denotes f x) :
    ∃ n d : ℤ, 0 < d ∧ x = n / d ∧ T.min ≤ n ∧ (f ≠ ⟨T.min, -1⟩ → n ≤ T.max * d) ∧
      (n ≤ T.max + 1) ∧ (f ≠ ⟨-1, T.min⟩ → 0 < n → d ≤ T.max * n) ∧ 0 ≤ T.max + T.min + 1 := by
  obtain ⟨⟨a1, a2⟩, b1, b2⟩ := hf
  have h1 := T.max_ge
  have h2 := T.min_le_zero
  have hm : T.min = 0 ∨ T.min = -T.max - 1 := by
    unfold IntTy.min IntTy.max; split <;> [right; left] <;> omega
  obtain ⟨h0, rfl⟩ := hx
  rcases lt_or_gt_of_ne h0 with h | h
  · refine ⟨-f.num, -f.den, by omega, by push_cast; rw [neg_div_neg_eq], by omega, ?_, by omega,
      ?_, by omega⟩
    · intro hne
      by_cases hd : f.den = -1
      · have : f.num ≠ T.min := fun h => hne (by cases f; simp_all)
        rw [hd]; omega
      · have : T.max * 2 ≤ T.max * -f.den := Int.mul_le_mul_of_nonneg_left (by omega) (by omega)
        omega
    · intro hne hn
      by_cases hd : f.num = -1
      · have : f.den ≠ T.min := fun h => hne (by cases f; simp_all)
        rw [hd]; omega
      · have : T.max * 2 ≤ T.max * -f.num := Int.mul_le_mul_of_nonneg_left (by omega) (by omega)
        omega
  · exact ⟨f.num, f.den, h, rfl, a1, fun _ => by nlinarith, by omega, fun _ hn => by nlinarith,
      by omega⟩

end Ieme
