import Mathlib.Data.Nat.Digits.Lemmas

/-!
# Binary digits
-/

namespace Ieme

theorem digits_two_sum_le {n k : ℕ} (h : n < 2 ^ k) : (Nat.digits 2 n).sum ≤ k := by
  induction k generalizing n with
  | zero => simp at h; subst h; simp
  | succ k ih =>
    rcases Nat.eq_zero_or_pos n with rfl | hn
    · simp
    · rw [Nat.digits_def' (by decide) hn, List.sum_cons]
      have := ih (n := n / 2) (by rw [pow_succ] at h; omega)
      omega

end Ieme
