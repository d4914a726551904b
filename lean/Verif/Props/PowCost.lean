import Verif.Model.PowCost
import Verif.Lemmas.Pow
import Verif.Lemmas.PowCost
import Mathlib.Data.Nat.Log

/-!
# The recursion of `pow` is shallow: property C113
-/

namespace Ieme

open Res IntTy

variable {T : IntTy} {b e : ℤ}

/-- **C113** Counting the calls does not change what is computed. -/
theorem C113_same_result : (mathPowCalls T b e).1 = mathPow T b e := by
  induction h : e.natAbs using Nat.strong_induction_on generalizing e with
  | _ n ih =>
    rw [mathPowCalls, mathPow]
    split
    · rfl
    split
    · rename_i h0 h1
      have he : 0 ≤ e := by
        by_contra hc
        have h2 := Int.neg_tmod (-e) 2
        have h3 := Int.tmod_nonneg 2 (a := -e) (by omega)
        rw [neg_neg] at h2; omega
      simp only [ih _ (by omega) (e := e - 1) rfl]
    · rename_i h0 h1
      have hlt : (e.tdiv 2).natAbs < n := by
        rw [Int.natAbs_tdiv, ← h]
        exact Nat.div_lt_self (by omega) (by decide)
      simp only [ih _ hlt (e := e.tdiv 2) rfl]

/-- **C113** For a positive exponent the number of calls is the position of the highest set bit,
plus the number of set bits, plus one: one call for each halving, one for each odd exponent
on the way, and the last one. -/
theorem C113_calls_exact {n : ℕ} (hn : n ≠ 0) :
    (mathPowCalls T b n).2 = Nat.log 2 n + (Nat.digits 2 n).sum + 1 := by
  induction n using Nat.strong_induction_on with
  | _ n ih =>
    rw [mathPowCalls, if_neg (by omega)]
    by_cases h1 : n % 2 = 1
    · rw [if_pos ((tmod_two_eq_one n).2 h1), show (n : ℤ) - 1 = ((n - 1 : ℕ) : ℤ) by omega]
      by_cases hn1 : n = 1
      · subst hn1
        rw [mathPowCalls]; simp
      · simp only [ih (n - 1) (by omega) (by omega)]
        have hd : (Nat.digits 2 n).sum = (Nat.digits 2 (n - 1)).sum + 1 := by
          rw [Nat.digits_def' (by decide) (Nat.pos_of_ne_zero hn),
            Nat.digits_def' (by decide) (show 0 < n - 1 by omega), List.sum_cons, List.sum_cons,
            show (n - 1) / 2 = n / 2 by omega]
          omega
        have hl : Nat.log 2 n = Nat.log 2 (n - 1) := by
          rw [Nat.log_of_one_lt_of_le (n := n) (by decide) (by omega),
            Nat.log_of_one_lt_of_le (n := n - 1) (by decide) (by omega),
            show (n - 1) / 2 = n / 2 by omega]
        omega
    · rw [if_neg (by rw [tmod_two_eq_one]; exact h1), tdiv_two]
      simp only [ih (n / 2) (by omega) (by omega)]
      have hd : (Nat.digits 2 n).sum = (Nat.digits 2 (n / 2)).sum := by
        rw [Nat.digits_def' (by decide) (Nat.pos_of_ne_zero hn), List.sum_cons]
        omega
      have hl : Nat.log 2 n = Nat.log 2 (n / 2) + 1 :=
        Nat.log_of_one_lt_of_le (by decide) (by omega)
      omega

/-- **C113** For a negative exponent, which the code also accepts, it is one for each halving
and two more. -/
theorem C113_calls_negative {n : ℕ} (hn : n ≠ 0) :
    (mathPowCalls T b (-(n : ℤ))).2 = Nat.log 2 n + 2 := by
  induction n using Nat.strong_induction_on with
  | _ n ih =>
    rw [mathPowCalls, if_neg (by omega), if_neg, Int.neg_tdiv, tdiv_two]
    · by_cases hn1 : n = 1
      · subst hn1
        rw [mathPowCalls]; simp
      · simp only [ih (n / 2) (by omega) (by omega)]
        rw [Nat.log_of_one_lt_of_le (b := 2) (n := n) (by decide) (by omega)]
    · rw [Int.neg_tmod]
      have := Int.tmod_nonneg 2 (a := (n : ℤ)) (by omega)
      omega

/-- **C113** So for an exponent with `k ≥ 1` binary digits there are at most `2 * k` calls. -/
theorem C113_calls_bounded {k : ℕ} (hk : 0 < k) (h : e.natAbs < 2 ^ k) :
    (mathPowCalls T b e).2 ≤ 2 * k := by
  rcases lt_trichotomy e 0 with he | rfl | he
  · have h1 : e = -(e.natAbs : ℤ) := by omega
    rw [h1, C113_calls_negative (by omega)]
    have := Nat.log_lt_of_lt_pow (b := 2) (show e.natAbs ≠ 0 by omega) h
    omega
  · rw [mathPowCalls]; simp; omega
  · have h1 : e = (e.natAbs : ℤ) := by omega
    rw [h1, C113_calls_exact (by omega)]
    have h2 := Nat.log_lt_of_lt_pow (b := 2) (show e.natAbs ≠ 0 by omega) h
    have h3 := digits_two_sum_le h
    omega

/-- **C113** The bound is reached, for every `k ≥ 1`, by the exponent `2 ^ k - 1`. -/
theorem C113_bound_reached {k : ℕ} (hk : 0 < k) :
    (mathPowCalls T b ((2 ^ k - 1 : ℕ) : ℤ)).2 = 2 * k := by
  have hp : 2 ≤ 2 ^ k := by
    calc 2 = 2 ^ 1 := rfl
      _ ≤ 2 ^ k := Nat.pow_le_pow_right (by decide) hk
  have hs : ∀ k : ℕ, (Nat.digits 2 (2 ^ k - 1)).sum = k := by
    intro k
    induction k with
    | zero => simp
    | succ k ih =>
      have hp : 0 < 2 ^ k := Nat.pow_pos (by decide)
      rw [Nat.digits_def' (by decide) (by rw [pow_succ]; omega), List.sum_cons,
        show (2 ^ (k + 1) - 1) / 2 = 2 ^ k - 1 by rw [pow_succ]; omega, ih,
        show (2 ^ (k + 1) - 1) % 2 = 1 by rw [pow_succ]; omega]
      omega
  have hl : Nat.log 2 (2 ^ k - 1) = k - 1 := by
    rw [Nat.log_eq_iff (by right; omega)]
    constructor
    · have : 2 ^ k = 2 * 2 ^ (k - 1) := by rw [← pow_succ']; congr 1; omega
      have := Nat.pow_pos (n := k - 1) (show 0 < 2 by decide)
      omega
    · rw [Nat.sub_add_cancel hk]; omega
  rw [C113_calls_exact (by omega), hs, hl]; omega

/-- **C113** For every exponent that fits the type there are at most twice as many calls as
the type has bits, whatever the base and whether or not the power fits. -/
theorem C113_calls_of_type (he : T.InRange e) : (mathPowCalls T b e).2 ≤ 2 * T.bits := by
  have hb := T.bits_pos
  refine C113_calls_bounded (by omega) ?_
  obtain ⟨h1, h2⟩ := he
  have e2 : (2 : ℕ) ^ T.bits = 2 * 2 ^ (T.bits - 1) := by
    rw [← Nat.pow_succ', Nat.succ_eq_add_one, Nat.sub_add_cancel (by omega)]
  have hp : 0 < 2 ^ (T.bits - 1) := Nat.pow_pos (by decide)
  unfold IntTy.min at h1
  unfold IntTy.max at h2
  rw [e2] at h2 ⊢
  generalize 2 ^ (T.bits - 1) = z at *
  cases hs : T.signed <;> simp only [hs] at h1 h2 <;> simp at h1 h2 <;> omega

/-- 1000 is `1111101000` in binary, nine halvings and six odd exponents: sixteen calls; the
power itself overflows.  The largest 64-bit exponent takes 128 calls. -/
example : (mathPowCalls i32 3 1000).2 = 16 ∧ (mathPowCalls i32 3 1000).1 = .fault .overflow ∧
    Nat.log 2 1000 = 9 ∧ (Nat.digits 2 1000).sum = 6 ∧
    (mathPowCalls u64 3 18446744073709551615).2 = 128 ∧ (mathPowCalls i32 3 (-9)).2 = 5 ∧
    i32.InRange 1000 ∧ (1000 : ℤ).natAbs < 2 ^ 10 := by decide +kernel

end Ieme
