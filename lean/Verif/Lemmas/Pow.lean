import Verif.Lemmas.Raw
import Verif.Lemmas.Closure
import Verif.Model.FractionMath
import Mathlib.Algebra.Order.Ring.Abs
import Mathlib.Data.Int.ModEq

/-!
# What `math_utilities::pow` and `pow2` compute
-/

namespace Ieme

open Res IntTy

variable {T : IntTy} {b e r : ℤ}

theorem tmod_two_eq_one (n : ℕ) : (n : ℤ).tmod 2 = 1 ↔ n % 2 = 1 := by
  rw [Int.tmod_eq_emod_of_nonneg (by omega)]; omega

theorem tdiv_two (n : ℕ) : (n : ℤ).tdiv 2 = ((n / 2 : ℕ) : ℤ) := by
  rw [Int.tdiv_eq_ediv_of_nonneg (by omega)]; omega

theorem inRange_pow_mono (hb : T.InRange b) {k n : ℕ} (hk : k ≤ n) (h : T.InRange (b ^ n)) :
    T.InRange (b ^ k) := by
  rcases eq_or_lt_of_le hk with rfl | hlt
  · exact h
  rcases lt_trichotomy b 0 with hb0 | rfl | hb0
  · have hs : T.signed = true := by
      cases hs : T.signed
      · have := hb.nonneg hs; omega
      · rfl
    have hmin := min_signed hs
    obtain ⟨h1, h2⟩ := h
    have habs : |b ^ n| ≤ T.max + 1 := by rw [abs_le]; constructor <;> omega
    rw [abs_pow] at habs
    have hb1 : 1 ≤ |b| := by rw [abs_of_neg hb0]; omega
    have key : |b ^ k| ≤ T.max := by
      rw [abs_pow]
      rcases eq_or_lt_of_le hb1 with h3 | h3
      · rw [← h3, one_pow]; have := T.max_ge; omega
      · have h4 : |b| ^ (k + 1) ≤ |b| ^ n := pow_le_pow_right₀ hb1 hlt
        have h5 : 1 ≤ |b| ^ k := one_le_pow₀ hb1
        rw [pow_succ] at h4
        nlinarith
    rw [abs_le] at key
    constructor <;> omega
  · rcases Nat.eq_zero_or_pos k with rfl | hk0
    · simp
    · rw [zero_pow hk0.ne']; simp
  · refine h.shrink (.inl ⟨by positivity, pow_le_pow_right₀ (by omega) hk⟩)

theorem mathPow_clean (hb : T.InRange b) (n : ℕ) :
    mathPow T b n ⇓ r ↔ T.InRange (b ^ n) ∧ r = b ^ n := by
  induction n using Nat.strong_induction_on generalizing r with
  | _ n ih =>
    rw [mathPow]
    by_cases h0 : n = 0
    · subst h0; simp [eq_comm]
    rw [if_neg (by omega)]
    by_cases h1 : n % 2 = 1
    · rw [if_pos ((tmod_two_eq_one n).2 h1), show (n : ℤ) - 1 = ((n - 1 : ℕ) : ℤ) by omega]
      simp only [bind_eq_clean, ih (n - 1) (by omega), mul_clean]
      have hpow : b * b ^ (n - 1) = b ^ n := by
        rw [← pow_succ']; congr 1; omega
      constructor
      · rintro ⟨p, ⟨-, rfl⟩, h2, rfl⟩
        rw [hpow] at h2 ⊢; exact ⟨h2, rfl⟩
      · rintro ⟨h2, rfl⟩
        exact ⟨_, ⟨inRange_pow_mono hb (by omega) h2, rfl⟩, by rw [hpow]; exact h2, hpow.symm⟩
    · rw [if_neg (by rw [tmod_two_eq_one]; exact h1), tdiv_two]
      simp only [bind_eq_clean, ih (n / 2) (by omega), mul_clean]
      have hpow : b ^ (n / 2) * b ^ (n / 2) = b ^ n := by
        rw [← pow_add]; congr 1; omega
      constructor
      · rintro ⟨p, ⟨-, rfl⟩, h2, rfl⟩
        rw [hpow] at h2 ⊢; exact ⟨h2, rfl⟩
      · rintro ⟨h2, rfl⟩
        exact ⟨_, ⟨inRange_pow_mono hb (by omega) h2, rfl⟩, by rw [hpow]; exact h2, hpow.symm⟩

theorem mathPow_nonpos (n : ℕ) : mathPow T b (-(n : ℤ)) ⇓ 1 := by
  induction n using Nat.strong_induction_on with
  | _ n ih =>
    rw [mathPow]
    by_cases h0 : n = 0
    · subst h0; simp
    rw [if_neg (by omega), if_neg]
    · rw [Int.neg_tdiv, tdiv_two, ih (n / 2) (by omega), ok_bind_false]
      simp [mul_clean]
    · rw [Int.neg_tmod]
      have := Int.tmod_nonneg 2 (a := (n : ℤ)) (by omega)
      omega

theorem mathPow_noWrap (hs : T.signed = true) (b e : ℤ) : (mathPow T b e).NoWrap := by
  induction h : e.natAbs using Nat.strong_induction_on generalizing e with
  | _ n ih =>
    rw [mathPow]
    split
    · exact NoWrap.pure _
    split
    · rename_i h0 h1
      have he : 0 ≤ e := by
        by_contra hc
        have h2 := Int.neg_tmod (-e) 2
        have h3 := Int.tmod_nonneg 2 (a := -e) (by omega)
        rw [neg_neg] at h2; omega
      exact (ih _ (by omega) (e - 1) rfl).bind fun _ => arith_noWrap hs _
    · rename_i h0 h1
      refine (ih _ ?_ (e.tdiv 2) rfl).bind fun _ => arith_noWrap hs _
      rw [Int.natAbs_tdiv, ← h]
      exact Nat.div_lt_self (by omega) (by decide)

/-- The modulus of the unsigned type. -/
theorem arith_unsigned (hs : T.signed = false) (x : ℤ) : ∃ y w, T.arith x = .ok y w ∧
    T.InRange y ∧ y ≡ x [ZMOD ((2 ^ T.bits : ℕ) : ℤ)] := by
  unfold IntTy.arith
  split
  · rename_i h; exact ⟨x, false, rfl, h, Int.ModEq.refl _⟩
  · refine ⟨T.wrap x, true, by simp [hs], wrap_inRange x, ?_⟩
    simp [IntTy.wrap, hs, Int.ModEq]

theorem mathPow_unsigned (hs : T.signed = false) (n : ℕ) : ∃ r w, mathPow T b n = .ok r w ∧
    T.InRange r ∧ r ≡ b ^ n [ZMOD ((2 ^ T.bits : ℕ) : ℤ)] := by
  induction n using Nat.strong_induction_on with
  | _ n ih =>
    rw [mathPow]
    by_cases h0 : n = 0
    · subst h0; exact ⟨1, false, by simp, by simp, by simp⟩
    rw [if_neg (by omega)]
    by_cases h1 : n % 2 = 1
    · rw [if_pos ((tmod_two_eq_one n).2 h1), show (n : ℤ) - 1 = ((n - 1 : ℕ) : ℤ) by omega]
      obtain ⟨p, w, hp, -, hm⟩ := ih (n - 1) (by omega)
      obtain ⟨y, w', hy, hr, hm'⟩ := arith_unsigned hs (b * p)
      have hpow : b * b ^ (n - 1) = b ^ n := by
        rw [← pow_succ']; congr 1; omega
      refine ⟨y, w || w', ?_, hr, ?_⟩
      · rw [bind_eq_ok]; exact ⟨p, w, w', hp, hy, rfl⟩
      · rw [← hpow]; exact hm'.trans (hm.mul_left b)
    · rw [if_neg (by rw [tmod_two_eq_one]; exact h1), tdiv_two]
      obtain ⟨p, w, hp, -, hm⟩ := ih (n / 2) (by omega)
      obtain ⟨y, w', hy, hr, hm'⟩ := arith_unsigned hs (p * p)
      have hpow : b ^ (n / 2) * b ^ (n / 2) = b ^ n := by
        rw [← pow_add]; congr 1; omega
      refine ⟨y, w || w', ?_, hr, ?_⟩
      · rw [bind_eq_ok]; exact ⟨p, w, w', hp, hy, rfl⟩
      · rw [← hpow]; exact hm'.trans (hm.mul hm)

/-! ### `pow2` -/

theorem i32_inRange {x : ℤ} : i32.InRange x ↔ -2147483648 ≤ x ∧ x ≤ 2147483647 := by
  have h1 : i32.min = -2147483648 := by decide
  have h2 : i32.max = 2147483647 := by decide
  rw [IntTy.InRange, h1, h2]

theorem conv_small {n : ℕ} (h : n ≤ 2147483647) : T.conv n ⇓ (n : ℤ) :=
  conv_clean.2 ⟨inRange_of_nonneg_le (by omega) (by omega), rfl⟩

theorem two_pow_inRange_iff (n : ℕ) : T.InRange (((2 ^ n : ℕ) : ℤ)) ↔
    n < T.bits ∧ (T.signed = true → n ≠ T.bits - 1) := by
  have hb := T.bits_pos
  have hmin := T.min_le_zero
  have h0 : 0 < 2 ^ n := Nat.pow_pos (by decide)
  have key : ∀ m, ((2 ^ n : ℕ) : ℤ) ≤ ((2 ^ m : ℕ) : ℤ) - 1 ↔ n < m := by
    intro m
    have : 2 ^ n < 2 ^ m ↔ n < m := Nat.pow_lt_pow_iff_right (by decide)
    rw [← this]; omega
  have h1 : T.min ≤ ((2 ^ n : ℕ) : ℤ) := by omega
  unfold IntTy.InRange
  simp only [h1, true_and]
  cases hs : T.signed
  · have hm : T.max = ((2 ^ T.bits : ℕ) : ℤ) - 1 := by simp [IntTy.max, hs]
    rw [hm, key]
    simp
  · have hm : T.max = ((2 ^ (T.bits - 1) : ℕ) : ℤ) - 1 := by simp [IntTy.max, hs]
    rw [hm, key]
    simp only [true_imp_iff]
    omega

theorem two_pow_cast (n : ℕ) : (2 : ℤ) ^ n = ((2 ^ n : ℕ) : ℤ) := by push_cast; rfl

/-- `pow2` of the utilities: shift, then conversion. -/
theorem mathPow2_eq {n : ℕ} (h : n ≤ 2147483647) :
    mathPow2 T n = if n < T.bits then T.conv ((2 ^ n : ℕ) : ℤ) else .fault .shiftRange := by
  have e : mathPow2 T n = T.toUnsigned.conv n >>= fun m => T.toUnsigned.shl 1 m >>= T.conv := rfl
  rw [e, conv_small h]
  rw [ok_bind_false]
  unfold IntTy.shl
  by_cases hn : n < T.bits
  · rw [if_pos ⟨by omega, by exact_mod_cast hn⟩, if_pos hn, Int.toNat_natCast, one_mul,
      arith_of_inRange, ok_bind_false]
    rw [two_pow_inRange_iff]; exact ⟨hn, by simp [IntTy.toUnsigned]⟩
  · rw [if_neg, if_neg hn, fault_bind]
    rintro ⟨-, h2⟩
    exact hn (by exact_mod_cast h2)

end Ieme

namespace Ieme

open Res IntTy

variable {T : IntTy} {r : Raw} {b e : ℤ}

theorem pow_exponent_split (he : i32.InRange e) (hm : e ≠ -2147483648) :
    (0 ≤ e ∧ e = (e.natAbs : ℤ) ∨ e < 0 ∧ e = -(e.natAbs : ℤ)) ∧ e.natAbs ≤ 2147483647 := by
  rw [i32_inRange] at he; omega

theorem Fraction.pow2_eq (he : i32.InRange e) (hm : e ≠ -2147483648) : Fraction.pow2 T e =
    if e.natAbs < T.bits then T.conv ((2 ^ e.natAbs : ℕ) : ℤ) >>= fun p =>
      pure (if 0 ≤ e then ⟨p, 1⟩ else ⟨1, p⟩) else .fault .shiftRange := by
  obtain ⟨h, hb⟩ := pow_exponent_split he hm
  have hn := mathPow2_eq (T := T) hb
  rcases h with ⟨h0, h1⟩ | ⟨h0, h1⟩
  · rw [Fraction.pow2, if_pos h0]
    conv_lhs => rw [h1]
    rw [conv_small hb, ok_bind_false, hn]
    simp only [if_pos h0]
    split <;> rfl
  · have h0' : ¬ (0 ≤ e) := by omega
    rw [Fraction.pow2, if_neg h0']
    simp only [if_neg h0']
    have : i32.neg e ⇓ (e.natAbs : ℤ) :=
      neg_clean.2 ⟨by rw [i32_inRange] at he ⊢; omega, by omega⟩
    rw [this, ok_bind_false, conv_small hb, ok_bind_false, hn]
    split <;> rfl

theorem Fraction.pow_eq (he : i32.InRange e) (hm : e ≠ -2147483648) : Fraction.pow T b e =
    (mathPow T b e.natAbs >>= fun p => pure (if 0 ≤ e then ⟨p, 1⟩ else ⟨1, p⟩)) := by
  obtain ⟨h, hb⟩ := pow_exponent_split he hm
  rcases h with ⟨h0, h1⟩ | ⟨h0, h1⟩
  · rw [Fraction.pow, if_pos h0]
    conv_lhs => rw [h1]
    rw [conv_small hb, ok_bind_false]
    simp only [if_pos h0]
    rfl
  · have h0' : ¬ (0 ≤ e) := by omega
    rw [Fraction.pow, if_neg h0']
    simp only [if_neg h0']
    have : i32.neg e ⇓ (e.natAbs : ℤ) :=
      neg_clean.2 ⟨by rw [i32_inRange] at he ⊢; omega, by omega⟩
    rw [this, ok_bind_false, conv_small hb, ok_bind_false]
    rfl

end Ieme
