import Verif.Lemmas.FloatSplit
import Verif.Lemmas.FloatRounding
import Verif.Lemmas.Reduce
import Mathlib.RingTheory.Coprime.Lemmas
import Mathlib.Data.Nat.Prime.Basic

/-!
# Parts of a reduced fraction and floating point
-/

namespace Ieme

open Res IntTy FloatingPoint

variable {F : Fmt} {T : IntTy} {o : Ops} {f r : Raw} {b c : ℕ} {q : ℚ}

theorem reduce_parts (hq : Denotes f q) (hr : f.reduce T .normalizeSigns ⇓ r) :
    r = ⟨q.num, q.den⟩ := by
  have h1 := Raw.reduce_canonical hq.1 hr
  have h2 := Raw.reduce_denotes hq hr
  have h3 : Canonical ⟨q.num, q.den⟩ :=
    ⟨Int.natCast_pos.2 q.pos, by simpa [Int.gcd] using q.reduced⟩
  exact h1.unique h3 ⟨q, h2, by
    exact ⟨Int.natCast_ne_zero.2 q.den_nz, by simpa using q.num_div_den⟩⟩

theorem IntTy.natAbs_lt_pow {x : ℤ} (h : T.InRange x) : x.natAbs < 2 ^ T.bits := by
  obtain ⟨h1, h2⟩ := h
  have hw := T.wide
  obtain ⟨n, hn⟩ : ∃ n, T.bits = n + 1 := ⟨T.bits - 1, by omega⟩
  have hp : 0 < 2 ^ n := Nat.pow_pos (by decide)
  rw [IntTy.min] at h1
  rw [IntTy.max] at h2
  rw [hn, Nat.add_sub_cancel] at h1 h2
  rw [hn, pow_succ]
  rw [pow_succ] at h2
  generalize 2 ^ n = m at *
  split at h1
  · rw [if_pos ‹_›] at h2; omega
  · rw [if_neg ‹_›] at h2; omega

theorem Fmt.pow_bias_lt_overflow (F : Fmt) : (2 : ℚ) ^ F.bias < F.overflowBound := by
  rw [Fmt.overflowBound, zpow_add_one₀ (by norm_num) F.bias]
  have h3 : (2 : ℚ) ^ (F.bias - F.mant - 1) < 2 ^ F.bias :=
    zpow_lt_zpow_right₀ (by norm_num) (by omega)
  linarith

theorem Fmt.representable_of_small {n : ℕ} {m : ℕ} (h : n ≤ 2 ^ m) (hm : (m : ℤ) ≤ F.bias) :
    (n : ℚ) < F.overflowBound := by
  refine lt_of_le_of_lt ?_ (Fmt.pow_bias_lt_overflow F)
  have h1 : (n : ℚ) ≤ 2 ^ m := by exact_mod_cast h
  refine h1.trans ?_
  rw [← zpow_natCast]
  exact zpow_le_zpow_right₀ (by norm_num) hm

/-- The parts of a representable number that fit the type are representable. -/
theorem reduce_representable_parts (hT : (T.bits : ℤ) ≤ F.bias) (hq : F.Representable q)
    (hn : T.InRange q.num) (hd : T.InRange q.den) :
    F.Representable q.num ∧ F.Representable q.den := by
  have bn := IntTy.natAbs_lt_pow hn
  have bd := IntTy.natAbs_lt_pow hd
  have hb1 := Fmt.bias_pos F
  have one : F.Representable 1 := by
    have := Fmt.representable_grid (F := F) (k := 1) (j := 0) false
      (Nat.one_lt_two_pow (by omega)) (by omega) (by
        have := Fmt.representable_of_small (F := F) (n := 1) (m := 0) (by decide) (by omega)
        simpa using this)
    simpa using this
  have num_of : q.num.natAbs < 2 ^ (F.mant + 1) → F.Representable q.num := fun hk => by
    have := Fmt.representable_grid (F := F) (k := q.num.natAbs) (j := 0) (decide (q.num < 0))
      hk (by omega) (by
        rw [zpow_zero, mul_one]
        exact Fmt.representable_of_small (m := T.bits) bn.le hT)
    rw [zpow_zero, mul_one] at this
    convert this using 1
    generalize q.num = n at *
    by_cases h0 : n < 0
    · obtain ⟨k, rfl⟩ := Int.eq_negSucc_of_lt_zero h0
      rw [if_pos (by simp), Int.natAbs_negSucc, Int.cast_negSucc, neg_one_mul]
    · obtain ⟨k, rfl⟩ := Int.eq_ofNat_of_zero_le (not_lt.1 h0)
      simp
  have hq' := hq
  obtain ⟨c, -, hc⟩ := hq'
  obtain ⟨k, j, s, hk, hj, hs, hv⟩ := Fmt.value_grid F c
  rw [hc] at hv
  rcases le_or_gt 0 j with h0 | h0
  · obtain ⟨n, rfl⟩ := Int.eq_ofNat_of_zero_le h0
    have hint : q = ((s * (k * 2 ^ n) : ℤ) : ℚ) := by
      rw [hv]; push_cast; rw [zpow_natCast]
    constructor
    · rw [hint, Rat.num_intCast, ← hint]; exact hq
    · rw [hint, Rat.den_intCast, Nat.cast_one]; exact one
  · obtain ⟨n, rfl⟩ : ∃ n : ℕ, j = -(n : ℤ) := ⟨(-j).toNat, by omega⟩
    have hcross : q.num * 2 ^ n = s * k * q.den := by
      have h2 : (2 : ℚ) ^ n ≠ 0 := by positivity
      have hdn : (q.den : ℚ) ≠ 0 := by exact_mod_cast q.den_nz
      rw [zpow_neg, zpow_natCast] at hv
      have h3 : (q.num : ℚ) / q.den = s * (k * (2 ^ n)⁻¹) := by rw [Rat.num_div_den]; exact hv
      rw [div_eq_iff hdn] at h3
      have : (q.num : ℚ) * 2 ^ n = s * k * q.den := by
        rw [h3]; field_simp
      exact_mod_cast this
    have hcop : IsCoprime q.num (q.den : ℤ) := by
      rw [Int.isCoprime_iff_gcd_eq_one]
      simpa [Int.gcd] using q.reduced
    constructor
    · apply num_of
      have hdvd : q.num ∣ s * k := hcop.dvd_of_dvd_mul_right ⟨2 ^ n, hcross.symm⟩
      have := Int.natAbs_dvd_natAbs.2 hdvd
      have hsk : (s * k).natAbs = k := by rcases hs with rfl | rfl <;> simp
      rw [hsk] at this
      rcases Nat.eq_zero_or_pos k with rfl | hk0
      · have : q = 0 := by rw [hv]; simp
        rw [this]
        exact Nat.pow_pos (by decide)
      · exact (Nat.le_of_dvd hk0 this).trans_lt hk
    · have hdvd : (q.den : ℤ) ∣ 2 ^ n :=
        hcop.symm.dvd_of_dvd_mul_left ⟨s * k, by rw [hcross]; ring⟩
      have hdvd' : q.den ∣ 2 ^ n := by exact_mod_cast hdvd
      obtain ⟨i, -, hi⟩ := (Nat.dvd_prime_pow Nat.prime_two).1 hdvd'
      have := Fmt.representable_grid (F := F) (k := 1) (j := i) false
        (Nat.one_lt_two_pow (by omega)) (by omega) (by
          have := Fmt.representable_of_small (F := F) (n := q.den) (m := T.bits) (by simpa using bd.le) hT
          rw [hi] at this
          simpa using this)
      rw [hi]
      simpa using this

end Ieme
