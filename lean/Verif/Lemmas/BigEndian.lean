import Verif.Spec.BigEndian
import Verif.Lemmas.FloatSplit

/-!
# Lemmas on the conversion on big-endian targets
-/

namespace Ieme

open Res IntTy

namespace FloatingPoint

variable {F : Fmt} {T U : IntTy} {o : Ops}

/-- The fields of a reordered pattern. -/
theorem reordered_fields (F : Fmt) (b : ℕ) : F.signField (F.reordered b) = b % 2 ∧
    F.expField (F.reordered b) = b / 2 % 2 ^ F.exp ∧
    F.mantField (F.reordered b) = b / 2 ^ (1 + F.exp) % 2 ^ F.mant := by
  have hM : 0 < 2 ^ F.mant := Nat.pow_pos (by decide)
  have hE : 0 < 2 ^ F.exp := Nat.pow_pos (by decide)
  set s := b % 2 with hs
  set e := b / 2 % 2 ^ F.exp with he
  set m := b / 2 ^ (1 + F.exp) % 2 ^ F.mant with hm
  have s2 : s < 2 := Nat.mod_lt _ (by decide)
  have e2 : e < 2 ^ F.exp := Nat.mod_lt _ hE
  have m2 : m < 2 ^ F.mant := Nat.mod_lt _ hM
  have k : F.reordered b = (s * 2 ^ F.exp + e) * 2 ^ F.mant + m := by
    rw [Fmt.reordered, ← hs, ← he, ← hm, pow_add]; ring
  have q : F.reordered b / 2 ^ F.mant = s * 2 ^ F.exp + e := by
    rw [k, mul_comm, Nat.mul_add_div hM, Nat.div_eq_of_lt m2, add_zero]
  refine ⟨?_, ?_, ?_⟩
  · rw [Fmt.signField, pow_add, ← Nat.div_div_eq_div_mul, q, mul_comm, Nat.mul_add_div hE,
      Nat.div_eq_of_lt e2, add_zero, Nat.mod_eq_of_lt s2]
  · rw [Fmt.expField, q, mul_comm, Nat.mul_add_mod, Nat.mod_eq_of_lt e2]
  · rw [Fmt.mantField, k, mul_comm, Nat.mul_add_mod, Nat.mod_eq_of_lt m2]

/-- The conversion on a big-endian target. -/
theorem toFraction_big (b : ℕ) : toFraction .big F T o b =
    toFraction .little F T o (F.reordered b) := by
  have hM := F.mant_pos
  have hE := F.exp_ge
  have e1 : F.uint.add 1 F.exp ⇓ ((1 + F.exp : ℕ) : ℤ) := by
    have h0 : F.uint.min = 0 := rfl
    have h1 : F.uint.max = ((2 ^ (1 + F.mant + F.exp) : ℕ) : ℤ) - 1 := rfl
    have := Nat.lt_two_pow_self (n := 1 + F.mant + F.exp)
    rw [IntTy.add, IntTy.arith, if_pos (by constructor <;> omega)]; push_cast; rfl
  have hu := uint_bits F
  have b1 := bitField_eq (U := F.uint) (b := b) (off := 0) (n := 1)
    (uint_signed F) (by omega) (by omega)
  have b2 := bitField_eq (U := F.uint) (b := b) (off := 1) (n := F.exp)
    (uint_signed F) (by omega) (by omega)
  have b3 := bitField_eq (U := F.uint) (b := b) (off := 1 + F.exp) (n := F.mant)
    (uint_signed F) (by omega) (by omega)
  have b4 := repeatingOnes_eq (U := F.uint) (n := F.exp) (uint_signed F) (by omega)
  simp only [Nat.cast_one, pow_one, Nat.cast_zero, pow_zero, Nat.div_one] at b1 b2
  obtain ⟨f1, f2, f3⟩ := reordered_fields F b
  rw [toFraction_little]
  simp only [toFraction, offsets, e1, ok_bind_false, constant, exponentBias_eq, Res.pure_def,
    b1, b2, b3, b4]
  congr 1; funext den
  simp only [Fmt.NaN, f1, f2, f3, Nat.cast_inj]

/-- The scientific notation of a number is unique. -/
theorem scientific_inj {M m m' : ℕ} {e e' : ℤ} (hm : m < 2 ^ M) (hm' : m' < 2 ^ M)
    (h : (1 + (m : ℚ) / ((2 ^ M : ℕ) : ℤ)) * 2 ^ e = (1 + (m' : ℚ) / ((2 ^ M : ℕ) : ℤ)) * 2 ^ e') :
    e = e' ∧ m = m' := by
  have hp : (0 : ℚ) < ((2 ^ M : ℕ) : ℤ) := by push_cast; positivity
  have bd : ∀ {m : ℕ}, m < 2 ^ M → (1 : ℚ) ≤ 1 + (m : ℚ) / ((2 ^ M : ℕ) : ℤ) ∧
      1 + (m : ℚ) / ((2 ^ M : ℕ) : ℤ) < 2 := by
    intro m hm
    have h1 : (m : ℚ) < ((2 ^ M : ℕ) : ℤ) := by exact_mod_cast hm
    have h2 : (m : ℚ) / ((2 ^ M : ℕ) : ℤ) < 1 := (div_lt_one hp).2 h1
    have h3 : (0 : ℚ) ≤ (m : ℚ) / ((2 ^ M : ℕ) : ℤ) := div_nonneg (Nat.cast_nonneg _) hp.le
    constructor <;> linarith
  have key : ∀ {m m' : ℕ} {e e' : ℤ}, m < 2 ^ M → m' < 2 ^ M → e < e' →
      (1 + (m : ℚ) / ((2 ^ M : ℕ) : ℤ)) * 2 ^ e < (1 + (m' : ℚ) / ((2 ^ M : ℕ) : ℤ)) * 2 ^ e' := by
    intro m m' e e' hm hm' he
    have p1 : (0 : ℚ) < 2 ^ e := zpow_pos (by norm_num) _
    have p3 : (2 : ℚ) * 2 ^ e ≤ 2 ^ e' := by
      rw [← zpow_one_add₀ (by norm_num)]
      exact zpow_le_zpow_right₀ (by norm_num) (by omega)
    have := (bd hm).2
    have := (bd hm').1
    nlinarith
  have he : e = e' := by
    rcases lt_trichotomy e e' with h' | h' | h'
    · exact absurd h (key hm hm' h').ne
    · exact h'
    · exact absurd h (key hm' hm h').ne'
  subst he
  have p1 : (2 : ℚ) ^ e ≠ 0 := zpow_ne_zero _ (by norm_num)
  have := mul_right_cancel₀ p1 h
  have := (div_left_inj' hp.ne').1 (add_left_cancel this)
  exact ⟨rfl, by exact_mod_cast this⟩

/-- A valid pattern is determined by its fields. -/
theorem eq_of_fields {b c : ℕ} (hb : F.Valid b) (hc : F.Valid c)
    (h1 : F.signField b = F.signField c) (h2 : F.expField b = F.expField c)
    (h3 : F.mantField b = F.mantField c) : b = c := by
  have key : ∀ {b : ℕ}, F.Valid b →
      b = (F.signField b * 2 ^ F.exp + F.expField b) * 2 ^ F.mant + F.mantField b := by
    intro b hb
    have e1 : F.signField b = b / 2 ^ F.mant / 2 ^ F.exp := by
      rw [Fmt.signField, pow_add, ← Nat.div_div_eq_div_mul, Nat.mod_eq_of_lt]
      rw [Nat.div_div_eq_div_mul, ← pow_add]
      apply Nat.div_lt_of_lt_mul
      rw [Fmt.Valid, add_assoc, add_comm, pow_add] at hb
      simpa using hb
    rw [e1, Fmt.expField, Fmt.mantField, mul_comm (_ / _ / _), Nat.div_add_mod, mul_comm,
      Nat.div_add_mod]
  rw [key hb, key hc, h1, h2, h3]

/-- Reordering the fields gives a valid pattern. -/
theorem reordered_valid (F : Fmt) (b : ℕ) : F.Valid (F.reordered b) := by
  have s2 : b % 2 < 2 := Nat.mod_lt _ (by decide)
  have e2 : b / 2 % 2 ^ F.exp < 2 ^ F.exp := Nat.mod_lt _ (Nat.pow_pos (by decide))
  have m2 : b / 2 ^ (1 + F.exp) % 2 ^ F.mant < 2 ^ F.mant := Nat.mod_lt _ (Nat.pow_pos (by decide))
  rw [Fmt.Valid, Fmt.reordered]
  generalize b % 2 = s at *
  generalize b / 2 % 2 ^ F.exp = e at *
  generalize b / 2 ^ (1 + F.exp) % 2 ^ F.mant = m at *
  have e3 : e * 2 ^ F.mant + 2 ^ F.mant ≤ 2 ^ (F.mant + F.exp) := by
    rw [← Nat.succ_mul, add_comm, pow_add]
    exact Nat.mul_le_mul_right _ e2
  have s3 : s * 2 ^ (F.mant + F.exp) ≤ 1 * 2 ^ (F.mant + F.exp) :=
    Nat.mul_le_mul_right _ (by omega)
  have t : 2 ^ (1 + F.mant + F.exp) = 2 * 2 ^ (F.mant + F.exp) := by
    rw [add_assoc, pow_add, pow_one]
  omega

/-- The fields of a pattern that does not change when they are reordered. -/
theorem fixed_fields {b : ℕ} (hv : F.Valid b) (e : F.reordered b = b) :
    F.signField b * (2 ^ (F.mant + F.exp) - 1 : ℤ) + F.expField b * (2 ^ F.mant - 2 : ℤ) =
      F.mantField b * (2 ^ (1 + F.exp) - 1 : ℤ) := by
  obtain ⟨f1, f2, f3⟩ := reordered_fields F b
  rw [e] at f1 f2 f3
  have hM : b / 2 ^ (1 + F.exp) % 2 ^ F.mant = b / 2 ^ (1 + F.exp) := Nat.mod_eq_of_lt <| by
    apply Nat.div_lt_of_lt_mul
    rw [← pow_add, add_right_comm, add_right_comm]
    rw [Fmt.Valid] at hv
    rwa [show 1 + F.exp + F.mant = 1 + F.mant + F.exp by omega]
  have k1 : b = F.mantField b * 2 ^ (1 + F.exp) + (F.expField b * 2 + F.signField b) := by
    rw [f1, f2, f3, hM, pow_add, pow_one, ← Nat.div_div_eq_div_mul]
    have := Nat.div_add_mod (b / 2) (2 ^ F.exp)
    have := Nat.div_add_mod b 2
    nlinarith
  have k2 : b = F.signField b * 2 ^ (F.mant + F.exp) + F.expField b * 2 ^ F.mant +
      F.mantField b := by
    rw [f1, f2, f3]; exact e.symm
  have k3 : (b : ℤ) = F.mantField b * 2 ^ (1 + F.exp) + (F.expField b * 2 + F.signField b) := by
    exact_mod_cast k1
  have k4 : (b : ℤ) = F.signField b * 2 ^ (F.mant + F.exp) + F.expField b * 2 ^ F.mant +
      F.mantField b := by
    exact_mod_cast k2
  linarith

/-! The equation of `fixed_fields` for the four formats. -/

theorem fixed_32 {s x m : ℤ} (hs : s = 0 ∨ s = 1) (h0 : 0 < x) (h1 : x < 255)
    (k : s * 2147483647 + x * 8388606 = m * 511) : False := by
  rcases hs with rfl | rfl <;> omega

theorem fixed_64 {s x m : ℤ} (hs : s = 0 ∨ s = 1) (h0 : 895 < x) (h1 : x < 1151)
    (k : s * 9223372036854775807 + x * 4503599627370494 = m * 4095) : False := by
  have h : 7 * s + 14 * x = 4095 * (m - 2252349703749640 * s - 1099780128784 * x) := by
    linarith
  generalize m - 2252349703749640 * s - 1099780128784 * x = t at h
  clear k
  rcases hs with rfl | rfl <;> omega

theorem fixed_80 {s x m : ℤ} (hs : s = 0 ∨ s = 1) (h0 : 16255 < x) (h1 : x < 16511)
    (k : s * 302231454903657293676543 + x * 9223372036854775806 = m * 65535) : False := by
  have h : 16383 * s + 32766 * x = 65535 * (m - 4611756388245323776 * s - 140739635871744 * x) := by
    linarith
  generalize m - 4611756388245323776 * s - 140739635871744 * x = t at h
  clear k
  rcases hs with rfl | rfl <;> omega

theorem fixed_128 {s x m : ℤ} (hs : s = 0 ∨ s = 1) (h0 : 16255 < x) (h1 : x < 16511)
    (k : s * 170141183460469231731687303715884105727 + x * 5192296858534827628530496329220094 =
      m * 65535) : False := by
  have h : 32767 * s - x = 65535 * (m - 2596188043953143079754136014585856 * s -
      79229371458530977775699951617 * x) := by linarith
  generalize m - 2596188043953143079754136014585856 * s - 79229371458530977775699951617 * x = t at h
  clear k
  rcases hs with rfl | rfl <;> omega

/-- What a clean conversion on a little-endian target denotes, whatever the exponent field. -/
theorem toFraction_pseudo {b : ℕ} {r : Raw} (hn : ¬ F.NaN b)
    (h : toFraction .little F T o b ⇓ r) :
    Denotes r ((if F.signField b = 0 then 1 else -1) *
      (1 + (F.mantField b : ℚ) / ((2 ^ F.mant : ℕ) : ℤ)) * 2 ^ ((F.expField b : ℤ) - F.bias)) := by
  obtain ⟨den, w1, w2, h1, h2, h3⟩ := toFraction_split h hn
  obtain ⟨rfl, rfl⟩ : w1 = false ∧ w2 = false := by simpa using h3.symm
  obtain ⟨-, rfl⟩ := conv_clean.1 h1
  exact assemble_exact (by exact_mod_cast Nat.pow_pos (by decide)) h2

/-- Two such numbers are the same only when the fields are. -/
theorem pseudo_inj {b c : ℕ} (h : ((if F.signField b = 0 then 1 else -1) *
      (1 + (F.mantField b : ℚ) / ((2 ^ F.mant : ℕ) : ℤ)) * 2 ^ ((F.expField b : ℤ) - F.bias)) =
    ((if F.signField c = 0 then 1 else -1) *
      (1 + (F.mantField c : ℚ) / ((2 ^ F.mant : ℕ) : ℤ)) * 2 ^ ((F.expField c : ℤ) - F.bias))) :
    F.signField b = F.signField c ∧ F.expField b = F.expField c ∧
      F.mantField b = F.mantField c := by
  have pos : ∀ c : ℕ, (0 : ℚ) < (1 + (F.mantField c : ℚ) / ((2 ^ F.mant : ℕ) : ℤ)) *
      2 ^ ((F.expField c : ℤ) - F.bias) := fun c => mul_pos
    (add_pos_of_pos_of_nonneg one_pos (div_nonneg (Nat.cast_nonneg _) (by positivity)))
    (zpow_pos (by norm_num) _)
  have p1 := pos b
  have p2 := pos c
  have s1 : F.signField b < 2 := Nat.mod_lt _ (by decide)
  have s2 : F.signField c < 2 := Nat.mod_lt _ (by decide)
  rw [mul_assoc, mul_assoc] at h
  by_cases h1 : F.signField b = 0 <;> by_cases h2 : F.signField c = 0
  · rw [if_pos h1, if_pos h2, one_mul, one_mul] at h
    obtain ⟨e1, e2⟩ := scientific_inj (F.mantField_lt b) (F.mantField_lt c) h
    exact ⟨by omega, by omega, e2⟩
  · rw [if_pos h1, if_neg h2] at h
    linarith
  · rw [if_neg h1, if_pos h2] at h
    linarith
  · rw [if_neg h1, if_neg h2] at h
    obtain ⟨e1, e2⟩ := scientific_inj (F.mantField_lt b) (F.mantField_lt c)
      (mul_left_cancel₀ (by norm_num) h)
    exact ⟨by omega, by omega, e2⟩

end FloatingPoint
end Ieme
