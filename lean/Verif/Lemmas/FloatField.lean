import Verif.Model.FloatingPoint
import Verif.Lemmas.ParseValue

/-!
# The bit fields of `floating_point_to_fraction`
-/

namespace Ieme

open Res IntTy

namespace FloatingPoint

variable {F : Fmt} {T U : IntTy} {o : Ops}

theorem repeatingOnes_eq {n : ℕ} (hU : U.signed = false) (hn : n < U.bits) :
    repeatingOnes U n ⇓ ((2 ^ n - 1 : ℕ) : ℤ) := by
  have h1 : U.InRange (((2 ^ n : ℕ) : ℤ)) :=
    (two_pow_inRange_iff n).2 ⟨hn, fun h => by rw [hU] at h; cases h⟩
  have h0 : 0 < 2 ^ n := Nat.pow_pos (by decide)
  have e1 : U.shl 1 n ⇓ ((2 ^ n : ℕ) : ℤ) := by
    have hn' : (n : ℤ) < U.bits := by exact_mod_cast hn
    rw [IntTy.shl, if_pos ⟨by omega, hn'⟩, Int.toNat_natCast, one_mul, IntTy.arith, if_pos h1]
  have h2 : U.InRange (((2 ^ n : ℕ) : ℤ) - 1) := by
    have := U.min_unsigned hU
    obtain ⟨a, b⟩ := h1
    constructor <;> omega
  rw [repeatingOnes, e1, ok_bind_false, IntTy.sub, IntTy.arith, if_pos h2]
  congr 1; omega

theorem bitField_eq {b off n : ℕ} (hU : U.signed = false) (ho : off < U.bits) (hn : n < U.bits) :
    bitField U b off n ⇓ b / 2 ^ off % 2 ^ n := by
  have ho' : (off : ℤ) < U.bits := by exact_mod_cast ho
  rw [bitField, if_pos ⟨by omega, ho'⟩, repeatingOnes_eq hU hn, ok_bind_false,
    Int.toNat_natCast, Int.toNat_natCast, Nat.and_two_pow_sub_one_eq_mod,
    Nat.shiftRight_eq_div_pow]
  rfl

theorem uint_signed (F : Fmt) : F.uint.signed = false := rfl
theorem uint_bits (F : Fmt) : F.uint.bits = 1 + F.mant + F.exp := rfl

theorem exponentBias_eq (F : Fmt) : exponentBias F ⇓ F.bias := by
  have h1 := F.exp_ge
  have h2 := F.exp_le
  have e1 : i32.sub F.exp 1 ⇓ ((F.exp - 1 : ℕ) : ℤ) := by
    rw [IntTy.sub, IntTy.arith, if_pos (by rw [i32_inRange]; omega)]; congr 1; omega
  have hb : i32.bits = 32 := rfl
  have h3 : i32.InRange (((2 ^ (F.exp - 1) : ℕ) : ℤ)) :=
    (two_pow_inRange_iff _).2 ⟨by omega, fun _ => by omega⟩
  have e2 : mathPow2 i32 ((F.exp - 1 : ℕ) : ℤ) ⇓ ((2 ^ (F.exp - 1) : ℕ) : ℤ) := by
    rw [mathPow2_eq (by omega), if_pos (by omega), IntTy.conv, if_pos h3]
  have h0 : 0 < 2 ^ (F.exp - 1) := Nat.pow_pos (by decide)
  rw [exponentBias, e1, ok_bind_false, e2, ok_bind_false, IntTy.sub, IntTy.arith, if_pos]
  · simp only [constant, Fmt.bias]; push_cast; rfl
  · rw [i32_inRange] at h3 ⊢; omega

theorem mantissaDenominator_eq : mantissaDenominator T F =
    if F.mant < T.bits then T.conv ((2 ^ F.mant : ℕ) : ℤ) else .fault .illFormed := by
  have hm : F.mant ≤ 2147483647 := by have := F.mant_le; omega
  rw [mantissaDenominator, conv_small hm, ok_bind_false, mathPow2_eq hm]
  split
  · unfold IntTy.conv; split <;> rfl
  · rfl

theorem bias_bounds (F : Fmt) : 1 ≤ F.bias ∧ F.bias ≤ 536870911 ∧
    ((2 ^ F.exp : ℕ) : ℤ) = 2 * F.bias + 2 := by
  have h1 := F.exp_ge
  have h2 := F.exp_le
  have e : 2 ^ F.exp = 2 * 2 ^ (F.exp - 1) := by
    rw [← Nat.pow_succ', Nat.succ_eq_add_one, Nat.sub_add_cancel (by omega)]
  have l : 2 ^ 1 ≤ 2 ^ (F.exp - 1) := Nat.pow_le_pow_right (by decide) (by omega)
  have u : 2 ^ (F.exp - 1) ≤ 2 ^ 29 := Nat.pow_le_pow_right (by decide) (by omega)
  have hb : F.bias = ((2 ^ (F.exp - 1) : ℕ) : ℤ) - 1 := by rw [Fmt.bias]; push_cast; rfl
  rw [hb]; omega

/-- The conversion on a little-endian target, in terms of the fields of the format. -/
theorem toFraction_little (b : ℕ) : toFraction .little F T o b =
    (mantissaDenominator T F >>= fun den =>
      if F.NaN b then pure Limits.undefined
      else assemble T o F.bias den (F.signField b) (F.expField b) (F.mantField b)) := by
  have hM := F.mant_pos
  have hE := F.exp_ge
  have e1 : F.uint.add F.mant F.exp ⇓ ((F.mant + F.exp : ℕ) : ℤ) := by
    have h0 : F.uint.min = 0 := rfl
    have h1 : F.uint.max = ((2 ^ (1 + F.mant + F.exp) : ℕ) : ℤ) - 1 := rfl
    have := Nat.lt_two_pow_self (n := 1 + F.mant + F.exp)
    rw [IntTy.add, IntTy.arith, if_pos (by constructor <;> omega)]; push_cast; rfl
  have hu := uint_bits F
  have b1 := bitField_eq (U := F.uint) (b := b) (off := F.mant + F.exp) (n := 1)
    (uint_signed F) (by omega) (by omega)
  have b2 := bitField_eq (U := F.uint) (b := b) (off := F.mant) (n := F.exp)
    (uint_signed F) (by omega) (by omega)
  have b3 := bitField_eq (U := F.uint) (b := b) (off := 0) (n := F.mant)
    (uint_signed F) (by omega) (by omega)
  have b4 := repeatingOnes_eq (U := F.uint) (n := F.exp) (uint_signed F) (by omega)
  simp only [Nat.cast_one, pow_one, Nat.cast_zero, pow_zero, Nat.div_one] at b1 b3
  simp only [toFraction, offsets, e1, ok_bind_false, constant, exponentBias_eq, Res.pure_def,
    b1, b2, b3, b4]
  congr 1; funext den
  simp only [Fmt.NaN, Fmt.signField, Fmt.expField, Fmt.mantField, Nat.cast_inj]
  split_ifs with h
  · exact (if_pos h).symm
  · exact (if_neg h).symm

/-- A clean assembly has the value of a normal number with those fields. -/
theorem assemble_exact {bias den : ℤ} {s e m : ℕ} {r : Raw} (hden : 0 < den)
    (h : assemble T o bias den s e m ⇓ r) :
    Denotes r ((if s = 0 then 1 else -1) * (1 + (m : ℚ) / den) * 2 ^ ((e : ℤ) - bias)) := by
  obtain ⟨sg, h1, g1⟩ := bind_eq_clean.1 h
  obtain ⟨e', h2, g2⟩ := bind_eq_clean.1 g1
  obtain ⟨k, h3, g3⟩ := bind_eq_clean.1 g2
  obtain ⟨n, h4, g4⟩ := bind_eq_clean.1 g3
  obtain ⟨f, h5, g5⟩ := bind_eq_clean.1 g4
  obtain ⟨g, h6, g6⟩ := bind_eq_clean.1 g5
  obtain ⟨p, h7, g7⟩ := bind_eq_clean.1 g6
  obtain ⟨-, rfl⟩ := conv_clean.1 h2
  obtain ⟨hk, rfl⟩ := sub_clean.1 h3
  obtain ⟨-, rfl⟩ := conv_clean.1 h4
  have hsg : (sg : ℚ) = if s = 0 then 1 else -1 := by
    unfold signFactor at h1
    split at h1
    · rename_i hs
      simp only [pure_eq_ok, and_true] at h1
      simp [← h1, hs]
    · rename_i hs
      obtain ⟨-, rfl⟩ := neg_clean.1 h1
      simp [hs]
  have hf : Denotes f (1 + (m : ℚ) / den) := by
    have := arith_int_plus (f := Fraction.mk (m : ℤ) den) (n := 1) (x := (m : ℚ) / den)
      ⟨hden.ne', by simp [Fraction.mk]⟩ h5
    simpa using this
  have hg : Denotes g ((if s = 0 then 1 else -1) * (1 + (m : ℚ) / den)) := by
    rw [Fraction.arith_self] at h6
    exact Ops.arith_exact (a := .rf sg f) (op := .multiplies) ⟨hsg, hf⟩ h6
  rw [Fraction.arith_self] at g7
  exact Ops.arith_exact (a := .ff g p) (op := .multiplies) ⟨hg, C35_pow2_exact hk h7⟩ g7

end FloatingPoint
end Ieme
