import Verif.Lemmas.FloatSplit
import Verif.Lemmas.FloatConvert

/-!
# From floating point to fractions: properties C58, C59, C60 and C63

`F` is the floating format (`binary32` for `float`, `binary64` for `double`), `b` the bit
pattern, `F.value b` the number that IEEE 754 assigns to it.
-/

namespace Ieme

open Res IntTy FloatingPoint

variable {F : Fmt} {T : IntTy} {o : Ops} {r : Raw} {b : ℕ} {w : Bool}

/-- **C58** Converting a normal `float` or `double`, when it finishes cleanly, gives exactly
its value, for every policy and representation. -/
theorem C58_normal_exact (hb : F.Normal b) (h : toFraction .little F T o b ⇓ r) :
    Denotes r (F.value b) := by
  have hn : ¬ F.NaN b := fun hn => by have := hb.2; have := hn.1; omega
  obtain ⟨den, w1, w2, h1, h2, h3⟩ := toFraction_split h hn
  obtain ⟨rfl, rfl⟩ : w1 = false ∧ w2 = false := by
    revert h3; cases w1 <;> cases w2 <;> decide
  obtain ⟨-, rfl⟩ := conv_clean.1 h1
  rw [Fmt.value_of_normal (by have := hb.1; omega)]
  exact assemble_exact (by have : 0 < 2 ^ F.mant := Nat.pow_pos (by decide); omega) h2

/-- **C58** On a signed representation wide enough for the mantissa nothing can wrap, so a
conversion that finishes at all is exact. -/
theorem C58_signed_never_wrong (hs : T.signed = true) (hT : F.mant + 1 < T.bits)
    (hb : F.Normal b) (h : toFraction .little F T o b = .ok r w) :
    Denotes r (F.value b) ∧ w = false := by
  have hn : ¬ F.NaN b := fun hn => by have := hb.2; have := hn.1; omega
  obtain ⟨den, w1, w2, h1, h2, rfl⟩ := toFraction_split h hn
  have hden : T.InRange (((2 ^ F.mant : ℕ) : ℤ)) :=
    (two_pow_inRange_iff _).2 ⟨by omega, fun _ => by omega⟩
  rw [conv_clean.2 ⟨hden, rfl⟩] at h1
  simp only [Res.ok.injEq] at h1
  obtain ⟨rfl, rfl⟩ := h1
  have := (assemble_noWrap hs F.mant_pos hT (by have := (Fmt.expField_bounds F b).1; omega)
    (Fmt.mantField_lt F b)).flag h2
  subst this
  exact ⟨C58_normal_exact hb h, rfl⟩

/-- **C58** The conversion finishes, under every policy, when the unreduced product of the
widened mantissa and the power of two fits the representation. -/
theorem C58_normal_finishes (hs : T.signed = true) (hb : F.Normal b)
    (hfit : ((2 ^ (F.mant + 1 + ((F.expField b : ℤ) - F.bias).natAbs) : ℕ) : ℤ) ≤ T.max) :
    ∃ r, toFraction .little F T o b ⇓ r := by
  have hn : ¬ F.NaN b := fun hn => by have := hb.2; have := hn.1; omega
  obtain ⟨k1, k2⟩ := Fmt.expField_bounds F b
  obtain ⟨b1, b2, -⟩ := bias_bounds F
  obtain ⟨r, hr⟩ := assemble_progress (o := o) (a := F.signField b) hs (bias := F.bias)
    (e := F.expField b) (by omega) (by rw [i32_inRange]; omega) (by omega) (Fmt.mantField_lt F b) hfit
  refine ⟨r, ?_⟩
  have hle : 2 ^ F.mant ≤ 2 ^ (F.mant + 1 + ((F.expField b : ℤ) - F.bias).natAbs) :=
    Nat.pow_le_pow_right (by decide) (by omega)
  have hden : T.InRange (((2 ^ F.mant : ℕ) : ℤ)) := by
    have h0 := T.min_le_zero
    have h1 : 0 < 2 ^ F.mant := Nat.pow_pos (by decide)
    constructor
    · exact h0.trans (by positivity)
    · exact le_trans (by exact_mod_cast hle) hfit
  rw [toFraction_little, mantissaDenominator_eq, if_pos ((two_pow_inRange_iff _).1 hden).1,
    conv_clean.2 ⟨hden, rfl⟩, ok_bind_false, if_neg hn, hr]

/-- **C58** A representation not wider than the mantissa makes the program ill-formed:
`to_fraction<int>(double)` does not compile. -/
theorem C58_narrow_ill_formed (E : Endian) (hT : T.bits ≤ F.mant) :
    toFraction E F T o b = .fault .illFormed := by
  have hoff : ∀ E, (∃ x, constant (offsets F E) ⇓ x) ∨
      constant (offsets F E) = .fault .illFormed := by
    have e1 : F.uint.add F.mant F.exp ⇓ ((F.mant + F.exp : ℕ) : ℤ) ∧
        F.uint.add 1 F.exp ⇓ ((1 + F.exp : ℕ) : ℤ) := by
      have h0 : F.uint.min = 0 := rfl
      have h1 : F.uint.max = ((2 ^ (1 + F.mant + F.exp) : ℕ) : ℤ) - 1 := rfl
      have := Nat.lt_two_pow_self (n := 1 + F.mant + F.exp)
      constructor <;> rw [IntTy.add, IntTy.arith, if_pos (by constructor <;> omega)] <;>
        push_cast <;> rfl
    intro E
    cases E
    · exact .inl ⟨_, by simp only [offsets, e1.1, ok_bind_false]; rfl⟩
    · exact .inl ⟨_, by simp only [offsets, e1.2, ok_bind_false]; rfl⟩
    · exact .inr rfl
  unfold toFraction
  rcases hoff E with ⟨x, hx⟩ | hx
  · rw [hx, ok_bind_false, exponentBias_eq, ok_bind_false, mantissaDenominator_eq,
      if_neg (by omega), fault_bind]
  · rw [hx, fault_bind]

example : binary32.Normal 0xC0490FDB ∧ toFraction .little binary32 i32 .defaults 0xC0490FDB ⇓
      ⟨-13176795, 4194304⟩ ∧
    binary64.Normal 0x3FB999999999999A ∧
    toFraction .little binary64 i64 .defaults 0x3FB999999999999A ⇓
      ⟨3602879701896397, 36028797018963968⟩ ∧
    binary64.mant + 1 < i64.bits ∧ i32.bits ≤ binary64.mant ∧
    ((2 ^ (binary32.mant + 1 + ((binary32.expField 0x40490FDB : ℤ) - binary32.bias).natAbs) : ℕ)
      : ℤ) ≤ i32.max := by decide +kernel

/-! ## Zero and subnormal numbers -/

/-- **C59, refuted in general.**  For every representation of at most `bias` bits (127 for
`float`, 1023 for `double`) and every policy, converting a zero or subnormal number never
finishes: the shift count of `pow2` is out of range. -/
theorem C59_tiny_never_finishes (hT : (T.bits : ℤ) ≤ F.bias) (hb : F.Tiny b) :
    ¬ (toFraction .little F T o b).Finishes := by
  have h : F.expField b = 0 := hb
  obtain ⟨b1, b2, b3⟩ := bias_bounds F
  refine toFraction_fault_of_exponent (by rw [h]; omega) fun hn => ?_
  have := hn.1
  omega

/-- **C59, partial.**  Full claim: converting zero and every subnormal number finishes and
gives its value.  Proved: for representations of at most `bias` bits no wrong value is
returned.  Missing, and false by `C59_tiny_never_finishes`: that it finishes. -/
theorem C59_tiny_never_wrong_partial (hT : (T.bits : ℤ) ≤ F.bias) (hb : F.Tiny b)
    (h : toFraction .little F T o b = .ok r w) : Denotes r (F.value b) :=
  absurd ⟨r, w, h⟩ (C59_tiny_never_finishes hT hb)

/-- **C59, refuted in general.**  On wider representations, where the conversion can finish,
the result is never the value: the hidden bit is added although the number has none. -/
theorem C59_tiny_wide_wrong (hb : F.Tiny b) (h : toFraction .little F T o b ⇓ r) :
    ¬ Denotes r (F.value b) := by
  have he : F.expField b = 0 := hb
  obtain ⟨b1, b2, b3⟩ := bias_bounds F
  have hn : ¬ F.NaN b := fun hn => by have := hn.1; omega
  obtain ⟨den, w1, w2, h1, h2, h3⟩ := toFraction_split h hn
  obtain ⟨rfl, rfl⟩ : w1 = false ∧ w2 = false := by
    revert h3; cases w1 <;> cases w2 <;> decide
  obtain ⟨-, rfl⟩ := conv_clean.1 h1
  have hp : 0 < 2 ^ F.mant := Nat.pow_pos (by decide)
  have hd := assemble_exact (by omega) h2
  intro hd'
  have e := hd.unique hd'
  rw [Fmt.value, Fmt.sgn, Fmt.magnitude, if_pos he, he] at e
  have hm := Fmt.mantField_lt F b
  have hm' : (F.mantField b : ℚ) < 2 ^ F.mant := by exact_mod_cast hm
  have hz : (2 : ℚ) ^ (1 - F.bias) = 2 * 2 ^ (((0 : ℕ) : ℤ) - F.bias) := by
    rw [← zpow_one_add₀ (by norm_num)]; congr 1; push_cast; ring
  have hpq : (0 : ℚ) < 2 ^ F.mant := by positivity
  rw [hz] at e
  push_cast at e
  have key : (1 + (F.mantField b : ℚ) / 2 ^ F.mant) = (F.mantField b : ℚ) / 2 ^ F.mant * 2 := by
    have hs : (if F.signField b = 0 then (1 : ℚ) else -1) ≠ 0 := by split <;> norm_num
    have hpz' : (2 : ℚ) ^ (0 - F.bias) ≠ 0 := zpow_ne_zero _ (by norm_num)
    refine mul_left_cancel₀ hs (mul_right_cancel₀ hpz' ?_)
    rw [e]
    ring
  have : (F.mantField b : ℚ) / 2 ^ F.mant < 1 := (div_lt_one hpq).2 hm'
  linarith

example : binary32.Tiny 0 ∧ binary32.Tiny 0x80000000 ∧ binary32.Tiny 1 ∧
    (i64.bits : ℤ) ≤ binary32.bias ∧
    toFraction .little binary32 i64 .defaults 0 = .fault .shiftRange ∧
    toFraction .little binary32 ⟨true, 256, by decide⟩ .fast 0 ⇓
      ⟨2 ^ 23, 2 ^ 150⟩ := by decide +kernel

/-! ## Not-a-number and infinity -/

/-- **C60, partial.**  Full claim: every NaN and both infinities convert to an undefined
fraction.  Proved for every NaN, whatever its sign and payload; false for infinities, see
`C60_infinity_never_finishes`. -/
theorem C60_nan_undefined_partial (hT : T.InRange ((2 : ℤ) ^ F.mant)) (hb : F.NaN b) :
    toFraction .little F T o b ⇓ ⟨0, 0⟩ ∧ (⟨0, 0⟩ : Raw).isUndefined = true := by
  rw [two_pow_cast] at hT
  refine ⟨?_, rfl⟩
  rw [toFraction_little, mantissaDenominator_eq, if_pos ((two_pow_inRange_iff _).1 hT).1,
    conv_clean.2 ⟨hT, rfl⟩, ok_bind_false, if_pos hb]
  rfl

/-- **C60, refuted in general.**  For every representation of at most `bias + 1` bits (128 for
`float`, 1024 for `double`) and every policy, converting an infinity never finishes. -/
theorem C60_infinity_never_finishes (hT : (T.bits : ℤ) ≤ F.bias + 1) (hb : F.Inf b) :
    ¬ (toFraction .little F T o b).Finishes := by
  obtain ⟨h1, h2⟩ := hb
  obtain ⟨b1, b2, b3⟩ := bias_bounds F
  exact toFraction_fault_of_exponent (by omega) fun hn => hn.2 h2

example : binary32.NaN 0x7FC00000 ∧ binary32.NaN 0xFF800001 ∧ binary64.NaN 0x7FF0000000000001 ∧
    i32.InRange ((2 : ℤ) ^ binary32.mant) ∧
    toFraction .little binary32 i32 .defaults 0xFF800001 ⇓ ⟨0, 0⟩ ∧
    binary32.Inf 0x7F800000 ∧ binary32.Inf 0xFF800000 ∧ (i64.bits : ℤ) ≤ binary32.bias + 1 ∧
    toFraction .little binary32 i64 .defaults 0x7F800000 = .fault .shiftRange := by decide +kernel

/-! ## Byte order -/

/-- **C63, partial.**  Full claim: on little- and big-endian targets alike the conversion
gives the value of a normal number and an undefined fraction for a NaN.  Proved for
little-endian targets; false for big-endian ones, see `C63_big_endian_wrong`. -/
theorem C63_little_endian_partial (hT : T.InRange ((2 : ℤ) ^ F.mant)) :
    (F.Normal b → toFraction .little F T o b ⇓ r → Denotes r (F.value b)) ∧
    (F.NaN b → toFraction .little F T o b ⇓ ⟨0, 0⟩) :=
  ⟨C58_normal_exact, fun h => (C60_nan_undefined_partial hT h).1⟩

/-- **C63, refuted in general.**  On a big-endian target the number `1` is not converted, and
the `float` with pattern `0x3F8000FE` is converted to `639/512`, which is not its value; on
targets that are neither little- nor big-endian the program is ill-formed. -/
theorem C63_big_endian_wrong :
    toFraction .big binary32 i64 .defaults 0x3F800000 = .fault .shiftRange ∧
    binary32.Normal 0x3F8000FE ∧
    toFraction .big binary32 i64 .defaults 0x3F8000FE ⇓ ⟨639, 512⟩ ∧
    ¬ Denotes ⟨639, 512⟩ (binary32.value 0x3F8000FE) ∧
    (∀ F T o b, toFraction .mixed F T o b = .fault .illFormed) := by
  refine ⟨by decide +kernel, by decide +kernel, by decide +kernel, ?_, fun F T o b => rfl⟩
  rintro ⟨-, h⟩
  have : binary32.value 0x3F8000FE = 1 + 254 / 8388608 := by
    rw [Fmt.value, Fmt.sgn, Fmt.magnitude, show binary32.signField 0x3F8000FE = 0 by decide,
      show binary32.expField 0x3F8000FE = 127 by decide,
      show binary32.mantField 0x3F8000FE = 254 by decide, show binary32.bias = 127 by decide,
      show binary32.mant = 23 by decide]
    norm_num
  rw [this] at h
  norm_num at h

end Ieme
