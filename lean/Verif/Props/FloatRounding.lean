import Verif.Lemmas.FloatParts
import Verif.Props.FloatingPoint
import Verif.Lemmas.FloatRounding
import Verif.Lemmas.Reduce
import Mathlib.RingTheory.Coprime.Lemmas
import Mathlib.Data.Nat.Prime.Basic

/-!
# From fractions to floating point: properties C61 and C62

`F.Rounded q b` (in `Verif/Spec/FloatRounding.lean`) says that `b` is the correctly rounded
pattern of the number `q`; `q.num` and `q.den` are the parts of `q` in lowest terms.
-/

namespace Ieme

open Res IntTy FloatingPoint

variable {F : Fmt} {T : IntTy} {o : Ops} {f r : Raw} {b c : ℕ} {q : ℚ}

/-- Correct rounding determines the pattern, so the specification leaves nothing open. -/
theorem C61_rounded_unique (hb : F.Rounded q b) (hc : F.Rounded q c) : b = c := hb.unique hc

/-- **C61** If the parts in lowest terms are exactly representable, the result is the
correctly rounded value of the fraction. -/
theorem C61_correctly_rounded (hq : Denotes f q) (hn : F.Representable q.num)
    (hd : F.Representable q.den) (h : ofFraction F T f ⇓ b) : F.Rounded q b := by
  obtain ⟨r, hr, h1⟩ := bind_eq_clean.1 h
  have e := reduce_parts hq hr
  subst e
  obtain rfl := pure_eq_ok.1 h1 |>.1
  have := Fmt.rounded_quotient (F := F) (n := q.num) (d := q.den) hn
    (by exact_mod_cast hd) (by exact_mod_cast q.pos)
  rwa [Int.cast_natCast, Rat.num_div_den] at this

/-- **C61** If the representation has no more bits than the significand, every defined
fraction is correctly rounded: `int` to `double`, `int64_t` to `long double` on x86. -/
theorem C61_narrow_always_rounded (hT : T.bits ≤ F.mant + 1) (hF : (F.mant : ℤ) < F.bias)
    (hq : Denotes f q) (h : ofFraction F T f ⇓ b) : F.Rounded q b := by
  obtain ⟨r, hr, -⟩ := bind_eq_clean.1 h
  have hi := Raw.reduce_inRange hr
  have e := reduce_parts hq hr
  subst e
  have hle : 2 ^ T.bits ≤ 2 ^ (F.mant + 1) := Nat.pow_le_pow_right (by decide) hT
  refine C61_correctly_rounded hq ?_ ?_ h
  · exact Fmt.representable_int ((IntTy.natAbs_lt_pow hi.1).le.trans hle) hF
  · have := Fmt.representable_int (F := F) (n := q.den) ((IntTy.natAbs_lt_pow hi.2).le.trans hle) hF
    exact_mod_cast this

/-- **C61** The conversion finishes whenever the absolute values of the parts fit. -/
theorem C61_finishes (hf : f.InRange T) (hn : T.InRange f.num.natAbs)
    (hd : T.InRange f.den.natAbs) : ∃ b, ofFraction F T f ⇓ b := by
  obtain ⟨r, hr, -⟩ := Raw.reduce_progress .normalizeSigns hf hn hd
  exact ⟨_, by rw [ofFraction, hr, ok_bind_false]; rfl⟩

/-- **C61** An undefined fraction gives a NaN. -/
theorem C61_undefined_nan (hf : f.den = 0) : ∃ b, ofFraction F T f ⇓ b ∧ F.NaN b := by
  refine ⟨F.quietNaN, ?_, ?_⟩
  · have z : F.ofInt 0 = 0 := by
      have h1 := (Fmt.rounded_ofInt (F := F) 0)
      have h0 : F.Finite 0 := by
        have h2 : 2 ^ 2 ≤ 2 ^ F.exp := Nat.pow_le_pow_right (by decide) F.exp_ge
        refine ⟨Nat.pow_pos (by decide), ?_⟩
        rw [Fmt.expField, Nat.zero_div, Nat.zero_mod]
        omega
      have hv : F.value 0 = 0 := by
        rw [Fmt.value, Fmt.magnitude, Fmt.expField, Fmt.mantField]
        simp
      have hr : F.Representable 0 := ⟨0, h0, hv⟩
      rw [Int.cast_zero] at h1
      refine Fmt.value_inj (h1.finite hr.lt) h0 ?_ ?_
      · rw [h1.sign, if_neg (lt_irrefl _), Fmt.signField, Nat.zero_div]
      · rw [h1.exact hr, hv]
    have hm : F.magnitude 0 = 0 := by
      rw [Fmt.magnitude, Fmt.expField, Fmt.mantField]
      simp
    have n0 : ¬ F.NaN 0 ∧ ¬ F.Inf 0 := by
      have h2 : 2 ^ 2 ≤ 2 ^ F.exp := Nat.pow_le_pow_right (by decide) F.exp_ge
      rw [Fmt.NaN, Fmt.Inf, Fmt.expField, Nat.zero_div, Nat.zero_mod]
      omega
    rw [ofFraction, Raw.reduce_undefined _ hf, ok_bind_false, z]
    simp [Fmt.div, n0.1, n0.2, hm]
  · have h2 : 2 ^ 2 ≤ 2 ^ F.exp := Nat.pow_le_pow_right (by decide) F.exp_ge
    have h3 : 2 ^ (F.mant - 1) < 2 ^ F.mant :=
      Nat.pow_lt_pow_right (by decide) (by have := F.mant_pos; omega)
    obtain ⟨e1, e2⟩ := Fmt.fields_of (F := F) (2 ^ F.exp - 1) h3 (by omega)
    refine ⟨e1, ?_⟩
    rw [Fmt.quietNaN, Fmt.infBits, e2]
    exact (Nat.pow_pos (by decide)).ne'

/-- **C61** What the conversion gives for every defined fraction, representable parts or not: both
parts in lowest terms are rounded, and then their quotient is.  A numerator that overflows gives an
infinity, a denominator that overflows gives a zero, and both together a NaN. -/
theorem C61_three_roundings {n d : ℕ} (hq : Denotes f q) (hn : F.Rounded q.num n)
    (hd : F.Rounded q.den d) (h : ofFraction F T f ⇓ b) :
    (F.Finite n → F.Finite d → F.Rounded (F.value n / F.value d) b) ∧
    (F.Inf n → F.Finite d → F.Inf b ∧ F.signField b = if q < 0 then 1 else 0) ∧
    (F.Finite n → F.Inf d → F.Finite b ∧ F.value b = 0 ∧
      F.signField b = if q < 0 then 1 else 0) ∧
    (F.Inf n → F.Inf d → F.NaN b) := by
  obtain ⟨r, hr, h1⟩ := bind_eq_clean.1 h
  have e := reduce_parts hq hr
  subst e
  obtain rfl := pure_eq_ok.1 h1 |>.1
  obtain rfl := (Fmt.rounded_ofInt (F := F) q.num).unique hn
  obtain rfl := (Fmt.rounded_ofInt (F := F) (q.den : ℤ)).unique (by exact_mod_cast hd)
  have hs : F.signField (F.ofInt (q.den : ℤ)) = 0 := by
    rw [hd.sign, if_neg (not_lt.2 (by exact_mod_cast q.pos.le))]
  have hsn : F.signField (F.ofInt q.num) = if q < 0 then 1 else 0 := by
    rw [hn.sign]
    simp only [Int.cast_lt_zero, Rat.num_neg]
  have h1d : (1 : ℚ) ≤ |((q.den : ℤ) : ℚ)| := by
    rw [Int.cast_natCast, abs_of_nonneg (Nat.cast_nonneg _)]
    exact_mod_cast q.pos
  have n1 : ∀ {c}, F.Finite c → ¬ F.NaN c ∧ ¬ F.Inf c := fun hc =>
    ⟨fun h => by have := h.1; have := hc.2; omega, fun h => by have := h.1; have := hc.2; omega⟩
  have n2 : ∀ {c}, F.Inf c → ¬ F.NaN c := fun hc h => h.2 hc.2
  have neg : (F.signField (F.ofInt q.num) != F.signField (F.ofInt (q.den : ℤ))) = decide (q < 0) := by
    rw [hs, hsn]; split <;> simp_all
  have sg : ∀ {p : ℕ}, p < 2 ^ (F.mant + F.exp) →
      F.signField (F.withSign (decide (q < 0)) p) = if q < 0 then 1 else 0 := fun hp => by
    rw [(Fmt.withSign_fields _ hp).2.1]; simp
  refine ⟨fun fn fd => ?_, fun fn fd => ?_, fun fn fd => ?_, fun fn fd => ?_⟩
  · refine Fmt.rounded_div fn fd ?_ ?_
    · intro h0
      have := Fmt.Rounded.one_le_abs (by exact_mod_cast hd) fd h1d
      rw [h0] at this
      norm_num at this
    · intro h0
      have hq0 : q.num = 0 := by
        by_contra hc
        have h2 : (1 : ℚ) ≤ |(q.num : ℚ)| := by exact_mod_cast Int.one_le_abs hc
        have := hn.one_le_abs fn h2
        rw [h0] at this
        norm_num at this
      rw [hs, hsn, if_neg (by rw [← Rat.num_neg, hq0]; exact lt_irrefl _)]
  · have e : F.div (F.ofInt q.num) (F.ofInt (q.den : ℤ)) =
        F.withSign (decide (q < 0)) F.infBits := by
      simp only [Fmt.div, n2 fn, (n1 fd).1, (n1 fd).2, fn, neg, and_false, or_self, if_false,
        if_true]
    rw [e]
    obtain ⟨-, -, e3, e4, -⟩ := Fmt.withSign_fields (decide (q < 0)) (Fmt.infBits_lt F)
    exact ⟨⟨e3 ▸ (Fmt.inf_infBits F).1, e4 ▸ (Fmt.inf_infBits F).2⟩, sg (Fmt.infBits_lt F)⟩
  · have e : F.div (F.ofInt q.num) (F.ofInt (q.den : ℤ)) = F.withSign (decide (q < 0)) 0 := by
      simp only [Fmt.div, n2 fd, (n1 fn).1, (n1 fn).2, fd, neg, false_and, or_self, if_false,
        if_true]
    rw [e]
    have hp : 0 < 2 ^ (F.mant + F.exp) := Nat.pow_pos (by decide)
    obtain ⟨e1, -, e3, -, -⟩ := Fmt.withSign_fields (F := F) (decide (q < 0)) hp
    have h2 : 2 ^ 2 ≤ 2 ^ F.exp := Nat.pow_le_pow_right (by decide) F.exp_ge
    have hz : F.expField 0 = 0 := by simp [Fmt.expField]
    refine ⟨⟨e1, by rw [e3, hz]; omega⟩, ?_, sg hp⟩
    rw [Fmt.value_withSign _ hp, Fmt.magnitude, Fmt.expField, Fmt.mantField]
    simp
  · have e : F.div (F.ofInt q.num) (F.ofInt (q.den : ℤ)) = F.quietNaN := by
      simp only [Fmt.div, fn, fd, and_self, or_true, if_true]
    rw [e]
    have h2 : 2 ^ 2 ≤ 2 ^ F.exp := Nat.pow_le_pow_right (by decide) F.exp_ge
    have h3 : 2 ^ (F.mant - 1) < 2 ^ F.mant :=
      Nat.pow_lt_pow_right (by decide) (by have := F.mant_pos; omega)
    obtain ⟨e1, e2⟩ := Fmt.fields_of (F := F) (2 ^ F.exp - 1) h3 (by omega)
    refine ⟨e1, ?_⟩
    rw [Fmt.quietNaN, Fmt.infBits, e2]
    exact (Nat.pow_pos (by decide)).ne'

example : Denotes ⟨1, 16777219⟩ (1 / 16777219) ∧
    ofFraction binary32 i32 ⟨1, 16777219⟩ ⇓ 0x337FFFFC ∧
    binary32.Finite 0x3F800000 ∧ binary32.Finite 0x4B800002 ∧
    binary32.ofInt 1 = 0x3F800000 ∧ binary32.ofInt 16777219 = 0x4B800002 := by
  refine ⟨by norm_num [Denotes], by decide +kernel, by decide +kernel, by decide +kernel,
    by decide +kernel, by decide +kernel⟩

/-- **C61** With 128-bit parts `float` overflows: the defined fraction
`(2^128 - 1)/(2^128 - 3)` becomes a NaN, and `1/(2^128 - 1)` becomes zero, although both are in
the range of `float`. -/
theorem C61_wide_parts_overflow :
    ofFraction binary32 ⟨false, 128, by decide⟩
      ⟨340282366920938463463374607431768211455, 340282366920938463463374607431768211453⟩ ⇓
      0x7FC00000 ∧ binary32.NaN 0x7FC00000 ∧
    ofFraction binary32 ⟨false, 128, by decide⟩ ⟨1, 340282366920938463463374607431768211455⟩ ⇓ 0 ∧
    ofFraction binary32 ⟨false, 128, by decide⟩ ⟨340282366920938463463374607431768211455, 2⟩ ⇓
      0x7F800000 ∧ binary32.Inf 0x7F800000 := by
  refine ⟨by decide +kernel, by decide +kernel, by decide +kernel, by decide +kernel,
    by decide +kernel⟩

/-- The condition on the parts is needed: `1/16777219` on `int` is converted to `float` by
rounding twice, and the result is not the nearest one. -/
theorem C61_inexact_parts_misrounded :
    ofFraction binary32 i32 ⟨1, 16777219⟩ ⇓ 0x337FFFFC ∧
    ¬ binary32.Rounded (1 / 16777219) 0x337FFFFC := by
  refine ⟨by decide +kernel, fun h => ?_⟩
  have h1 := Fmt.rounded_withSign (F := binary32) (1 / 16777219)
  have h2 := h.unique h1
  revert h2
  decide +kernel

example : ofFraction binary32 i32 ⟨-2, 6⟩ ⇓ 0xBEAAAAAB ∧ Denotes ⟨-2, 6⟩ (-1 / 3) ∧
    binary32.Representable (-1 / 3 : ℚ).num ∧ binary32.Representable (-1 / 3 : ℚ).den ∧
    i32.bits ≤ binary64.mant + 1 ∧ (binary64.mant : ℤ) < binary64.bias ∧
    i64.bits ≤ extended80.mant + 1 ∧ (extended80.mant : ℤ) < extended80.bias ∧
    ofFraction binary64 i32 ⟨1, 3⟩ ⇓ 0x3FD5555555555555 ∧
    ofFraction binary32 i32 ⟨7, 0⟩ ⇓ 0x7FC00000 := by
  refine ⟨by decide +kernel, ⟨by decide, by norm_num⟩, ?_, ?_, by decide +kernel⟩
  · rw [show (-1 / 3 : ℚ).num = -1 by decide +kernel]
    exact Fmt.representable_int (by decide) (by decide)
  · rw [show (-1 / 3 : ℚ).den = 3 by decide +kernel]
    exact Fmt.representable_int (n := 3) (by decide) (by decide)

/-! ## Round trips -/

/-- A representable fraction is converted exactly. -/
theorem C62_to_floating_exact (hT : (T.bits : ℤ) ≤ F.bias) (hq : Denotes f q)
    (hx : F.Representable q) (h : ofFraction F T f ⇓ b) : F.Finite b ∧ F.value b = q := by
  obtain ⟨r, hr, -⟩ := bind_eq_clean.1 h
  have hi := Raw.reduce_inRange hr
  have e := reduce_parts hq hr
  subst e
  obtain ⟨h1, h2⟩ := reduce_representable_parts hT hx hi.1 hi.2
  have := C61_correctly_rounded hq h1 h2 h
  exact ⟨this.finite hx.lt, this.exact hx⟩

/-- **C62** A fraction that the format represents exactly comes back with its value, on every
representation of at most `bias` bits (127 for `float`, 1023 for `double`).  Zero and
subnormal numbers do not come back: that conversion does not finish (`C59`). -/
theorem C62_fraction_round_trip (hT : (T.bits : ℤ) ≤ F.bias) (hq : Denotes f q)
    (hx : F.Representable q) (h : ofFraction F T f ⇓ b)
    (h' : toFraction .little F T o b ⇓ r) : Denotes r q := by
  obtain ⟨h1, rfl⟩ := C62_to_floating_exact hT hq hx h
  by_cases h0 : F.expField b = 0
  · exact absurd ⟨_, _, h'⟩ (C59_tiny_never_finishes hT h0)
  · exact C58_normal_exact ⟨Nat.pos_of_ne_zero h0, h1.2⟩ h'

/-- **C62** A normal floating-point number that is converted to a fraction and back is the
same number, bit for bit. -/
theorem C62_float_round_trip (hT : (T.bits : ℤ) ≤ F.bias) (hv : F.Valid b) (hb : F.Normal b)
    (h : toFraction .little F T o b ⇓ r) (h' : ofFraction F T r ⇓ c) : c = b := by
  have hd := C58_normal_exact hb h
  have hfb : F.Finite b := ⟨hv, hb.2⟩
  obtain ⟨h1, h2⟩ := C62_to_floating_exact hT hd ⟨b, hfb, rfl⟩ h'
  refine Fmt.value_inj h1 hfb ?_ h2
  have hm : F.magnitude b ≠ 0 := by
    have hz : (0 : ℚ) < 2 ^ ((F.expField b : ℤ) - F.bias) := Fmt.two_zpow_pos _
    rw [Fmt.magnitude, if_neg (by have := hb.1; omega)]
    positivity
  have hmc : F.magnitude c = F.magnitude b := by rw [← Fmt.abs_value, ← Fmt.abs_value, h2]
  rw [Fmt.value, Fmt.value, hmc] at h2
  have := mul_right_cancel₀ hm h2
  rw [Fmt.sgn, Fmt.sgn] at this
  have sx : F.signField c = 0 ∨ F.signField c = 1 := by rw [Fmt.signField]; omega
  have sy : F.signField b = 0 ∨ F.signField b = 1 := by rw [Fmt.signField]; omega
  rcases sx with e | e <;> rcases sy with e' | e' <;> rw [e, e'] at this ⊢ <;> norm_num at this

example : (i64.bits : ℤ) ≤ binary32.bias ∧
    ofFraction binary32 i64 ⟨-10, 16⟩ ⇓ 0xBF200000 ∧ binary32.Finite 0xBF200000 ∧
    toFraction .little binary32 i64 .fast 0xBF200000 ⇓ ⟨-10485760, 16777216⟩ ∧
    binary32.Normal 0xC0490FDB ∧ binary32.Valid 0xC0490FDB ∧
    toFraction .little binary32 i32 .defaults 0xC0490FDB ⇓ ⟨-13176795, 4194304⟩ ∧
    ofFraction binary32 i32 ⟨-13176795, 4194304⟩ ⇓ 0xC0490FDB := by decide +kernel

end Ieme
