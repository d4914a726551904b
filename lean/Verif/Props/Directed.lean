import Verif.Lemmas.DirectedMore
import Verif.Props.FloatRounding

/-!
# Conversion to floating point in the four rounding directions: properties C104 and C105

`F.RoundedTo d q b` (in `Verif/Spec/Directed.lean`) says that `b` is the correctly rounded
pattern of the number `q` in direction `d`; `ofFractionTo F T d` is `to_float`, `to_double` or
`to_long_double` in a program that has selected direction `d` with `std::fesetround`.
-/

namespace Ieme

open Res IntTy FloatingPoint

variable {F : Fmt} {T : IntTy} {o : Ops} {f g r : Raw} {b c : ℕ} {q x y : ℚ} {d : Direction}

/-- **C104** In the default direction the conversion is the one of C61, C62 and C74. -/
theorem C104_default_direction (F : Fmt) (T : IntTy) (f : Raw) :
    ofFractionTo F T .nearest f = ofFraction F T f := rfl

/-- **C104** Correct rounding determines the pattern, in each direction. -/
theorem C104_rounded_unique (hb : F.RoundedTo d q b) (hc : F.RoundedTo d q c) : b = c :=
  hb.unique hc

/-- **C104** The direction has no influence on whether the conversion finishes. -/
theorem C104_finishes_alike : (∃ b, ofFractionTo F T d f ⇓ b) ↔ ∃ b, ofFraction F T f ⇓ b := by
  have key : ∀ d', (∃ b, ofFractionTo F T d' f ⇓ b) ↔ ∃ r, f.reduce T .normalizeSigns ⇓ r := by
    intro d'
    constructor
    · rintro ⟨b, h⟩
      obtain ⟨r, hr, -⟩ := bind_eq_clean.1 h
      exact ⟨r, hr⟩
    · rintro ⟨r, hr⟩
      exact ⟨_, by rw [ofFractionTo, hr, ok_bind_false]; rfl⟩
  rw [key, ← key .nearest]
  rfl

example : ofFractionTo binary32 i32 .upward ⟨2, 6⟩ ⇓ 0x3EAAAAAB ∧
    ofFractionTo binary32 i32 .downward ⟨2, 6⟩ ⇓ 0x3EAAAAAA ∧
    ofFraction binary32 i32 ⟨2, 6⟩ ⇓ 0x3EAAAAAB := by
  refine ⟨by decide +kernel, by decide +kernel, by decide +kernel⟩

/-- **C104, partial.**  Full claim: in each rounding direction the result is the fraction
correctly rounded in that direction.  Proved if the parts in lowest terms are exactly
representable; false otherwise, see `C104_downward_goes_above`. -/
theorem C104_rounded_partial (hq : Denotes f q) (hn : F.Representable q.num)
    (hd : F.Representable q.den) (h : ofFractionTo F T d f ⇓ b) : F.RoundedTo d q b := by
  obtain ⟨r, hr, h1⟩ := bind_eq_clean.1 h
  have e := reduce_parts hq hr
  subst e
  obtain rfl := pure_eq_ok.1 h1 |>.1
  have := Fmt.roundedTo_quotient (F := F) d (n := q.num) (m := q.den) hn
    (by exact_mod_cast hd) (by exact_mod_cast q.pos)
  rwa [Int.cast_natCast, Rat.num_div_den] at this

/-- **C104** If the representation has no more bits than the significand, every defined
fraction is correctly rounded in each direction: `int` to `double`, `int64_t` to
`long double` on x86. -/
theorem C104_narrow_rounded (hT : T.bits ≤ F.mant + 1) (hF : (F.mant : ℤ) < F.bias)
    (hq : Denotes f q) (h : ofFractionTo F T d f ⇓ b) : F.RoundedTo d q b := by
  obtain ⟨r, hr, -⟩ := bind_eq_clean.1 h
  have hi := Raw.reduce_inRange hr
  have e := reduce_parts hq hr
  subst e
  have hle : 2 ^ T.bits ≤ 2 ^ (F.mant + 1) := Nat.pow_le_pow_right (by decide) hT
  refine C104_rounded_partial hq ?_ ?_ h
  · exact Fmt.representable_int ((IntTy.natAbs_lt_pow hi.1).le.trans hle) hF
  · have := Fmt.representable_int (F := F) (n := q.den) ((IntTy.natAbs_lt_pow hi.2).le.trans hle) hF
    exact_mod_cast this

/-- **C104** A fraction that the format represents exactly is converted exactly, in each
direction. -/
theorem C104_exact (hT : (T.bits : ℤ) ≤ F.bias) (hq : Denotes f q)
    (hx : F.Representable q) (h : ofFractionTo F T d f ⇓ b) : F.Finite b ∧ F.value b = q := by
  obtain ⟨r, hr, -⟩ := bind_eq_clean.1 h
  have hi := Raw.reduce_inRange hr
  have e := reduce_parts hq hr
  subst e
  obtain ⟨h1, h2⟩ := reduce_representable_parts hT hx hi.1 hi.2
  exact (C104_rounded_partial hq h1 h2 h).exact hx

/-- **C104** A normal floating-point number that is converted to a fraction and back is the
same number, bit for bit, whatever the direction. -/
theorem C104_float_round_trip (hT : (T.bits : ℤ) ≤ F.bias) (hv : F.Valid b) (hb : F.Normal b)
    (h : toFraction .little F T o b ⇓ r) (h' : ofFractionTo F T d r ⇓ c) : c = b := by
  have hden := C58_normal_exact hb h
  have hx : F.Representable (F.value b) := ⟨b, ⟨hv, hb.2⟩, rfl⟩
  obtain ⟨c', hc'⟩ := C104_finishes_alike.1 ⟨c, h'⟩
  have e := C62_float_round_trip hT hv hb h hc'
  obtain ⟨s, hs, -⟩ := bind_eq_clean.1 h'
  have hi := Raw.reduce_inRange hs
  have e' := reduce_parts hden hs
  subst e'
  obtain ⟨h1, h2⟩ := reduce_representable_parts hT hx hi.1 hi.2
  have r1 := C104_rounded_partial hden h1 h2 h'
  have r2 := C61_correctly_rounded hden h1 h2 hc'
  obtain ⟨f1, v1⟩ := r1.exact hx
  rw [e] at r2
  exact Fmt.value_inj f1 ⟨hv, hb.2⟩ (by rw [r1.2.1, r2.sign]) v1

/-- **C104, partial.**  Full claim: converting downward and upward brackets the value of the
fraction, and as tightly as the format allows.  Proved if the parts in lowest terms are exactly
representable and both results are finite; false otherwise, see `C104_downward_goes_above`. -/
theorem C104_brackets_partial (hq : Denotes f q) (hn : F.Representable q.num)
    (hd : F.Representable q.den) (hb : ofFractionTo F T .downward f ⇓ b)
    (hc : ofFractionTo F T .upward f ⇓ c) (fb : F.Finite b) (fc : F.Finite c) :
    F.value b ≤ q ∧ q ≤ F.value c ∧
      ∀ z, F.Finite z → ¬ (F.value b < F.value z ∧ F.value z < F.value c) := by
  have n : ∀ {p}, F.Finite p → ¬ F.Inf p := fun hp h => by have := h.1; have := hp.2; omega
  obtain ⟨-, -, ⟨h, -⟩ | ⟨-, b1, b2⟩⟩ := C104_rounded_partial hq hn hd hb
  · exact absurd h (n fb)
  obtain ⟨-, -, ⟨h, -⟩ | ⟨-, c1, c2⟩⟩ := C104_rounded_partial hq hn hd hc
  · exact absurd h (n fc)
  refine ⟨b1, c1, fun z hz h => ?_⟩
  rcases le_total (F.value z) q with h' | h'
  · exact absurd h.1 (not_lt.2 (b2 z hz h'))
  · exact absurd h.2 (not_lt.2 (c2 z hz h'))

/-- **C104, refuted in general.**  Converted downward to `float` on `int`, `1/16777217`
becomes the larger number `1/16777216`, since the denominator, too, is rounded downward; and
converted upward, `-1/16777217` becomes the smaller number `-1/16777216`. -/
theorem C104_downward_goes_above :
    ofFractionTo binary32 i32 .downward ⟨1, 16777217⟩ ⇓ 0x33800000 ∧
    binary32.Finite 0x33800000 ∧ binary32.value 0x33800000 = 1 / 16777216 ∧
    (1 / 16777217 : ℚ) < 1 / 16777216 ∧
    ofFractionTo binary32 i32 .towardZero ⟨-1, 16777217⟩ ⇓ 0xB3800000 ∧
    binary32.value 0xB3800000 = -1 / 16777216 := by
  refine ⟨by decide +kernel, by decide +kernel, by decide +kernel, by norm_num,
    by decide +kernel, by decide +kernel⟩

/-- **C104, partial.**  Full claim: in each direction a larger fraction never becomes a smaller
number.  Proved if the parts in lowest terms are exactly representable; false otherwise, see
`C74_not_monotone`. -/
theorem C104_monotone_partial (hx : Denotes f x) (hy : Denotes g y)
    (rx : F.Representable x.num ∧ F.Representable x.den)
    (ry : F.Representable y.num ∧ F.Representable y.den) (hxy : x ≤ y)
    (hb : ofFractionTo F T d f ⇓ b) (hc : ofFractionTo F T d g ⇓ c) : F.Le b c :=
  (C104_rounded_partial hx rx.1 rx.2 hb).mono (C104_rounded_partial hy ry.1 ry.2 hc) hxy

/-- **C104** For fractions that are not negative, rounding downward and rounding toward zero
are the same, whatever the parts. -/
theorem C104_nonneg_downward (hq : Denotes f q) (h0 : 0 ≤ q)
    (hb : ofFractionTo F T .downward f ⇓ b) (hc : ofFractionTo F T .towardZero f ⇓ c) : b = c := by
  obtain ⟨r, hr, h1⟩ := bind_eq_clean.1 hb
  obtain ⟨s, hs, h2⟩ := bind_eq_clean.1 hc
  have e := reduce_parts hq hr
  have e' := reduce_parts hq hs
  subst e e'
  obtain rfl := pure_eq_ok.1 h1 |>.1
  obtain rfl := pure_eq_ok.1 h2 |>.1
  have hn : ¬ q.num < 0 := not_lt.2 (Rat.num_nonneg.2 h0)
  have hd : ¬ (q.den : ℤ) < 0 := by omega
  have e1 : ∀ n : ℤ, ¬ n < 0 → F.ofIntTo .downward n = F.ofIntTo .towardZero n := fun n hn => by
    rw [Fmt.ofIntTo, Fmt.ofIntTo, decide_eq_false hn]; rfl
  have sg : ∀ n : ℤ, ¬ n < 0 → F.signField (F.ofIntTo .towardZero n) = 0 := fun n hn => by
    rw [(Fmt.roundedTo_ofInt (F := F) .towardZero n).2.1, if_neg (by exact_mod_cast hn)]
  rw [e1 _ hn, e1 _ hd, Fmt.divTo, Fmt.divTo, sg _ hn, sg _ hd]
  rfl

example : Denotes ⟨2, -6⟩ (-1 / 3) ∧ binary32.Representable (-1 / 3 : ℚ).num ∧
    binary32.Representable (-1 / 3 : ℚ).den ∧
    ofFractionTo binary32 i32 .downward ⟨2, -6⟩ ⇓ 0xBEAAAAAB ∧
    ofFractionTo binary32 i32 .upward ⟨2, -6⟩ ⇓ 0xBEAAAAAA ∧
    ofFractionTo binary32 i32 .towardZero ⟨2, -6⟩ ⇓ 0xBEAAAAAA ∧
    binary32.Finite 0xBEAAAAAB ∧ binary32.Finite 0xBEAAAAAA ∧
    i32.bits ≤ binary64.mant + 1 ∧ (binary64.mant : ℤ) < binary64.bias ∧
    ofFractionTo binary64 i32 .upward ⟨1, 3⟩ ⇓ 0x3FD5555555555556 ∧
    ofFractionTo binary64 i32 .towardZero ⟨1, 3⟩ ⇓ 0x3FD5555555555555 ∧
    ofFractionTo binary64 i32 .downward ⟨1, 3⟩ ⇓ 0x3FD5555555555555 ∧
    (i64.bits : ℤ) ≤ binary32.bias ∧ ofFractionTo binary32 i64 .upward ⟨-10, 16⟩ ⇓ 0xBF200000 ∧
    binary32.Valid 0xC0490FDB ∧ binary32.Normal 0xC0490FDB ∧
    toFraction .little binary32 i32 .defaults 0xC0490FDB ⇓ ⟨-13176795, 4194304⟩ ∧
    ofFractionTo binary32 i32 .downward ⟨-13176795, 4194304⟩ ⇓ 0xC0490FDB := by
  refine ⟨⟨by decide, by norm_num⟩, ?_, ?_, by decide +kernel⟩
  · rw [show (-1 / 3 : ℚ).num = -1 by decide +kernel]
    exact Fmt.representable_int (by decide) (by decide)
  · rw [show (-1 / 3 : ℚ).den = 3 by decide +kernel]
    exact Fmt.representable_int (n := 3) (by decide) (by decide)

/-! ## Error bounds -/

/-- **C105** For every defined fraction that is not zero, whatever its parts, the conversion
gives a finite number, and its relative error is at most `(1 + u)²/(1 - u) - 1`, where `u` is
the error of a single rounding.  The representation must be two binades narrower than the
exponent range: up to 126 bits for `float`, 1022 for `double`. -/
theorem C105_relative_error (hT : (T.bits : ℤ) < F.bias) (hq : Denotes f q) (h0 : q ≠ 0)
    (h : ofFractionTo F T d f ⇓ b) :
    F.Finite b ∧ |F.value b - q| ≤ ((1 + F.unit d) ^ 2 / (1 - F.unit d) - 1) * |q| := by
  obtain ⟨r, hr, h1⟩ := bind_eq_clean.1 h
  have hi := Raw.reduce_inRange hr
  have e := reduce_parts hq hr
  subst e
  obtain rfl := pure_eq_ok.1 h1 |>.1
  exact Fmt.quotient_error hT (Rat.num_ne_zero.2 h0) (Int.natCast_pos.2 q.pos)
    (IntTy.natAbs_lt_pow hi.1).le (IntTy.natAbs_lt_pow hi.2).le (by simp [Rat.num_div_den])

/-- **C105** In round numbers: at most four units, if the significand has a few bits. -/
theorem C105_four_units (hT : (T.bits : ℤ) < F.bias) (hu : 5 * F.unit d ≤ 1) (hq : Denotes f q)
    (h : ofFractionTo F T d f ⇓ b) : F.Finite b ∧ |F.value b - q| ≤ 4 * F.unit d * |q| := by
  rcases eq_or_ne q 0 with rfl | h0
  · obtain ⟨f1, e1⟩ := C104_exact hT.le hq (by
      obtain ⟨c, hc, -⟩ := Fmt.representable_one (F := F) false
      have := Fmt.representable_grid (F := F) (k := 0) (j := 0) false (Nat.pow_pos (by decide))
        (by have := Fmt.bias_pos F; omega) (by
          rw [Nat.cast_zero, zero_mul]
          exact (abs_nonneg _).trans_lt (Fmt.Representable.lt ⟨c, hc, rfl⟩))
      simpa using this) h
    exact ⟨f1, by simp [e1]⟩
  · obtain ⟨f1, e1⟩ := C105_relative_error hT hq h0 h
    refine ⟨f1, e1.trans (mul_le_mul_of_nonneg_right ?_ (abs_nonneg _))⟩
    have u0 := Fmt.unit_pos F d
    rw [sub_le_iff_le_add, div_le_iff₀ (by linarith)]
    nlinarith

/-- **C105** The factor is not far from what happens: on `int`, `16785211/16781193` is
converted to `float` with an error of more than 2.9 units. -/
theorem C105_nearly_attained :
    ofFraction binary32 i32 ⟨16785211, 16781193⟩ ⇓ 0x3F8007DA ∧
    29 / 10 * binary32.unit .nearest * |(16785211 / 16781193 : ℚ)| <
      |binary32.value 0x3F8007DA - 16785211 / 16781193| := by
  refine ⟨by decide +kernel, by decide +kernel⟩

/-- **C105** A correctly rounded result is within one unit: this is what representable parts
gain. -/
theorem C105_representable_parts (hT : (T.bits : ℤ) < F.bias) (hq : Denotes f q) (h0 : q ≠ 0)
    (hn : F.Representable q.num) (hd : F.Representable q.den) (h : ofFractionTo F T d f ⇓ b) :
    |F.value b - q| ≤ F.unit d * |q| := by
  obtain ⟨f1, -⟩ := C105_relative_error hT hq h0 h
  have hr := C104_rounded_partial hq hn hd h
  obtain ⟨r, hr', -⟩ := bind_eq_clean.1 h
  have hi := Raw.reduce_inRange hr'
  have e := reduce_parts hq hr'
  subst e
  have bn := IntTy.natAbs_lt_pow hi.1
  have bd := IntTy.natAbs_lt_pow hi.2
  simp only at bn bd
  have hp : (0 : ℚ) < 2 ^ T.bits := by positivity
  have habs : |q| = (q.num.natAbs : ℚ) / q.den := by
    conv_lhs => rw [← Rat.num_div_den q]
    rw [abs_div, Nat.abs_cast, ← Int.cast_abs, ← Int.natCast_natAbs, Int.cast_natCast]
  have hden : (1 : ℚ) ≤ q.den := by exact_mod_cast q.pos
  have hnum : (1 : ℚ) ≤ (q.num.natAbs : ℚ) := by
    exact_mod_cast Int.natAbs_pos.2 (Rat.num_ne_zero.2 h0)
  have hden' : (q.den : ℚ) ≤ 2 ^ T.bits := by exact_mod_cast (by simpa using bd.le)
  have hnum' : (q.num.natAbs : ℚ) ≤ 2 ^ T.bits := by exact_mod_cast bn.le
  refine hr.error f1 ?_ ?_
  · rw [habs, le_div_iff₀ (by linarith)]
    have h3 : (2 : ℚ) ^ (1 - F.bias) * 2 ^ T.bits ≤ 1 := by
      rw [← zpow_natCast, ← zpow_add₀ (by norm_num)]
      have := zpow_le_zpow_right₀ (a := (2 : ℚ)) (by norm_num) (show 1 - F.bias + T.bits ≤ 0 by omega)
      rwa [zpow_zero] at this
    exact (mul_le_mul_of_nonneg_left hden' (Fmt.two_zpow_pos _).le).trans (h3.trans hnum)
  · rw [habs, div_lt_iff₀ (by linarith)]
    have h3 : (2 : ℚ) ^ T.bits < 2 ^ (F.bias + 1) := by
      rw [← zpow_natCast]
      exact zpow_lt_zpow_right₀ (by norm_num) (by omega)
    have h4 := (Fmt.two_zpow_pos (F.bias + 1))
    nlinarith

example : (i32.bits : ℤ) < binary32.bias ∧ 5 * binary32.unit .nearest ≤ 1 ∧
    5 * binary32.unit .upward ≤ 1 ∧ 5 * binary64.unit .downward ≤ 1 ∧
    5 * binary128.unit .towardZero ≤ 1 ∧ (i64.bits : ℤ) < binary64.bias ∧
    Denotes ⟨16785211, 16781193⟩ (16785211 / 16781193) ∧
    ofFractionTo binary32 i32 .upward ⟨16785211, 16781193⟩ ⇓ 0x3F8007D9 := by
  refine ⟨by decide, by decide +kernel, by decide +kernel, by decide +kernel, by decide +kernel,
    by decide, by norm_num [Denotes], by decide +kernel⟩

end Ieme
