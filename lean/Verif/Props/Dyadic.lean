import Verif.Lemmas.Dyadic
import Verif.Props.LiteralExact
import Verif.Props.FloatRounding

/-!
# C117: fractions over a power of two are always rounded once

`C61` asks that numerator and denominator in lowest terms be exactly representable.  If the
denominator is a power of two the numerator need not be: rounding it and then dividing by a power
of two is the same as rounding the quotient.
-/

namespace Ieme
open Res IntTy Parse FloatingPoint

variable {F G : Fmt} {T : IntTy} {o : Ops} {q : ℚ} {f r : Raw} {b c k : ℕ}

/-- **C117** With a power of two below, that the format holds, and a numerator that does not
overflow, the conversion to floating point is correctly rounded. -/
theorem C117_power_of_two (hF : (F.mant : ℤ) < F.bias) (hq : Denotes f q) (hd : q.den = 2 ^ k)
    (hk : (k : ℤ) ≤ F.bias) (hn : |(q.num : ℚ)| < F.overflowBound) (h : ofFraction F T f ⇓ b) :
    F.Rounded q b := by
  obtain ⟨s, hs, h1⟩ := bind_eq_clean.1 h
  have e := reduce_parts hq hs
  subst e
  obtain rfl := pure_eq_ok.1 h1 |>.1
  have := Fmt.rounded_dyadic (F := F) (n := q.num) hn hk hF
  have e2 : ((q.den : ℤ)) = 2 ^ k := by rw [hd]; push_cast; rfl
  have e3 : (q.num : ℚ) / 2 ^ k = q := by
    conv_rhs => rw [← Rat.num_div_den q, hd]
    push_cast
    rfl
  rw [e3] at this
  simpa only [e2] using this

/-- **C117** On representations of at most `bias` bits (127 for `float`, 1023 for `double`) nothing
else is needed, in every rounding direction. -/
theorem C117_directed (d : Direction) (hF : (F.mant : ℤ) < F.bias) (hT : (T.bits : ℤ) ≤ F.bias)
    (hq : Denotes f q) (hd : IsDyadic q) (h : ofFractionTo F T d f ⇓ b) : F.RoundedTo d q b := by
  obtain ⟨k, hd⟩ := hd
  obtain ⟨s, hs, h1⟩ := bind_eq_clean.1 h
  have hi := Raw.reduce_inRange hs
  have e := reduce_parts hq hs
  subst e
  obtain rfl := pure_eq_ok.1 h1 |>.1
  have hk : k < T.bits := by
    have h2 := natAbs_lt_pow hi.2
    rw [Int.natAbs_natCast, hd] at h2
    exact (Nat.pow_lt_pow_iff_right (by decide)).1 h2
  have hn : |(q.num : ℚ)| < 2 ^ F.bias := by
    have h2 := natAbs_lt_pow hi.1
    have h3 : |(q.num : ℚ)| < 2 ^ (T.bits : ℤ) := by
      rw [← Int.cast_abs, Int.abs_eq_natAbs, Int.cast_natCast]
      exact_mod_cast h2
    exact h3.trans_le (zpow_le_zpow_right₀ (by norm_num) hT)
  have := Fmt.roundedTo_dyadic (F := F) d (n := q.num) (k := k) hn (by omega) hF
  have e2 : ((q.den : ℤ)) = 2 ^ k := by rw [hd]; push_cast; rfl
  have e3 : (q.num : ℚ) / 2 ^ k = q := by
    conv_rhs => rw [← Rat.num_div_den q, hd]
    push_cast
    rfl
  rw [e3] at this
  simpa only [e2] using this

/-- **C117** The same in the default direction. -/
theorem C117_dyadic (hF : (F.mant : ℤ) < F.bias) (hT : (T.bits : ℤ) ≤ F.bias)
    (hq : Denotes f q) (hd : IsDyadic q) (h : ofFraction F T f ⇓ b) : F.Rounded q b :=
  (C117_directed .nearest hF hT hq hd h).2.2

/-- `9007199254740993 / 2`: the numerator is `2 ^ 53 + 1`, which `double` does not hold. -/
example : Denotes ⟨9007199254740993, 2⟩ (9007199254740993 / 2) ∧
    IsDyadic (9007199254740993 / 2) ∧
    ofFraction binary64 i64 ⟨9007199254740993, 2⟩ ⇓ 0x4330000000000000 ∧
    ofFractionTo binary64 i64 .upward ⟨9007199254740993, 2⟩ ⇓ 0x4330000000000001 ∧
    ¬ binary64.Representable 9007199254740993 := by
  refine ⟨⟨by decide, by norm_num⟩, ⟨1, by decide +kernel⟩, by decide +kernel, by decide +kernel, ?_⟩
  intro h
  have h1 := (Fmt.rounded_withSign (F := binary64) 9007199254740993).exact h
  revert h1
  decide +kernel

/-- **C117** That the numerator does not overflow is needed: over the 128-bit unsigned type `float`
turns `(2 ^ 128 - 1) / 2` into infinity. -/
theorem C117_numerator_overflow :
    ofFraction binary32 ⟨false, 128, by decide⟩ ⟨340282366920938463463374607431768211455, 2⟩ ⇓
      0x7F800000 ∧
    IsDyadic (340282366920938463463374607431768211455 / 2) ∧
    ¬ binary32.Rounded (340282366920938463463374607431768211455 / 2) 0x7F800000 := by
  refine ⟨by decide +kernel, ⟨1, by decide +kernel⟩, fun h => ?_⟩
  have h1 := (h.finite (by decide +kernel)).2
  revert h1
  decide +kernel

/-- **C117** A hexadecimal literal, converted to any format with at least eight exponent bits, is
rounded once, whatever its digits and exponent. -/
theorem C117_hex_literal {l : FloatLit} (hF : (F.mant : ℤ) < F.bias) (hT : 64 ≤ F.bias)
    (hv : l.Valid) (hp : l.point = true) (hx : l.hexPrefix.isSome) (h : dec l.render ⇓ r)
    (hb : ofFraction F i64 r ⇓ b) : F.Rounded l.value b := by
  obtain ⟨-, e⟩ := C94_dec_lowest_terms hv hp h
  refine C117_dyadic hF hT ?_ (FloatLit.dyadic hx) hb
  rw [e]
  exact ⟨by simp, by push_cast; exact Rat.num_div_den _⟩

/-- The second literal has more digits than `float` holds. -/
example : exampleHexLit.Valid ∧ exampleHexLit.point = true ∧ exampleHexLit.hexPrefix.isSome ∧
    dec exampleHexLit.render ⇓ ⟨200, 1⟩ ∧ ofFraction binary32 i64 ⟨200, 1⟩ ⇓ 0x43480000 ∧
    dec "0x1234567.89p-4".toList ⇓ ⟨4886718345, 4096⟩ ∧
    ofFraction binary32 i64 ⟨4886718345, 4096⟩ ⇓ 0x4991A2B4 := by
  refine ⟨exampleHexLit_valid, rfl, rfl, by decide +kernel, by decide +kernel, by decide +kernel,
    by decide +kernel⟩

/-- **C117** Expressions without division whose fractions are dyadic are rounded once. -/
theorem C117_expression {e : Expr} (hF : (F.mant : ℤ) < F.bias) (hT : (T.bits : ℤ) ≤ F.bias)
    (he : e.eval T o ⇓ r) (hq : e.value = some q) (hu : e.Undivided) (hb : ofFraction F T r ⇓ b) :
    F.Rounded q b :=
  C117_dyadic hF hT (C11_expressions_exact he hq) (hu.dyadic hq) hb

/-- `3/4 * 5/8 - 7` -/
example : (Expr.fr .minus (.ff .multiplies (.lit ⟨3, 4⟩) (.lit ⟨5, 8⟩)) 7).Undivided ∧
    (Expr.fr .minus (.ff .multiplies (.lit ⟨3, 4⟩) (.lit ⟨5, 8⟩)) 7).eval i64 .defaults ⇓
      ⟨-209, 32⟩ ∧
    (Expr.fr .minus (.ff .multiplies (.lit ⟨3, 4⟩) (.lit ⟨5, 8⟩)) 7).value = some (-209 / 32) ∧
    ofFraction binary64 i64 ⟨-209, 32⟩ ⇓ 0xC01A200000000000 := by
  refine ⟨⟨by decide, ⟨by decide, ?_, ?_⟩⟩, by decide +kernel, ?_, by decide +kernel⟩
  · intro q h
    rw [litValue, if_neg (by decide)] at h
    cases h
    exact ⟨2, by decide +kernel⟩
  · intro q h
    rw [litValue, if_neg (by decide)] at h
    cases h
    exact ⟨3, by decide +kernel⟩
  · norm_num [Expr.value, litValue, ArithOp.value]

/-- **C117** A normal floating-point number of one format that becomes a fraction and then a number
of another format is rounded once: `to_float(fraction(x))` is the `float` nearest to the
`double` `x`. -/
theorem C117_change_format (hF : (F.mant : ℤ) < F.bias) (hT : (T.bits : ℤ) ≤ F.bias)
    (hv : G.Valid b) (hb : G.Normal b) (h : toFraction .little G T o b ⇓ r)
    (h' : ofFraction F T r ⇓ c) : F.Rounded (G.value b) c :=
  C117_dyadic hF hT (C58_normal_exact hb h) (.of_representable ⟨b, ⟨hv, hb.2⟩, rfl⟩) h'

/-- The `double` nearest to 0.1 becomes the nearest `float`. -/
example : binary64.Valid 0x3FB999999999999A ∧ binary64.Normal 0x3FB999999999999A ∧
    toFraction .little binary64 i64 .defaults 0x3FB999999999999A ⇓ ⟨3602879701896397, 36028797018963968⟩ ∧
    ofFraction binary32 i64 ⟨3602879701896397, 36028797018963968⟩ ⇓ 0x3DCCCCCD := by
  refine ⟨by decide +kernel, by decide +kernel, by decide +kernel, by decide +kernel⟩

end Ieme
