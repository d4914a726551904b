import Verif.Lemmas.FloatMonotone
import Verif.Props.FloatRounding

/-!
# Order and sign under conversion to floating point: property C74

`F.Le b c` (in `Verif/Spec/FloatRounding.lean`) is `b <= c` for floating-point numbers.
-/

namespace Ieme

open Res IntTy FloatingPoint

variable {F : Fmt} {T : IntTy} {f g : Raw} {b c : ℕ} {x y : ℚ}

/-- **C74, partial.**  Full claim: if the value of `f` is at most that of `g`, then
`to_float(f) <= to_float(g)`.  Proved for fractions whose parts in lowest terms are exactly
representable; false otherwise, see `C74_not_monotone`. -/
theorem C74_monotone_partial (hx : Denotes f x) (hy : Denotes g y)
    (rx : F.Representable x.num ∧ F.Representable x.den)
    (ry : F.Representable y.num ∧ F.Representable y.den) (hxy : x ≤ y)
    (hb : ofFraction F T f ⇓ b) (hc : ofFraction F T g ⇓ c) : F.Le b c :=
  (C61_correctly_rounded hx rx.1 rx.2 hb).mono (C61_correctly_rounded hy ry.1 ry.2 hc) hxy

/-- **C74** Without condition, if the representation has no more bits than the significand:
`int` to `double`, `int64_t` to `long double` on x86. -/
theorem C74_narrow_monotone (hT : T.bits ≤ F.mant + 1) (hF : (F.mant : ℤ) < F.bias)
    (hx : Denotes f x) (hy : Denotes g y) (hxy : x ≤ y)
    (hb : ofFraction F T f ⇓ b) (hc : ofFraction F T g ⇓ c) : F.Le b c :=
  (C61_narrow_always_rounded hT hF hx hb).mono (C61_narrow_always_rounded hT hF hy hc) hxy

/-- **C74, refuted in general.**  `16777216/16777217 < 16777217/16777218`, but on `int` the
smaller one is converted to the `float` `1` and the larger one to the `float` below. -/
theorem C74_not_monotone :
    (16777216 / 16777217 : ℚ) < 16777217 / 16777218 ∧
    ofFraction binary32 i32 ⟨16777216, 16777217⟩ ⇓ 0x3F800000 ∧
    ofFraction binary32 i32 ⟨16777217, 16777218⟩ ⇓ 0x3F7FFFFE ∧
    ¬ binary32.Le 0x3F800000 0x3F7FFFFE := by
  refine ⟨by norm_num, by decide +kernel, by decide +kernel, ?_⟩
  rintro (⟨h, -⟩ | ⟨h, -⟩ | ⟨-, -, h⟩)
  · revert h; decide +kernel
  · revert h; decide +kernel
  · revert h; decide +kernel

/-- **C74** The result depends on the value only, whatever the parts. -/
theorem C74_value_only (h : SameValue f g) (hb : ofFraction F T f ⇓ b)
    (hc : ofFraction F T g ⇓ c) : b = c := by
  obtain ⟨q, h1, h2⟩ := h
  obtain ⟨r, hr, e1⟩ := bind_eq_clean.1 hb
  obtain ⟨s, hs, e2⟩ := bind_eq_clean.1 hc
  rw [reduce_parts h1 hr] at e1
  rw [reduce_parts h2 hs] at e2
  rw [e1] at e2
  exact (Res.ok.inj e2).1

/-- **C74** Fractions with opposite values become floating-point numbers that differ in the
sign bit only. -/
theorem C74_opposite (hx : Denotes f x) (hy : Denotes g (-x)) (h0 : 0 < x)
    (hb : ofFraction F T f ⇓ b) (hc : ofFraction F T g ⇓ c) (hn : ¬ F.NaN b) :
    c = 2 ^ (F.mant + F.exp) + b := by
  obtain ⟨r, hr, e1⟩ := bind_eq_clean.1 hb
  obtain ⟨s, hs, e2⟩ := bind_eq_clean.1 hc
  rw [reduce_parts hx hr] at e1
  rw [reduce_parts hy hs] at e2
  simp only [pure_eq_ok, and_true] at e1 e2
  subst e1 e2
  rw [Rat.neg_num, Rat.neg_den] at *
  rcases Fmt.div_neg (F := F) (Rat.num_pos.2 h0) (Int.natCast_pos.2 x.pos) with h | h
  · rw [h] at hn
    refine absurd ?_ hn
    have h2 : 2 ^ 2 ≤ 2 ^ F.exp := Nat.pow_le_pow_right (by decide) F.exp_ge
    have h3 : 2 ^ (F.mant - 1) < 2 ^ F.mant :=
      Nat.pow_lt_pow_right (by decide) (by have := F.mant_pos; omega)
    obtain ⟨e1, e2⟩ := Fmt.fields_of (F := F) (2 ^ F.exp - 1) h3 (by omega)
    refine ⟨e1, ?_⟩
    rw [Fmt.quietNaN, Fmt.infBits, e2]
    exact (Nat.pow_pos (by decide)).ne'
  · exact h

example : Denotes ⟨1, 3⟩ (1/3) ∧ Denotes ⟨2, -6⟩ (-(1/3)) ∧
    ofFraction binary32 i32 ⟨1, 3⟩ ⇓ 0x3EAAAAAB ∧ ofFraction binary32 i32 ⟨2, -6⟩ ⇓ 0xBEAAAAAB ∧
    ¬ binary32.NaN 0x3EAAAAAB ∧ ofFraction binary64 i32 ⟨-2147483647, 2147483646⟩ ⇓ 0xBFF0000000200000 ∧
    i32.bits ≤ binary64.mant + 1 ∧ (binary64.mant : ℤ) < binary64.bias ∧
    binary32.Representable (1 / 3 : ℚ).num ∧ binary32.Representable (1 / 3 : ℚ).den := by
  refine ⟨by norm_num [Denotes], by norm_num [Denotes], by decide +kernel, by decide +kernel,
    by decide +kernel, by decide +kernel, by decide, by decide, ?_, ?_⟩
  · rw [show (1 / 3 : ℚ).num = 1 by decide +kernel]
    exact Fmt.representable_int (by decide) (by decide)
  · rw [show (1 / 3 : ℚ).den = 3 by decide +kernel]
    exact Fmt.representable_int (n := 3) (by decide) (by decide)

end Ieme
