import Verif.Lemmas.EndToEnd
import Verif.Props.FloatRounding
import Verif.Props.Parse
import Verif.Props.Program

/-!
# C111: from literals through exact computation to one rounding
-/

namespace Ieme
open Res IntTy Parse FloatingPoint Lit

variable {F : Fmt} {T : IntTy} {o : Ops} {q : ℚ} {r : Raw} {b : ℕ}

/-- **C111** The number that `_dec` makes of a literal, converted to floating point, is the literal's
mathematical value rounded once, when its parts in lowest terms are representable. -/
theorem C111_literal {l : FloatLit} (hv : l.Valid) (hp : l.point = true)
    (h : dec l.render ⇓ r) (hn : F.Representable l.value.num) (hd : F.Representable l.value.den)
    (hb : ofFraction F i64 r ⇓ b) : F.Rounded l.value b := by
  simp only [dec, bind_eq_clean] at h
  obtain ⟨s, hs, h⟩ := h
  split at h
  · simp only [pure_eq_ok, and_true] at h
    subst h
    exact C61_correctly_rounded (C53_value_exact hv hp hs) hn hd hb
  · cases h

/-- **C111** For decimal literals and `double` the numerator decides: with at most 22 digits behind
the point, a negative exponent counted in, the literal is rounded once if its numerator in lowest
terms is at most `2 ^ 53`. -/
theorem C111_decimal_double {l : FloatLit} (hv : l.Valid) (hp : l.point = true)
    (hx : l.hexPrefix = none) (hm : ((digits l.frac).length : ℤ) - l.expValue ≤ 22)
    (hn : l.value.num.natAbs ≤ 2 ^ 53) (h : dec l.render ⇓ r) (hb : ofFraction binary64 i64 r ⇓ b) :
    binary64.Rounded l.value b := by
  refine C111_literal hv hp h (Fmt.representable_int hn (by decide)) ?_ hb
  refine Fmt.representable_dvd_ten (m := 22) (by decide) ?_ (FloatLit.den_dvd hx hm)
  decide +kernel

/-- **C111** For `float` it is ten digits and `2 ^ 24`. -/
theorem C111_decimal_float {l : FloatLit} (hv : l.Valid) (hp : l.point = true)
    (hx : l.hexPrefix = none) (hm : ((digits l.frac).length : ℤ) - l.expValue ≤ 10)
    (hn : l.value.num.natAbs ≤ 2 ^ 24) (h : dec l.render ⇓ r) (hb : ofFraction binary32 i64 r ⇓ b) :
    binary32.Rounded l.value b := by
  refine C111_literal hv hp h (Fmt.representable_int hn (by decide)) ?_ hb
  refine Fmt.representable_dvd_ten (m := 10) (by decide) ?_ (FloatLit.den_dvd hx hm)
  decide +kernel

/-- `2.5` -/
example : (⟨none, "2".toList, true, "5".toList, none⟩ : FloatLit).value.num.natAbs ≤ 2 ^ 24 ∧
    dec "2.5".toList ⇓ ⟨5, 2⟩ ∧ ofFraction binary32 i64 ⟨5, 2⟩ ⇓ 0x40200000 :=
  ⟨by decide +kernel, by decide +kernel, by decide +kernel⟩

/-- **C111** The bound on the numerator is needed: `0.9007199254740993_dec` does not convert to the
`double` nearest to the literal. -/
theorem C111_long_numerator_misrounded :
    dec "0.9007199254740993".toList ⇓ ⟨9007199254740993, 10000000000000000⟩ ∧
    ofFraction binary64 i64 ⟨9007199254740993, 10000000000000000⟩ ⇓ 0x3FECD2B297D889BC ∧
    ¬ binary64.Rounded (9007199254740993 / 10000000000000000) 0x3FECD2B297D889BC := by
  refine ⟨by decide +kernel, by decide +kernel, fun h => ?_⟩
  have h2 := h.unique (Fmt.rounded_withSign (F := binary64) (9007199254740993 / 10000000000000000))
  revert h2
  decide +kernel

/-- **C111** So is the bound on the digits: `0.000000000000262144e-6_dec` has numerator one and the
denominator `2 ^ 6 * 5 ^ 24`, and does not convert to the nearest `double` either. -/
theorem C111_exponent_misrounded :
    dec "0.000000000000262144e-6".toList ⇓ ⟨1, 3814697265625000000⟩ ∧
    ofFraction binary64 i64 ⟨1, 3814697265625000000⟩ ⇓ 0x3C1357C299A88EA8 ∧
    ¬ binary64.Rounded (1 / 3814697265625000000) 0x3C1357C299A88EA8 := by
  refine ⟨by decide +kernel, by decide +kernel, fun h => ?_⟩
  have h2 := h.unique (Fmt.rounded_withSign (F := binary64) (1 / 3814697265625000000))
  revert h2
  decide +kernel

/-- `4'9.3'9e-1'0` -/
example : exampleLit.Valid ∧ exampleLit.point = true ∧ exampleLit.hexPrefix = none ∧
    ((digits exampleLit.frac).length : ℤ) - exampleLit.expValue ≤ 22 ∧
    exampleLit.value.num.natAbs ≤ 2 ^ 53 ∧ dec exampleLit.render ⇓ ⟨4939, 1000000000000⟩ ∧
    ofFraction binary64 i64 ⟨4939, 1000000000000⟩ ⇓ 0x3E35367CE8F40D2D := by
  refine ⟨exampleLit_valid, rfl, rfl, by decide, by decide +kernel, by decide +kernel,
    by decide +kernel⟩

/-- **C111** However many operations an expression has, its value converted to floating point is
rounded once. -/
theorem C111_expression {e : Expr} (he : e.eval T o ⇓ r) (hq : e.value = some q)
    (hn : F.Representable q.num) (hd : F.Representable q.den) (hb : ofFraction F T r ⇓ b) :
    F.Rounded q b :=
  C61_correctly_rounded (C11_expressions_exact he hq) hn hd hb

/-- **C111** The same for every variable after a program with branches and loops. -/
theorem C111_program {c : Cmd} {m m' : Mem} {s s' : ℕ → ℚ} {n : ℕ} (x : ℕ) (hr : Runs c s s')
    (hm : m.Holds s) (ho : o.SafeBased ∨ c.OnlyEquality) (h : c.exec T o n m ⇓ some m')
    (hn : F.Representable (s' x).num) (hd : F.Representable (s' x).den)
    (hb : ofFraction F T (m' x) ⇓ b) : F.Rounded (s' x) b :=
  C61_correctly_rounded (C110_exact hr hm ho h x) hn hd hb

/-- **C111** It does not matter how the value was computed: two expressions of the same value, with
any policies and representations, convert to the same floating-point number. -/
theorem C111_independent {T' : IntTy} {o' : Ops} {e e' : Expr} {r' : Raw} {b' : ℕ}
    (he : e.eval T o ⇓ r) (he' : e'.eval T' o' ⇓ r') (hq : e.value = some q)
    (hq' : e'.value = some q) (hn : F.Representable q.num) (hd : F.Representable q.den)
    (hb : ofFraction F T r ⇓ b) (hb' : ofFraction F T' r' ⇓ b') : b = b' :=
  (C111_expression he hq hn hd hb).unique (C111_expression he' hq' hn hd hb')

/-- `0.1_dec + 0.2_dec` converts to the `double` nearest to 0.3, whereas adding the nearest
`double`s of 0.1 and 0.2 gives the next one, `0x3FD3333333333334`. -/
example : dec "0.1".toList ⇓ ⟨1, 10⟩ ∧ dec "0.2".toList ⇓ ⟨1, 5⟩ ∧
    (Expr.ff .plus (.lit ⟨1, 10⟩) (.lit ⟨1, 5⟩)).eval i64 .defaults ⇓ ⟨3, 10⟩ ∧
    ofFraction binary64 i64 ⟨3, 10⟩ ⇓ 0x3FD3333333333333 := by
  refine ⟨by decide +kernel, by decide +kernel, by decide +kernel, by decide +kernel⟩

example : (Expr.ff .plus (.lit ⟨1, 10⟩) (.lit ⟨1, 5⟩)).value = some (3 / 10) ∧
    binary64.Representable (3 / 10 : ℚ).num ∧ binary64.Representable (3 / 10 : ℚ).den := by
  have e1 : (3 / 10 : ℚ).num = 3 := by decide +kernel
  have e2 : (3 / 10 : ℚ).den = 10 := by decide +kernel
  refine ⟨by norm_num [Expr.value, litValue, ArithOp.value], ?_, ?_⟩
  · rw [e1]; exact Fmt.representable_int (by decide) (by decide)
  · rw [e2]; exact_mod_cast Fmt.representable_int (F := binary64) (n := 10) (by decide) (by decide)

end Ieme
