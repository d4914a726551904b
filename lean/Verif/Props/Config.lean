import Verif.Model.Config
import Verif.Props.Parse
import Verif.Props.Finish
import Verif.Lemmas.Range

/-!
# The configured default policy: property C99
-/

namespace Ieme

open Lit Parse Res

variable {c c' : Config} {s : List Char} {r r' : Raw}

/-- **C99** Without macros the default is the one used everywhere else; a single macro selects
the policy it names. -/
theorem C99_selected :
    Config.defaults {} = Ops.defaults ∧
    Config.defaults { safe := true } = .safe ∧
    Config.defaults { safeReducedI := true } = .reducedInput .safe .ignoreSigns ∧
    Config.defaults { safeReducedO := true } = .reducedOutput .safe .normalizeSigns ∧
    Config.defaults { safeReducedIO := true } =
      .reducedInput (.reducedOutput .safe .normalizeSigns) .ignoreSigns ∧
    Config.defaults { fast := true } = .fast ∧
    Config.defaults { fastReducedI := true } = .reducedInput .fast .ignoreSigns ∧
    Config.defaults { fastReducedO := true } = .reducedOutput .fast .normalizeSigns ∧
    Config.defaults { fastReducedIO := true } =
      .reducedInput (.reducedOutput .fast .normalizeSigns) .ignoreSigns :=
  ⟨rfl, rfl, rfl, rfl, rfl, rfl, rfl, rfl, rfl⟩

/-- **C99** When several macros are defined the first of the list wins: a `safe` one before
every `fast` one. -/
theorem C99_first_wins (c : Config) :
    (c.safe = true → c.defaults = .safe) ∧
    ((c.safe || c.safeReducedI || c.safeReducedO || c.safeReducedIO) = true →
      c.defaults ∈ [Ops.safe, .safeReducedI, .safeReducedO, .safeReducedIO]) ∧
    ((c.safe || c.safeReducedI || c.safeReducedO || c.safeReducedIO) = false →
      (c.fast || c.fastReducedI || c.fastReducedO || c.fastReducedIO) = true →
      c.defaults ∈ [Ops.fast, .fastReducedI, .fastReducedO, .fastReducedIO]) := by
  obtain ⟨b1, b2, b3, b4, b5, b6, b7, b8⟩ := c
  refine ⟨?_, ?_, ?_⟩
  · rintro rfl; rfl
  · revert b1 b2 b3 b4 b5 b6 b7 b8; decide
  · revert b1 b2 b3 b4 b5 b6 b7 b8; decide

example : Config.defaults { fast := true, safeReducedO := true } = .safeReducedO := rfl

/-- **C99** Exactly which macro decides: the first one, in the order of the list, that is
defined. -/
theorem C99_first_defined (c : Config) : c.defaults =
    ((([(c.safe, Ops.safe), (c.safeReducedI, .reducedInput .safe .ignoreSigns),
      (c.safeReducedO, .reducedOutput .safe .normalizeSigns),
      (c.safeReducedIO, .reducedInput (.reducedOutput .safe .normalizeSigns) .ignoreSigns),
      (c.fast, .fast), (c.fastReducedI, .reducedInput .fast .ignoreSigns),
      (c.fastReducedO, .reducedOutput .fast .normalizeSigns),
      (c.fastReducedIO, .reducedInput (.reducedOutput .fast .normalizeSigns) .ignoreSigns)].filter
        (·.1)).map (·.2)).head?).getD Ops.defaults := by
  obtain ⟨b1, b2, b3, b4, b5, b6, b7, b8⟩ := c
  revert b1 b2 b3 b4 b5 b6 b7 b8; decide

example : Config.defaults { fastReducedO := true, fastReducedIO := true } = .fastReducedO := rfl

/-- **C99** The default keeps results in lowest terms with positive denominators unless the policy
selected is one of the four that do not reduce results. -/
theorem C99_normalizes_iff (c : Config) : c.defaults.NormalizesOutput ↔
    c.defaults ∉ [Ops.safe, .safeReducedI, .fast, .fastReducedI] := by
  have h : c.defaults ∈ [Ops.safe, .safeReducedI, .safeReducedO, .safeReducedIO, .fast,
      .fastReducedI, .fastReducedO, .fastReducedIO] := by
    obtain ⟨b1, b2, b3, b4, b5, b6, b7, b8⟩ := c
    revert b1 b2 b3 b4 b5 b6 b7 b8; decide
  generalize c.defaults = o at h
  simp only [List.mem_cons, List.not_mem_nil, or_false] at h
  rcases h with rfl | rfl | rfl | rfl | rfl | rfl | rfl | rfl <;>
    simp [Ops.NormalizesOutput, Ops.safeReducedI, Ops.safeReducedO, Ops.safeReducedIO,
      Ops.fastReducedI, Ops.fastReducedO, Ops.fastReducedIO]

/-- **C99** `_dec` throws in every configuration for the same strings. -/
theorem C99_dec_throws_iff : c.dec s = .fault .thrown ↔ ¬ IsPointedFloatLit s := by
  refine ⟨fun h hl => ?_, fun hs => ?_⟩
  · obtain ⟨l, hv, hp, rfl⟩ := hl
    rw [Config.dec] at h
    cases ht : toFraction i64 c.defaults l.render with
    | fault k =>
      rw [ht, fault_bind] at h
      cases h
      exact (toFraction_noThrow _).ne ht
    | ok r w =>
      have hw := (toFraction_noWrap (by rfl) (by decide) hv hp).flag ht
      subst hw
      rw [ht, ok_bind_false, if_pos (by simp [Raw.isDefined, (toFraction_exact hv hp ht).1])] at h
      cases h
  · obtain ⟨w, h⟩ := C51_rejected_undefined (T := i64) (o := c.defaults) hs
    rw [Config.dec, h]
    rfl

/-- **C99** Whatever `_dec` returns, in every configuration, is exactly the value of the literal. -/
theorem C99_dec_exact {w : Bool} (h : c.dec s = .ok r w) :
    w = false ∧ ∃ l : FloatLit, l.Valid ∧ l.point = true ∧ l.render = s ∧ Denotes r l.value := by
  have hl : IsPointedFloatLit s := by
    by_contra hc; rw [C99_dec_throws_iff.2 hc] at h; cases h
  obtain ⟨l, hv, hp, rfl⟩ := hl
  rw [Config.dec] at h
  obtain ⟨a, w1, w2, h1, h2, hw⟩ := bind_eq_ok.1 h
  have hw1 := (toFraction_noWrap (by rfl) (by decide) hv hp).flag h1
  subst hw1
  have hx := toFraction_exact hv hp h1
  rw [if_pos (by simp [Raw.isDefined, hx.1]), pure_eq_ok] at h2
  obtain ⟨rfl, rfl⟩ := h2
  exact ⟨hw, l, hv, hp, rfl, hx⟩

/-- **C99** In the configurations that reduce results, `_dec` returns lowest terms with positive
denominator. -/
theorem C99_dec_lowest_terms (hn : c.defaults.NormalizesOutput) (h : c.dec s ⇓ r) :
    0 < r.den ∧ Int.gcd r.num r.den = 1 := by
  obtain ⟨-, l, -, -, -, hx⟩ := C99_dec_exact h
  rw [Config.dec] at h
  obtain ⟨a, w1, w2, h1, h2, hw⟩ := bind_eq_ok.1 h
  split at h2
  case isFalse => cases h2
  obtain ⟨rfl, rfl⟩ := pure_eq_ok.1 h2
  rw [toFraction] at h1
  obtain ⟨sc, w3, w4, h3, h4, -⟩ := bind_eq_ok.1 h1
  cases sc with
  | none =>
    obtain ⟨rfl, -⟩ := pure_eq_ok.1 h4
    exact absurd rfl hx.1
  | some sc =>
    simp only [scanValue] at h4
    obtain ⟨base, _, _, e1, h4, -⟩ := bind_eq_ok.1 h4
    obtain ⟨whole, _, _, e2, h4, -⟩ := bind_eq_ok.1 h4
    obtain ⟨num, _, _, e3, h4, -⟩ := bind_eq_ok.1 h4
    obtain ⟨prec, _, _, e4, h4, -⟩ := bind_eq_ok.1 h4
    obtain ⟨den, _, _, e5, h4, -⟩ := bind_eq_ok.1 h4
    obtain ⟨e, _, _, e6, h4, -⟩ := bind_eq_ok.1 h4
    obtain ⟨ex, _, _, e7, h4, -⟩ := bind_eq_ok.1 h4
    obtain ⟨sum, _, _, e8, h4, -⟩ := bind_eq_ok.1 h4
    obtain ⟨power, _, _, e9, h4, -⟩ := bind_eq_ok.1 h4
    have i8 := Fraction.arith_self_all (T := i64) (a := .rf whole (Fraction.mk num den))
      ⟨Parse.digits_all _ _ e2, Parse.digits_all _ _ e3, mathPow_all _ _ e5⟩ _ _ e8
    have i9 := Fraction.pow_all _ _ e9
    rw [Fraction.arith_self] at h4
    exact (C08_canonical_results hn (a := .ff sum power) ⟨i8, i9⟩ h4).1 hx.1

/-- **C99** Two configurations in which a `_dec` literal converts give the same value. -/
theorem C99_dec_agree (h : c.dec s ⇓ r) (h' : c'.dec s ⇓ r') : ∃ q : ℚ, Denotes r q ∧ Denotes r' q := by
  have hl : IsPointedFloatLit s := by
    by_contra hc; rw [C99_dec_throws_iff.2 hc] at h; cases h
  obtain ⟨l, hv, hp, rfl⟩ := hl
  have key : ∀ {c : Config} {r : Raw}, c.dec l.render ⇓ r → Denotes r l.value := by
    intro c r h
    rw [Config.dec] at h
    obtain ⟨a, w1, w2, h1, h2, hw⟩ := bind_eq_ok.1 h
    have hw1 := (toFraction_noWrap (by rfl) (by decide) hv hp).flag h1
    subst hw1
    have hx := toFraction_exact hv hp h1
    rw [if_pos (by simp [Raw.isDefined, hx.1]), pure_eq_ok] at h2
    obtain ⟨rfl, rfl⟩ := h2
    exact hx
  exact ⟨l.value, key h, key h'⟩

/-- **C99** `_dec` returns in every configuration when the digits of the literal, scaled by its
exponent, fit the 64 bits of `std::intmax_t`. -/
theorem C99_dec_returns {l : FloatLit} (hv : l.Valid) (hp : l.point = true)
    (he : ∀ e ∈ l.exp, (Lit.digits e.digits).length ≤ 9)
    (hfit : l.base ^ ((Lit.digits l.whole).length + (Lit.digits l.frac).length) *
      l.expBase ^ l.expValue.natAbs < 2 ^ 63) :
    ∃ r, c.dec l.render ⇓ r ∧ Denotes r l.value := by
  have hb : 2 ≤ l.base := by unfold FloatLit.base; split <;> omega
  have hb' : 1 ≤ l.expBase ^ l.expValue.natAbs :=
    Nat.one_le_pow _ _ (by unfold FloatLit.expBase; split <;> omega)
  have hlen : (Lit.digits l.frac).length < 63 := by
    by_contra hc
    have h1 : 2 ^ 63 ≤ 2 ^ ((Lit.digits l.whole).length + (Lit.digits l.frac).length) :=
      Nat.pow_le_pow_right (by omega) (by omega)
    have h2 := Nat.pow_le_pow_left hb ((Lit.digits l.whole).length + (Lit.digits l.frac).length)
    have h3 := Nat.mul_le_mul (h1.trans h2) hb'
    omega
  obtain ⟨r, hr, hx⟩ := C53_finishes (T := i64) (o := c.defaults) rfl hv hp he (by omega)
    (show _ ≤ (9223372036854775807 : ℤ) by omega)
  refine ⟨r, ?_, hx⟩
  rw [Config.dec, hr, ok_bind_false, if_pos (by simp [Raw.isDefined, hx.1])]
  rfl

/-- **C99** The literal without macros is the one of C56. -/
theorem C99_dec_default : Config.dec {} = Parse.dec := rfl

/-- The same literal in five configurations. -/
example : Config.dec {} "2.50".toList ⇓ ⟨5, 2⟩ ∧
    Config.dec { safe := true } "2.50".toList ⇓ ⟨250, 100⟩ ∧
    Config.dec { safeReducedI := true } "2.50".toList ⇓ ⟨5, 2⟩ ∧
    Config.dec { fast := true } "2.50".toList ⇓ ⟨250, 100⟩ ∧
    Config.dec { fastReducedO := true } "2.50".toList ⇓ ⟨5, 2⟩ ∧
    Config.dec { fast := true } "abc".toList = .fault .thrown := by decide +kernel

/-- Reducing the operands alone does not give lowest terms. -/
example : Config.dec { safeReducedI := true } "2.5e1".toList ⇓ ⟨50, 2⟩ ∧
    Config.dec { safeReducedIO := true } "2.5e1".toList ⇓ ⟨25, 1⟩ := by decide +kernel

-- a literal that meets the hypotheses of `C99_dec_returns`
example : ∃ l : FloatLit, l.Valid ∧ l.point = true ∧ l.render = "12.50e-1".toList ∧
    l.base ^ ((Lit.digits l.whole).length + (Lit.digits l.frac).length) *
      l.expBase ^ l.expValue.natAbs < 2 ^ 63 ∧
    Config.dec { fast := true } "12.50e-1".toList ⇓ ⟨1250, 1000⟩ := by
  refine ⟨⟨none, ['1', '2'], true, ['5', '0'], some ⟨'e', some '-', ['1']⟩⟩, ?_, rfl, by decide,
    by decide, by decide +kernel⟩
  exact {
    hexPrefix := by simp
    whole := .inr (.snoc (s := ['1']) (.digit (by decide)) (by decide))
    frac := .inr (.snoc (s := ['5']) (.digit (by decide)) (by decide))
    some_digit := by simp
    frac_point := by simp
    exp_needed := by simp
    marker := by simp
    sign := by simp
    exp_digits := by simp; exact .digit (by decide) }

end Ieme
