import Verif.Model.Literals
import Verif.Lemmas.Fraction
import Verif.Lemmas.Reduce
import Verif.Lemmas.ToSafe

/-!
# Fraction literals: property C69

In this file `d` is the value of the integer literal before `_fr`, a value of
`unsigned long long`.
-/

namespace Ieme

open Res IntTy

variable {T : IntTy} {o : Ops} {f r : Raw} {n d : ℤ} {x : ℚ}

theorem i64_inRange {v : ℤ} : i64.InRange v ↔ -9223372036854775808 ≤ v ∧ v ≤ 9223372036854775807 :=
  Iff.rfl

/-- **C69** `n / d_fr` is exactly `n/d` whenever `d` fits the type of `n`; nothing is reduced
or normalised. -/
theorem C69_literal_parts (hd : T.InRange d) : DenLit.divRep T n (.fr d) ⇓ ⟨n, d⟩ ∧
    DenLit.divRep T n (DenLit.fr d).pos ⇓ ⟨n, d⟩ := by
  simp [DenLit.divRep, DenLit.fr, DenLit.pos, conv_clean.2 ⟨hd, rfl⟩, pure_def, Fraction.mk]

/-- **C69** `n / -d_fr` is exactly `n/(-d)` whenever `-d` fits the type of `n`, for every
literal `d` up to the maximum of `long long`. -/
theorem C69_negated_literal_parts (h0 : 0 ≤ d) (h : d ≤ 9223372036854775807)
    (hd : T.InRange (-d)) :
    ((DenLit.fr d).neg >>= DenLit.divRep T n) ⇓ ⟨n, -d⟩ := by
  have h1 : i64.InRange d := i64_inRange.2 (by omega)
  have h2 : i64.InRange (-d) := i64_inRange.2 (by omega)
  simp [DenLit.neg, DenLit.divRep, DenLit.fr, conv_clean.2 ⟨h1, rfl⟩, neg_clean.2 ⟨h2, rfl⟩,
    conv_clean.2 ⟨hd, rfl⟩, pure_def, Fraction.mk]

/-- **C69** Two minus signs cancel. -/
theorem C69_double_negation (h0 : 0 ≤ d) (h : d ≤ 9223372036854775807) :
    ((DenLit.fr d).neg >>= DenLit.neg) ⇓ ⟨true, d⟩ := by
  have h1 : i64.InRange d := i64_inRange.2 (by omega)
  have h2 : i64.InRange (-d) := i64_inRange.2 (by omega)
  have h3 : i64.neg (-d) ⇓ d := neg_clean.2 ⟨by rwa [neg_neg], by rw [neg_neg]⟩
  simp [DenLit.neg, DenLit.fr, conv_clean.2 ⟨h1, rfl⟩, neg_clean.2 ⟨h2, rfl⟩,
    conv_clean.2 ⟨h2, rfl⟩, h3, pure_def]

/-- **C69** `f / d_fr` is the same as dividing `f` by the integer `d`, and what it returns
cleanly is exactly the quotient (undefined for `d = 0`). -/
theorem C69_fraction_over_literal (hx : Denotes f x) (hd : T.InRange d) :
    DenLit.divFraction T o f (.fr d) = Fraction.arith T T o .divides (.fr f d) ∧
    (DenLit.divFraction T o f (.fr d) ⇓ r →
      (d ≠ 0 → Denotes r (x / d)) ∧ (d = 0 → r.den = 0)) := by
  have e : DenLit.divFraction T o f (.fr d) = Fraction.arith T T o .divides (.fr f d) := by
    simp [DenLit.divFraction, DenLit.fr, conv_clean.2 ⟨hd, rfl⟩]
  refine ⟨e, fun h => ?_⟩
  rw [e, Fraction.arith_self] at h
  have := Ops.arith_exact (a := .fr f d) (op := .divides) ⟨hx, rfl⟩ h
  exact ⟨fun h0 => this.1 (by exact_mod_cast h0), fun h0 => this.2 (by exact_mod_cast h0)⟩

/-- **C69** Every literal holds a value of its own type: `d_fr` and `+d_fr` hold `d` as
`unsigned long long`, and `-l` holds a `long long`. -/
theorem C69_literal_types {l l' : DenLit} {w : Bool} (h0 : 0 ≤ d) (h : d ≤ 18446744073709551615) :
    ((DenLit.fr d).value = d ∧ (DenLit.fr d).signed = false ∧ (DenLit.fr d).InRange ∧
      (DenLit.fr d).pos = .fr d) ∧
    (l.neg = .ok l' w → l'.signed = true ∧ l'.InRange ∧
      -9223372036854775808 ≤ l'.value ∧ l'.value ≤ 9223372036854775807) := by
  refine ⟨⟨rfl, rfl, ⟨h0, h⟩, rfl⟩, fun hn => ?_⟩
  simp only [DenLit.neg, bind_eq_ok, pure_eq_ok] at hn
  obtain ⟨v, w1, w2, -, ⟨n, w3, w4, h2, ⟨rfl, -⟩, -⟩, -⟩ := hn
  have := arith_inRange h2
  exact ⟨rfl, this, this⟩

/-- **C69** A literal that does not fit the type of the numerator is converted: the denominator is
the value of the type that is congruent to it modulo `2^bits`, in `n / l` and in `f / l` alike. -/
theorem C69_literal_converted (T : IntTy) (l : DenLit) : ∃ d', T.InRange d' ∧
    d' ≡ l.value [ZMOD 2 ^ T.bits] ∧ (T.InRange l.value → d' = l.value) ∧
    (∀ n, DenLit.divRep T n l = .ok ⟨n, d'⟩ (decide (¬ T.InRange l.value))) ∧
    (∀ o f r w, Fraction.arith T T o .divides (.fr f d') = .ok r w →
      DenLit.divFraction T o f l = .ok r (w || decide (¬ T.InRange l.value))) ∧
    (∀ o f k, Fraction.arith T T o .divides (.fr f d') = .fault k →
      DenLit.divFraction T o f l = .fault k) := by
  by_cases h : T.InRange l.value
  · have e : T.conv l.value = .ok l.value false := conv_clean.2 ⟨h, rfl⟩
    refine ⟨l.value, h, Int.ModEq.refl _, fun _ => rfl, fun n => ?_, fun o f r w hr => ?_,
      fun o f k hk => ?_⟩
    · simp [DenLit.divRep, e, h, pure_def, Fraction.mk]
    · simp [DenLit.divFraction, e, h, hr]
    · simp [DenLit.divFraction, e, hk]
  · have e : T.conv l.value = .ok (T.wrap l.value) true := by rw [IntTy.conv, if_neg h]
    refine ⟨T.wrap l.value, wrap_inRange _, wrap_cong _, fun h' => absurd h' h, fun n => ?_,
      fun o f r w hr => ?_, fun o f k hk => ?_⟩
    · simp [DenLit.divRep, e, h, pure_def, Fraction.mk, bind_def, Res.bind]
    · simp [DenLit.divFraction, e, h, hr, bind_def, Res.bind]
    · simp [DenLit.divFraction, e, hk, bind_def, Res.bind]

example : DenLit.InRange (.fr 18446744073709551615) ∧ DenLit.neg (.fr 5) ⇓ ⟨true, -5⟩ ∧
    DenLit.InRange ⟨true, -5⟩ ∧ ¬ i32.InRange (DenLit.fr 4294967298).value ∧
    (2 : ℤ) ≡ 4294967298 [ZMOD 2 ^ 32] ∧
    DenLit.divFraction i32 .fast ⟨1, 2⟩ (.fr 4294967298) = .ok ⟨1, 4⟩ true := by decide

/-- **C69** Boundary: a denominator that does not fit the type of `n` is converted silently,
negating the literal `2^63` is undefined behaviour, and negating a larger one silently gives
a positive denominator. -/
theorem C69_literal_boundary :
    DenLit.divRep i32 1 (.fr 4294967298) = .ok ⟨1, 2⟩ true ∧
    (∀ n T, ((DenLit.fr 9223372036854775808).neg >>= DenLit.divRep T n) = .fault .overflow) ∧
    ((DenLit.fr 18446744073709551615).neg >>= DenLit.divRep i32 1) = .ok ⟨1, 1⟩ true := by
  refine ⟨by decide, fun n T => ?_, by decide⟩
  have : (DenLit.fr 9223372036854775808).neg = .fault .overflow := by decide
  rw [this, fault_bind]

example : (0 : ℤ) ≤ 4 ∧ i32.InRange 4 ∧ i32.InRange (-4) ∧
    DenLit.divRep i32 (-3) (.fr 4) ⇓ ⟨-3, 4⟩ ∧ DenLit.divRep i32 2 (.fr 4) ⇓ ⟨2, 4⟩ ∧
    ((DenLit.fr 4).neg >>= DenLit.divRep i32 3) ⇓ ⟨3, -4⟩ ∧ Denotes ⟨1, 2⟩ (1/2) ∧
    DenLit.divFraction i32 .defaults ⟨1, 2⟩ (.fr 4) ⇓ ⟨1, 8⟩ ∧
    DenLit.divFraction i32 .defaults ⟨1, 2⟩ (.fr 0) ⇓ ⟨0, 0⟩ :=
  ⟨by decide, by decide, by decide, by decide, by decide, by decide, by norm_num [Denotes],
    by decide, by decide⟩

end Ieme
