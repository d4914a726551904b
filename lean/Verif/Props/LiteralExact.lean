import Verif.Lemmas.ParseValue
import Verif.Props.Parse
import Verif.Props.Parts
import Verif.Props.Arith
import Mathlib.Data.Rat.Lemmas

/-!
# Exactly when a literal is converted, and with which parts: property C94
-/

namespace Ieme

open Res IntTy Lit Parse

variable {T : IntTy} {o : Ops} {l : FloatLit} {r : Raw}

theorem pow_ten_i32 (k : ℕ) : i32.InRange ((10 : ℤ) ^ k) ↔ k ≤ 9 := by
  rw [i32_inRange]
  constructor
  · rintro ⟨-, h⟩
    by_contra hc
    have h1 : (10 : ℤ) ^ 10 ≤ 10 ^ k := pow_le_pow_right₀ (by decide) (by omega)
    norm_num at h1
    omega
  · intro h
    have h1 : (10 : ℤ) ^ k ≤ 10 ^ 9 := pow_le_pow_right₀ (by decide) h
    have h2 : (0 : ℤ) ≤ 10 ^ k := by positivity
    norm_num at h1
    omega

/-- **C94** Exactly when a literal is converted without overflow, and what is computed: one
power of the base more than the digits of whole part and fraction need must be representable,
the exponent must have at most nine digits, the power for the exponent must be representable,
and the addition and multiplication under the policy must finish. -/
theorem C94_literal_iff (hbits : T.bits ≤ 2147483648) (hv : l.Valid) (hp : l.point = true) :
    toFraction T o l.render ⇓ r ↔
      T.InRange ((l.base : ℤ) ^ (digits l.whole).length) ∧
      T.InRange ((l.base : ℤ) ^ (digits l.frac).length) ∧
      (∀ e ∈ l.exp, (digits e.digits).length ≤ 9) ∧
      T.InRange ((l.expBase : ℤ) ^ l.expValue.natAbs) ∧
      ∃ sum, o.arith T .plus (.rf (seqValue l.base l.whole)
          ⟨seqValue l.base l.frac, (l.base : ℤ) ^ (digits l.frac).length⟩) ⇓ sum ∧
        o.arith T .multiplies (.ff sum
          (if 0 ≤ l.expValue then ⟨(l.expBase : ℤ) ^ l.expValue.natAbs, 1⟩
            else ⟨1, (l.expBase : ℤ) ^ l.expValue.natAbs⟩)) ⇓ r := by
  have hb2 : 2 ≤ l.base := by rcases base_nat l with h | h <;> omega
  have hb := (conv_clean.1 (base_small (T := T) l)).1
  have hdig : (∀ e ∈ l.exp, (digits e.digits).length ≤ 9) ↔ (digits (expDigits l)).length ≤ 9 := by
    unfold expDigits
    rcases l.exp with _ | e
    · simp [digits]
    · simp
  have hexp : (digits (expDigits l)).length ≤ 9 →
      i32.InRange l.expValue ∧ l.expValue ≠ -2147483648 := by
    intro he
    have h1 : (10 : ℤ) ^ (digits (expDigits l)).length ≤ 10 ^ 9 :=
      pow_le_pow_right₀ (by decide) he
    have h2 : ((seqValue 10 (expDigits l) : ℕ) : ℤ) < (10 : ℤ) ^ (digits (expDigits l)).length := by
      exact_mod_cast seqValue_lt (Or.inl rfl) (exp_seq hv)
    have h3 : (0 : ℤ) ≤ seqValue 10 (expDigits l) := Int.natCast_nonneg _
    norm_num at h1
    rw [i32_inRange, expValue_eq l]
    split <;> omega
  rw [hdig, toFraction_lit hv hp]
  obtain ⟨p, w, hpr, hpc, hpl⟩ := precision_ok l.frac
  constructor
  · intro h
    obtain ⟨p', h1, g1⟩ := bind_eq_clean.1 h
    rw [hpr] at h1
    cases h1
    have hpc := hpc rfl
    subst hpc
    rw [scanValue_lit] at g1
    obtain ⟨whole, h2, g2⟩ := bind_eq_clean.1 g1
    obtain ⟨num, h3, g3⟩ := bind_eq_clean.1 g2
    obtain ⟨prec, h4, g4⟩ := bind_eq_clean.1 g3
    obtain ⟨den, h5, g5⟩ := bind_eq_clean.1 g4
    obtain ⟨e, h6, g6⟩ := bind_eq_clean.1 g5
    obtain ⟨ex, h7, g7⟩ := bind_eq_clean.1 g6
    obtain ⟨sum, h8, g8⟩ := bind_eq_clean.1 g7
    obtain ⟨pw, h9, g9⟩ := bind_eq_clean.1 g8
    obtain ⟨a1, rfl⟩ := (digitSequence_clean (base_nat l) (whole_seq hv)).1 h2
    obtain ⟨a2, rfl⟩ := (digitSequence_clean (base_nat l) (frac_seq hv)).1 h3
    obtain ⟨-, rfl⟩ := conv_clean.1 h4
    obtain ⟨-, rfl⟩ := (mathPow_clean hb _).1 h5
    obtain ⟨a3, rfl⟩ := (digitSequence_clean (b := 10) (Or.inl rfl) (exp_seq hv)).1 h6
    obtain ⟨-, rfl⟩ := mul_clean.1 h7
    have a3 := (pow_ten_i32 _).1 a3
    obtain ⟨e1, e2⟩ := hexp a3
    rw [← expValue_eq, Fraction.pow_eq e1 e2] at h9
    obtain ⟨q, hq, h9⟩ := bind_eq_clean.1 h9
    obtain ⟨a4, rfl⟩ := (mathPow_clean (expBase_inRange l) _).1 hq
    obtain ⟨rfl, -⟩ := pure_eq_ok.1 h9
    rw [Fraction.arith_self] at h8 g9
    exact ⟨a1, a2, a3, a4, sum, h8, g9⟩
  · rintro ⟨a1, a2, a3, a4, sum, h8, g9⟩
    have hlen := pow_count_lt hbits hb2 a2
    have := hpl hlen
    subst this
    have hpc := hpc rfl
    subst hpc
    obtain ⟨e1, e2⟩ := hexp a3
    rw [hpr, ok_bind_false, scanValue_lit,
      (digitSequence_clean (base_nat l) (whole_seq hv)).2 ⟨a1, rfl⟩, ok_bind_false,
      (digitSequence_clean (base_nat l) (frac_seq hv)).2 ⟨a2, rfl⟩, ok_bind_false,
      conv_small hlen, ok_bind_false, (mathPow_clean hb _).2 ⟨a2, rfl⟩, ok_bind_false,
      show digitSequenceToInt i32 (expDigits l) 10 ⇓ (seqValue 10 (expDigits l) : ℤ) from
        (digitSequence_clean (b := 10) (Or.inl rfl) (exp_seq hv)).2 ⟨(pow_ten_i32 _).2 a3, rfl⟩,
      ok_bind_false, mul_clean.2 ⟨by rw [← expValue_eq]; exact e1, rfl⟩, ok_bind_false,
      Fraction.arith_self]
    have h8' : o.arith T .plus (.rf (seqValue l.base l.whole) (Fraction.mk (seqValue l.base l.frac)
      ((l.base : ℤ) ^ (digits l.frac).length))) ⇓ sum := h8
    rw [h8', ok_bind_false, ← expValue_eq, Fraction.pow_eq e1 e2,
      (mathPow_clean (expBase_inRange l) _).2 ⟨a4, rfl⟩, ok_bind_false]
    rw [Res.pure_def, ok_bind_false, Fraction.arith_self]
    exact g9

/-- `4'9.3'9e-1'0` under `fast`: `49`, `39`, `10 ^ 2` and `10 ^ 10`. -/
example : exampleLit.Valid ∧ exampleLit.point = true ∧
    (digits exampleLit.whole).length = 2 ∧ seqValue exampleLit.base exampleLit.whole = 49 ∧
    seqValue exampleLit.base exampleLit.frac = 39 ∧ exampleLit.expValue = -10 ∧
    Ops.fast.arith i64 .plus (.rf 49 ⟨39, 100⟩) ⇓ ⟨4939, 100⟩ ∧
    Ops.fast.arith i64 .multiplies (.ff ⟨4939, 100⟩ ⟨1, 10 ^ 10⟩) ⇓ ⟨4939, 10 ^ 12⟩ ∧
    toFraction i64 .fast exampleLit.render ⇓ ⟨4939, 10 ^ 12⟩ :=
  ⟨exampleLit_valid, rfl, by decide, by decide, by decide, by decide, by decide +kernel,
    by decide +kernel, by decide +kernel⟩

/-- **C94** Under `fast`, and under `safe` which is the same here: with `w` and `f` the numbers
before and behind the point, `D` the base to the number of digits behind it and `P` the power
for the exponent, the result is `(w * D + f) * P` over `D`, or `w * D + f` over `D * P`.  Besides
the conditions above, `w * D`, `w * D + f` and the parts of the result must be representable. -/
theorem C94_literal_parts (hbits : T.bits ≤ 2147483648) (hv : l.Valid) (hp : l.point = true)
    {w f D P : ℤ} (hw : w = seqValue l.base l.whole) (hf : f = seqValue l.base l.frac)
    (hD : D = (l.base : ℤ) ^ (digits l.frac).length)
    (hP : P = (l.expBase : ℤ) ^ l.expValue.natAbs) :
    (toFraction T .fast l.render ⇓ r ↔
      T.InRange ((l.base : ℤ) ^ (digits l.whole).length) ∧ T.InRange D ∧ T.InRange P ∧
      (∀ e ∈ l.exp, (digits e.digits).length ≤ 9) ∧
      T.InRange (w * D) ∧ T.InRange (w * D + f) ∧
      r = (if 0 ≤ l.expValue then ⟨(w * D + f) * P, D⟩ else ⟨w * D + f, D * P⟩) ∧
      r.InRange T) ∧
    (toFraction T .safe l.render ⇓ r ↔ toFraction T .fast l.render ⇓ r) := by
  have one : T.InRange 1 := inRange_of_nonneg_le (by decide) (by decide)
  have hwr : T.InRange ((l.base : ℤ) ^ (digits l.whole).length) → T.InRange w := by
    intro a1
    have h1 : ((seqValue l.base l.whole : ℕ) : ℤ) < (l.base : ℤ) ^ (digits l.whole).length := by
      exact_mod_cast seqValue_lt (base_nat l) (whole_seq hv)
    rw [hw]
    exact ⟨T.min_le_zero.trans (Int.natCast_nonneg _), h1.le.trans a1.2⟩
  have hfr : T.InRange D → T.InRange f := by
    intro a1
    have h1 : ((seqValue l.base l.frac : ℕ) : ℤ) < (l.base : ℤ) ^ (digits l.frac).length := by
      exact_mod_cast seqValue_lt (base_nat l) (frac_seq hv)
    rw [hf]
    rw [hD] at a1
    exact ⟨T.min_le_zero.trans (Int.natCast_nonneg _), h1.le.trans a1.2⟩
  rw [C94_literal_iff hbits hv hp, C94_literal_iff hbits hv hp, ← hD, ← hP, ← hw, ← hf]
  have e1 : ∀ {s : Raw}, T.InRange w → T.InRange f → T.InRange D →
      (Ops.fast.arith T .plus (.rf w ⟨f, D⟩) ⇓ s ↔
        s = ⟨w * D + f, D⟩ ∧ T.InRange (w * D) ∧ T.InRange (w * D + f)) := by
    intro s h1 h2 h3
    rw [C85_fast_iff (a := .rf w ⟨f, D⟩) ⟨h1, h2, h3⟩]
    simp only [Args.left, Args.right, ArithOp.crossParts, ArithOp.UsesCommon, Raw.InRange, mul_one,
      one_mul]
    constructor
    · rintro ⟨rfl, h4, h5, -⟩
      exact ⟨rfl, (h5 (by simp)).1, h4.1⟩
    · rintro ⟨rfl, h4, h5⟩
      exact ⟨rfl, ⟨h5, h3⟩, fun _ => ⟨h4, h2⟩, by simp⟩
  have e2 : ∀ {s : Raw}, s.InRange T → T.InRange P →
      (Ops.fast.arith T .multiplies (.ff s (if 0 ≤ l.expValue then ⟨P, 1⟩ else ⟨1, P⟩)) ⇓ r ↔
        r = (if 0 ≤ l.expValue then ⟨s.num * P, s.den⟩ else ⟨s.num, s.den * P⟩) ∧ r.InRange T) := by
    intro s h1 h2
    rw [C85_fast_iff (a := .ff _ _) ⟨h1, by split; exacts [⟨h2, one⟩, ⟨one, h2⟩]⟩]
    simp only [Args.left, Args.right, ArithOp.crossParts, ArithOp.UsesCommon]
    split <;> simp
  constructor
  · constructor
    · rintro ⟨a1, a2, a3, a4, s, h1, h2⟩
      obtain ⟨rfl, h3, h4⟩ := (e1 (hwr a1) (hfr a2) a2).1 h1
      obtain ⟨h5, h6⟩ := (e2 ⟨h4, a2⟩ a4).1 h2
      exact ⟨a1, a2, a4, a3, h3, h4, h5, h6⟩
    · rintro ⟨a1, a2, a4, a3, h3, h4, h5, h6⟩
      exact ⟨a1, a2, a3, a4, _, (e1 (hwr a1) (hfr a2) a2).2 ⟨rfl, h3, h4⟩,
        (e2 ⟨h4, a2⟩ a4).2 ⟨h5, h6⟩⟩
  · simp only [C85_safe_eq_fast (op := .plus) (a := .rf w ⟨f, D⟩) (Or.inr (by simp)),
      C85_safe_eq_fast (op := .multiplies) (Or.inl (by simp [ArithOp.UsesCommon]))]

/-- `0xC.8P+4` is `(12 * 16 + 8) * 2 ^ 4` over `16`; ten digits of exponent are too many. -/
example : exampleHexLit.Valid ∧ exampleHexLit.point = true ∧
    toFraction i32 .fast exampleHexLit.render ⇓ ⟨3200, 16⟩ ∧
    toFraction i32 .safe exampleHexLit.render ⇓ ⟨3200, 16⟩ ∧
    toFraction i32 .fast "1.0e0000000001".toList = .fault .overflow ∧
    toFraction i32 .fast "1.0e000000001".toList ⇓ ⟨100, 10⟩ :=
  ⟨exampleHexLit_valid, rfl, by decide +kernel, by decide +kernel, by decide +kernel,
    by decide +kernel⟩

/-- **C94** Under a policy that normalises its output, the default among them, the parts are
determined by the literal alone: its value in lowest terms. -/
theorem C94_literal_lowest_terms (hbits : T.bits ≤ 2147483648) (hn : o.NormalizesOutput)
    (hv : l.Valid) (hp : l.point = true) (h : toFraction T o l.render ⇓ r) :
    r = ⟨l.value.num, l.value.den⟩ := by
  have hx := toFraction_exact hv hp h
  obtain ⟨a1, a2, a3, a4, sum, h8, g9⟩ := (C94_literal_iff hbits hv hp).1 h
  have hb0 : 0 < l.base := by rcases base_nat l with h | h <;> omega
  have hsr : sum.InRange T := by
    refine Ops.arith_inRange (a := .rf _ _) ?_ h8
    refine ⟨?_, ?_, a2⟩
    · have h1 : ((seqValue l.base l.whole : ℕ) : ℤ) < (l.base : ℤ) ^ (digits l.whole).length := by
        exact_mod_cast seqValue_lt (base_nat l) (whole_seq hv)
      exact ⟨T.min_le_zero.trans (Int.natCast_nonneg _), h1.le.trans a1.2⟩
    · have h1 : ((seqValue l.base l.frac : ℕ) : ℤ) < (l.base : ℤ) ^ (digits l.frac).length := by
        exact_mod_cast seqValue_lt (base_nat l) (frac_seq hv)
      exact ⟨T.min_le_zero.trans (Int.natCast_nonneg _), h1.le.trans a2.2⟩
  have one : T.InRange 1 := inRange_of_nonneg_le (by decide) (by decide)
  obtain ⟨h1, h2⟩ := (C08_canonical_results hn (a := .ff _ _)
    ⟨hsr, by split; exacts [⟨a4, one⟩, ⟨one, a4⟩]⟩ g9).1 hx.1
  have hc : Nat.Coprime r.num.natAbs r.den.natAbs := h2
  rw [← hx.2, Rat.num_div_eq_of_coprime h1 hc, Rat.den_div_eq_of_coprime h1 hc]

example : Ops.defaults.NormalizesOutput ∧ exampleHexLit.Valid ∧
    toFraction i32 .defaults exampleHexLit.render ⇓ ⟨200, 1⟩ ∧
    toFraction i64 .defaults exampleLit.render ⇓ ⟨4939, 10 ^ 12⟩ :=
  ⟨C08_defaults_normalize, exampleHexLit_valid, by decide +kernel, by decide +kernel⟩

/-- **C94** `_dec` returns the value of its literal in lowest terms, or does not return. -/
theorem C94_dec_lowest_terms (hv : l.Valid) (hp : l.point = true) {w : Bool}
    (h : dec l.render = .ok r w) : w = false ∧ r = ⟨l.value.num, l.value.den⟩ := by
  obtain ⟨a, w1, w2, h1, h2, hw⟩ := bind_eq_ok.1 h
  have hw1 := (toFraction_noWrap (by rfl) (by decide) hv hp).flag h1
  subst hw1
  have hx := toFraction_exact hv hp h1
  rw [if_pos (by simp [Raw.isDefined, hx.1]), pure_eq_ok] at h2
  obtain ⟨rfl, rfl⟩ := h2
  exact ⟨hw, C94_literal_lowest_terms (by decide) C08_defaults_normalize hv hp h1⟩

example : exampleHexLit.Valid ∧ dec exampleHexLit.render ⇓ ⟨200, 1⟩ ∧
    dec exampleLit.render ⇓ ⟨4939, 10 ^ 12⟩ :=
  ⟨exampleHexLit_valid, by decide +kernel, by decide +kernel⟩

end Ieme
