import Verif.Lemmas.FloatFlags
import Verif.Props.DirectedExact

/-!
# Exception flags of conversions to floating point: property C141

A program may clear the floating-point exception flags, convert fractions, and look at the flags
afterwards: `FE_INEXACT` is meant to tell whether any digits were lost.  The conversion makes three
rounded operations, so a flag may come from an intermediate step.
-/

namespace Ieme

open Res IntTy FloatingPoint

variable {F : Fmt} {T : IntTy} {d d' : Direction} {after after' : Bool} {f g : Raw} {b c : ℕ}
  {q x : ℚ} {fl fl' : Flags} {r : Raw}

private theorem convert_split (h : convert F T d after f ⇓ (b, fl)) :
    ∃ r, f.reduce T .normalizeSigns ⇓ r ∧
      b = F.divTo d (F.ofIntTo d r.num) (F.ofIntTo d r.den) ∧
      fl = ((F.ofIntFlags d after r.num).or (F.ofIntFlags d after r.den)).or
        (F.divFlags d after (F.ofIntTo d r.num) (F.ofIntTo d r.den)) := by
  obtain ⟨r, hr, h1⟩ := bind_eq_clean.1 h
  have := (pure_eq_ok.1 h1).1
  exact ⟨r, hr, (Prod.ext_iff.1 this).1.symm, (Prod.ext_iff.1 this).2.symm⟩

/-- **C141** Watching the flags changes nothing about the results. -/
theorem C141_result : (∃ fl, convert F T d after f ⇓ (b, fl)) ↔ ofFractionTo F T d f ⇓ b := by
  constructor
  · rintro ⟨fl, h⟩
    obtain ⟨r, hr, rfl, -⟩ := convert_split h
    rw [ofFractionTo, hr, ok_bind_false]
    rfl
  · intro h
    obtain ⟨r, hr, h1⟩ := bind_eq_clean.1 h
    obtain rfl := (pure_eq_ok.1 h1).1
    exact ⟨_, by rw [convert, hr, ok_bind_false]; rfl⟩

example : convert binary64 i32 .nearest true ⟨1, 3⟩ ⇓
    (0x3FD5555555555555, ⟨false, false, false, false, true⟩) := by decide +kernel

/-- **C141** The flags that converting an integer raises are those the standard asks for: inexact
exactly when the number has no pattern, overflow exactly when it is too large, and never another
one. -/
theorem C141_integer (n : ℤ) :
    ((F.ofIntFlags d after n).inexact = true ↔ ¬ F.Representable n) ∧
    ((F.ofIntFlags d after n).overflow = true ↔ F.Overflows d n) ∧
    (F.ofIntFlags d after n).underflow = false ∧
    (F.ofIntFlags d after n).invalid = false ∧ (F.ofIntFlags d after n).divByZero = false := by
  rw [Fmt.ofIntFlags_eq]
  obtain ⟨h1, h2, h3, h4⟩ := Fmt.roundFlags_spec (F := F) (d := d) (after := after) (n : ℚ)
  refine ⟨Fmt.inexact_iff _, h3, ?_, h1, h2⟩
  rw [← Bool.not_eq_true, h4]
  rintro ⟨h, -⟩
  have hs : F.Subnormal n := by
    cases after
    · exact h
    · exact Fmt.SubnormalRounded.subnormal h
  have hb := Fmt.bias_pos F
  have h5 : (1 : ℚ) ≤ |(n : ℚ)| := by
    have : (n : ℤ) ≠ 0 := by exact_mod_cast hs.1
    exact_mod_cast Int.one_le_abs this
  have h6 : (2 : ℚ) ^ (1 - F.bias) ≤ 1 := zpow_le_one_of_nonpos₀ (by norm_num) (by omega)
  exact absurd hs.2 (not_lt.2 (h6.trans h5))

example : binary32.ofIntFlags .nearest false 16777217 = ⟨false, false, false, false, true⟩ ∧
    binary32.ofIntFlags .nearest false 16777218 = ⟨false, false, false, false, false⟩ := by
  decide +kernel

/-- **C141** The flags that dividing finite numbers raises are those the standard asks for. -/
theorem C141_division (hb : F.Finite b) (hc : F.Finite c) (h0 : F.value c ≠ 0) :
    ((F.divFlags d after b c).inexact = true ↔ ¬ F.Representable (F.value b / F.value c)) ∧
    ((F.divFlags d after b c).overflow = true ↔ F.Overflows d (F.value b / F.value c)) ∧
    ((F.divFlags d after b c).underflow = true ↔
      (if after then F.SubnormalRounded d (F.value b / F.value c)
        else F.Subnormal (F.value b / F.value c)) ∧
      ¬ F.Representable (F.value b / F.value c)) ∧
    (F.divFlags d after b c).invalid = false ∧ (F.divFlags d after b c).divByZero = false := by
  rw [Fmt.divFlags_eq hb hc h0]
  obtain ⟨h1, h2, h3, h4⟩ :=
    Fmt.roundFlags_spec (F := F) (d := d) (after := after) (F.value b / F.value c)
  exact ⟨Fmt.inexact_iff _, h3, h4, h1, h2⟩

example : binary32.divFlags .nearest false 0x00FFFFFF 0x40000000 =
      ⟨false, false, false, true, true⟩ ∧
    binary32.divFlags .nearest true 0x00FFFFFF 0x40000000 = ⟨false, false, false, true, true⟩ ∧
    binary32.divFlags .upward true 0x80000001 0x7F7FFFFF = ⟨false, false, false, true, true⟩ := by
  decide +kernel

/-- **C141** The flags of the divisions that have no finite quotient: quiet NaNs raise nothing,
infinity by infinity and zero by zero are invalid, a number by zero raises `FE_DIVBYZERO`, and other
divisions with one infinity raise nothing. -/
theorem C141_division_special :
    (F.NaN b ∨ F.NaN c → F.divFlags d after b c = ⟨false, false, false, false, false⟩) ∧
    (F.Inf b → F.Inf c → F.divFlags d after b c = ⟨true, false, false, false, false⟩) ∧
    (F.Finite b → F.Inf c → F.divFlags d after b c = ⟨false, false, false, false, false⟩) ∧
    (F.Inf b → F.Finite c → F.divFlags d after b c = ⟨false, false, false, false, false⟩) ∧
    (F.Finite b → F.Finite c → F.value c = 0 →
      F.divFlags d after b c = ⟨decide (F.value b = 0), decide (F.value b ≠ 0), false, false, false⟩) := by
  have nn : ∀ {b}, F.Inf b → ¬ F.NaN b := fun h h' ↦ h'.2 h.2
  have nf : ∀ {b}, F.Finite b → ¬ F.Inf b := fun h h' ↦ by have := h'.1; have := h.2; omega
  have nv : ∀ b, F.magnitude b = 0 ↔ F.value b = 0 := fun b ↦ by
    rw [← Fmt.abs_value, abs_eq_zero]
  refine ⟨fun h ↦ ?_, fun h1 h2 ↦ ?_, fun h1 h2 ↦ ?_, fun h1 h2 ↦ ?_, fun h1 h2 h3 ↦ ?_⟩
  · simp [Fmt.divFlags, h, Flags.none]
  · simp [Fmt.divFlags, h1, h2, nn h1, nn h2, Flags.none]
  · simp [Fmt.divFlags, h2, h1.not_nan, nf h1, nn h2, Flags.none]
  · simp [Fmt.divFlags, h1, h2.not_nan, nf h2, nn h1, Flags.none]
  · by_cases h0 : F.value b = 0 <;>
      simp [Fmt.divFlags, h1.not_nan, h2.not_nan, nf h1, nf h2, nv, h0, h3, Flags.none]

example : binary32.divFlags .nearest true 0x3F800000 0x80000000 =
      ⟨false, true, false, false, false⟩ ∧
    binary32.divFlags .nearest true 0x7F800000 0xFF800000 = ⟨true, false, false, false, false⟩ ∧
    binary32.divFlags .nearest true 0x7F800000 0x80000000 = ⟨false, false, false, false, false⟩ := by
  decide +kernel

private theorem parts (hq : Denotes f q) (h : convert F T d after f ⇓ (b, fl)) :
    f.reduce T .normalizeSigns ⇓ ⟨q.num, q.den⟩ ∧
    b = F.divTo d (F.ofIntTo d q.num) (F.ofIntTo d q.den) ∧
    fl = ((F.ofIntFlags d after q.num).or (F.ofIntFlags d after q.den)).or
        (F.divFlags d after (F.ofIntTo d q.num) (F.ofIntTo d q.den)) := by
  obtain ⟨r, hr, h1, h2⟩ := convert_split h
  have e := reduce_parts hq hr
  subst e
  exact ⟨hr, h1, h2⟩

/-- The parts are converted without an error. -/
private theorem parts_exact (hn : F.Representable q.num) (hd : F.Representable q.den) :
    (F.Finite (F.ofIntTo d q.num) ∧ F.value (F.ofIntTo d q.num) = q.num) ∧
    (F.Finite (F.ofIntTo d q.den) ∧ F.value (F.ofIntTo d q.den) = q.den) ∧
    F.value (F.ofIntTo d q.den) ≠ 0 ∧
    F.value (F.ofIntTo d q.num) / F.value (F.ofIntTo d q.den) = q := by
  have e1 := (Fmt.roundedTo_ofInt (F := F) d q.num).exact hn
  have e2 := (Fmt.roundedTo_ofInt (F := F) d q.den).exact (by exact_mod_cast hd)
  rw [Int.cast_natCast] at e2
  have hp : (0 : ℚ) < q.den := by exact_mod_cast q.pos
  refine ⟨e1, e2, by rw [e2.2]; exact hp.ne', by rw [e1.2, e2.2, Rat.num_div_den]⟩

/-- **C141** For every integer type and format: `FE_INEXACT` is clear exactly when numerator and
denominator in lowest terms and the value of the fraction are all representable. -/
theorem C141_inexact (hq : Denotes f q) (h : convert F T d after f ⇓ (b, fl)) :
    fl.inexact = false ↔ F.Representable q.num ∧ F.Representable q.den ∧ F.Representable q := by
  obtain ⟨-, -, rfl⟩ := parts hq h
  have i1 := (C141_integer (F := F) (d := d) (after := after) q.num).1
  have i2 := (C141_integer (F := F) (d := d) (after := after) q.den).1
  rw [Int.cast_natCast] at i2
  simp only [Flags.or, Bool.or_eq_false_iff]
  rw [← Bool.not_eq_true, ← Bool.not_eq_true, ← Bool.not_eq_true, i1, i2, not_not, not_not,
    and_assoc]
  refine and_congr_right fun hn ↦ and_congr_right fun hd ↦ ?_
  obtain ⟨⟨f1, -⟩, ⟨f2, -⟩, h0, e⟩ := parts_exact (d := d) hn hd
  rw [(C141_division f1 f2 h0).1, e, not_not]

example : convert binary32 i32 .nearest true ⟨5, 16⟩ ⇓ (0x3EA00000, Flags.none) ∧
    binary32.value 0x3EA00000 = 5 / 16 := by decide +kernel

/-- **C141** If `FE_INEXACT` is clear after the conversion, the result is the value of the fraction,
for every integer type, format and direction; and no other flag was raised either but possibly
underflow's, which cannot be for exact results. -/
theorem C141_exact (hq : Denotes f q) (h : convert F T d after f ⇓ (b, fl))
    (hi : fl.inexact = false) : F.Finite b ∧ F.value b = q ∧ fl = Flags.none := by
  obtain ⟨hn, hd, hr⟩ := (C141_inexact hq h).1 hi
  obtain ⟨e1, e2⟩ := (C104_rounded_partial hq hn hd (C141_result.1 ⟨fl, h⟩)).exact hr
  refine ⟨e1, e2, ?_⟩
  obtain ⟨-, -, rfl⟩ := parts hq h
  obtain ⟨⟨f1, -⟩, ⟨f2, -⟩, h0, e⟩ := parts_exact (d := d) hn hd
  have no : ∀ z, F.Representable z → F.roundFlags d after (decide (z < 0)) |z| = Flags.none := by
    intro z hz
    obtain ⟨s1, s2, s3, s4⟩ := Fmt.roundFlags_spec (F := F) (d := d) (after := after) z
    have s5 := (Fmt.inexact_iff (F := F) (d := d) (after := after) z).not.2 (not_not.2 hz)
    have s6 := s3.not.2 fun ho ↦ ho.not_representable hz
    have s7 := s4.not.2 fun hu ↦ hu.2 hz
    rw [Bool.not_eq_true] at s5 s6 s7
    generalize F.roundFlags d after (decide (z < 0)) |z| = w at *
    cases w
    simp_all [Flags.none]
  rw [Fmt.ofIntFlags_eq, Fmt.ofIntFlags_eq, Fmt.divFlags_eq f1 f2 h0, no _ hn,
    no _ (by exact_mod_cast hd), e, no _ hr]
  rfl

example : convert binary64 i64 .upward false ⟨-3, 1024⟩ ⇓ (0xBF68000000000000, Flags.none) := by
  decide +kernel

/-- **C141, partial.**  Full claim: for every integer type, `FE_INEXACT` is raised exactly when the
value is not representable, and exactly when the result is not the value.  This is false for integers
wider than the exponent range, see `C141_wide_type`; it holds for all others.  `C141_inexact` has the
exact condition for all types. -/
theorem C141_inexact_iff_partial (hT : (T.bits : ℤ) ≤ F.bias) (hq : Denotes f q)
    (h : convert F T d after f ⇓ (b, fl)) :
    (fl.inexact = true ↔ ¬ F.Representable q) ∧
    (fl.inexact = true ↔ ¬ (F.Finite b ∧ F.value b = q)) := by
  have key : fl.inexact = true ↔ ¬ F.Representable q := by
    rw [← Bool.not_eq_false, C141_inexact hq h, not_iff_not]
    refine ⟨fun h ↦ h.2.2, fun hr ↦ ?_⟩
    have hi := Raw.reduce_inRange (parts hq h).1
    obtain ⟨h1, h2⟩ := reduce_representable_parts hT hr hi.1 hi.2
    exact ⟨h1, h2, hr⟩
  refine ⟨key, key.trans (not_congr ⟨fun hr ↦ ?_, fun ⟨hb, e⟩ ↦ ⟨b, hb, e⟩⟩)⟩
  exact C104_exact hT hq hr (C141_result.1 ⟨fl, h⟩)

example : convert binary32 i32 .nearest true ⟨16777217, 2⟩ ⇓
      (0x4B000000, ⟨false, false, false, false, true⟩) ∧
    convert binary32 i32 .nearest true ⟨16777216, 2⟩ ⇓ (0x4B000000, Flags.none) ∧
    (i32.bits : ℤ) ≤ binary32.bias := by decide +kernel

/-- **C141, refuted in general.**  Converting to `float` from a 256-bit type: 1/2^149 is the least
positive `float`, but the denominator overflows: the result is zero and overflow and inexact are
raised.  Rounding toward zero, the result for 1/2^128 is exactly 1/2^128, and still both are
raised. -/
theorem C141_wide_type :
    convert binary32 ⟨true, 256, by decide⟩ .nearest false ⟨1, 2 ^ 149⟩ ⇓
      (0, ⟨false, false, true, false, true⟩) ∧
    binary32.value 1 = 1 / 2 ^ 149 ∧ binary32.Finite 1 ∧
    convert binary32 ⟨true, 256, by decide⟩ .towardZero false ⟨1, 2 ^ 128⟩ ⇓
      (0x00200000, ⟨false, false, true, true, true⟩) ∧
    binary32.value 0x00200000 = 1 / 2 ^ 128 ∧ binary32.Finite 0x00200000 := by
  decide +kernel

/-- **C141** Implementations may detect tininess before or after rounding.  No division, and so no
conversion, tells the two apart. -/
theorem C141_tininess :
    F.divFlags d true b c = F.divFlags d false b c ∧
    convert F T d true f = convert F T d false f := by
  have sub : ∀ x : ℚ, (F.SubnormalRounded d x ↔ F.Subnormal x) →
      F.roundFlags d true (decide (x < 0)) |x| = F.roundFlags d false (decide (x < 0)) |x| := by
    intro x hx
    have hu : (F.roundFlags d true (decide (x < 0)) |x|).underflow =
        (F.roundFlags d false (decide (x < 0)) |x|).underflow := by
      rw [Bool.eq_iff_iff, (Fmt.roundFlags_spec x).2.2.2, (Fmt.roundFlags_spec x).2.2.2]
      simp [hx]
    exact congrArg (fun u ↦ (⟨false, false, (F.roundFlags d true (decide (x < 0)) |x|).overflow, u,
      (F.roundFlags d true (decide (x < 0)) |x|).inexact⟩ : Flags)) hu
  have div : ∀ b c, F.divFlags d true b c = F.divFlags d false b c := by
    intro b c
    by_cases h1 : F.NaN b ∨ F.NaN c
    · simp only [Fmt.divFlags, h1, if_true]
    by_cases h2 : F.Inf b ∧ F.Inf c
    · simp only [Fmt.divFlags, h1, h2, if_true, if_false, and_self]
    by_cases h3 : F.Inf b ∨ F.Inf c
    · simp only [Fmt.divFlags, h1, h2, h3, if_true, if_false]
    by_cases h4 : F.magnitude c = 0
    · simp only [Fmt.divFlags, h1, h2, h3, h4, if_true, if_false]
    push Not at h1 h3
    have hv : F.value c ≠ 0 := by
      rw [← abs_ne_zero, Fmt.abs_value]
      exact h4
    rw [Fmt.divFlags_eq' h1.1 h1.2 h3.1 h3.2 hv, Fmt.divFlags_eq' h1.1 h1.2 h3.1 h3.2 hv]
    exact sub _ (Fmt.quotient_tiny hv)
  have int : ∀ n, F.ofIntFlags d true n = F.ofIntFlags d false n := by
    intro n
    obtain ⟨-, -, u, -, -⟩ := C141_integer (F := F) (d := d) (after := true) n
    obtain ⟨-, -, u', -, -⟩ := C141_integer (F := F) (d := d) (after := false) n
    exact congrArg (fun v ↦ (⟨false, false, (F.ofIntFlags d true n).overflow, v,
      (F.ofIntFlags d true n).inexact⟩ : Flags)) (u.trans u'.symm)
  refine ⟨div b c, ?_⟩
  simp only [convert, div, int]

example : binary32.divFlags .upward true 0x00FFFFFF 0x40000000 =
    ⟨false, false, false, true, true⟩ := by decide +kernel

/-- **C141** When the integers fit the exponent range, converting a defined fraction raises `FE_INEXACT`
or nothing: no intermediate step overflows, underflows or divides by zero. -/
theorem C141_quiet (hT : (T.bits : ℤ) < F.bias) (hq : Denotes f q)
    (h : convert F T d after f ⇓ (b, fl)) :
    fl.overflow = false ∧ fl.underflow = false ∧ fl.invalid = false ∧ fl.divByZero = false := by
  obtain ⟨hr, -, rfl⟩ := parts hq h
  have hi := Raw.reduce_inRange hr
  have r1 := Fmt.roundedTo_ofInt (F := F) d q.num
  have r2 := Fmt.roundedTo_ofInt (F := F) d q.den
  have hpow : (2 : ℚ) ^ T.bits ≤ 2 ^ F.bias := by
    rw [← zpow_natCast]; exact zpow_le_zpow_right₀ (by norm_num) hT.le
  have mod : ∀ n : ℤ, T.InRange n → F.Overflows d n → False := fun n hn ho ↦ by
    have h1 := ho.large
    have h2 : |(n : ℚ)| < 2 ^ T.bits := by
      have := IntTy.natAbs_lt_pow hn
      rw [← Int.cast_abs, ← Int.natCast_natAbs, Int.cast_natCast]
      exact_mod_cast this
    linarith
  obtain ⟨-, n1, n2, n3, n4⟩ := C141_integer (F := F) (d := d) (after := after) q.num
  obtain ⟨-, d1, d2, d3, d4⟩ := C141_integer (F := F) (d := d) (after := after) q.den
  have n1' := n1.not.2 (mod _ hi.1)
  have d1' := d1.not.2 (mod _ hi.2)
  rw [Bool.not_eq_true] at n1' d1'
  obtain ⟨f2, l2, u2⟩ := r2.bounds hT.le (by have := q.pos; omega) (IntTy.natAbs_lt_pow hi.2).le
  have hm : F.value (F.ofIntTo d q.den) ≠ 0 := fun h0 ↦ by rw [h0, abs_zero] at l2; linarith
  have fin : F.Finite (F.ofIntTo d q.num) ∧ (F.value (F.ofIntTo d q.num) = 0 ∨
      1 ≤ |F.value (F.ofIntTo d q.num)|) ∧ |F.value (F.ofIntTo d q.num)| ≤ 2 ^ T.bits := by
    rcases eq_or_ne q.num 0 with h0 | h0
    · obtain ⟨f1, e⟩ := r1.exact (by rw [h0, Int.cast_zero]; exact Fmt.zero_representable)
      rw [h0, Int.cast_zero] at e
      rw [h0] at f1 ⊢
      refine ⟨f1, .inl e, by rw [e, abs_zero]; positivity⟩
    · obtain ⟨f1, l1, u1⟩ := r1.bounds hT.le h0 (IntTy.natAbs_lt_pow hi.1).le
      exact ⟨f1, .inr l1, u1⟩
  obtain ⟨f1, l1, u1⟩ := fin
  have p2 : 0 < |F.value (F.ofIntTo d q.den)| := by linarith
  obtain ⟨m1, m2⟩ := Fmt.roundFlags_moderate (F := F) (d := d) (after := after)
    (x := F.value (F.ofIntTo d q.num) / F.value (F.ofIntTo d q.den)) (by
      rcases l1 with h0 | h0
      · left; rw [h0, zero_div]
      · right
        rw [abs_div, le_div_iff₀ p2]
        refine le_trans ?_ h0
        have : (2 : ℚ) ^ (1 - F.bias) * 2 ^ T.bits ≤ 1 := by
          rw [← zpow_natCast, ← zpow_add₀ (by norm_num)]
          exact zpow_le_one_of_nonpos₀ (by norm_num) (by omega)
        have hz := Fmt.two_zpow_pos (1 - F.bias)
        nlinarith) (by
      rw [abs_div, div_le_iff₀ p2]
      have hz := Fmt.two_zpow_pos F.bias
      nlinarith)
  obtain ⟨-, -, -, v1, v2⟩ := C141_division (d := d) (after := after) f1 f2 hm
  rw [← Fmt.divFlags_eq f1 f2 hm] at m1 m2
  simp only [Flags.or, n1', n2, n3, n4, d1', d2, d3, d4, m1, m2, v1, v2, Bool.or_self, and_self]

example : convert binary32 i64 .nearest false ⟨9223372036854775807, 3⟩ ⇓
      (0x5E2AAAAB, ⟨false, false, false, false, true⟩) ∧ (i64.bits : ℤ) < binary32.bias := by
  decide +kernel

/-- **C141** An undefined fraction raises `FE_INVALID` and no other flag, and gives a NaN. -/
theorem C141_undefined (hf : f.den = 0) :
    ∃ b, convert F T d after f ⇓ (b, ⟨true, false, false, false, false⟩) ∧ F.NaN b := by
  refine ⟨F.quietNaN, ?_, ?_⟩
  · obtain ⟨z1, z2⟩ := (Fmt.roundedTo_ofInt (F := F) d 0).exact
      (by rw [Int.cast_zero]; exact Fmt.zero_representable)
    rw [Int.cast_zero] at z2
    have n1 := z1.not_nan
    have n3 : ¬ F.Inf (F.ofIntTo d 0) := fun h => by have := h.1; have := z1.2; omega
    have hm : F.magnitude (F.ofIntTo d 0) = 0 := by rw [← Fmt.abs_value, z2, abs_zero]
    have hi : F.ofIntFlags d after 0 = Flags.none := by
      rw [Fmt.ofIntFlags, Int.natAbs_zero, Nat.cast_zero, Fmt.roundFlags_zero]
    have hd : F.divTo d (F.ofIntTo d 0) (F.ofIntTo d 0) = F.quietNaN := by
      simp [Fmt.divTo, n1, n3, hm]
    rw [convert, Raw.reduce_undefined _ hf, ok_bind_false]
    simp [hi, hd, Fmt.divFlags, n1, n3, hm, Flags.or, Flags.none]
  · have h2 : 2 ^ 2 ≤ 2 ^ F.exp := Nat.pow_le_pow_right (by decide) F.exp_ge
    have h3 : 2 ^ (F.mant - 1) < 2 ^ F.mant :=
      Nat.pow_lt_pow_right (by decide) (by have := F.mant_pos; omega)
    obtain ⟨e1, e2⟩ := Fmt.fields_of (F := F) (2 ^ F.exp - 1) h3 (by omega)
    refine ⟨e1, ?_⟩
    rw [Fmt.quietNaN, Fmt.infBits, e2]
    exact (Nat.pow_pos (by decide)).ne'

example : convert binary64 i64 .upward true ⟨7, 0⟩ ⇓
    (0x7FF8000000000000, ⟨true, false, false, false, false⟩) := by decide +kernel

/-- **C141** Whether `FE_INEXACT` is raised does not depend on the rounding direction; nor do the other
flags when the integers fit the exponent range. -/
theorem C141_direction (h : convert F T d after f ⇓ (b, fl)) (h' : convert F T d' after' f ⇓ (c, fl')) :
    fl.inexact = fl'.inexact ∧ ((T.bits : ℤ) < F.bias → fl = fl') := by
  rcases eq_or_ne f.den 0 with h0 | h0
  · obtain ⟨b1, e1, -⟩ := C141_undefined (F := F) (T := T) (d := d) (after := after) h0
    obtain ⟨b2, e2, -⟩ := C141_undefined (F := F) (T := T) (d := d') (after := after') h0
    rw [h] at e1
    rw [h'] at e2
    simp only [Res.ok.injEq, Prod.mk.injEq, and_true] at e1 e2
    rw [e1.2, e2.2]
    simp
  · obtain ⟨q, hq⟩ : ∃ q, Denotes f q := ⟨f.num / f.den, h0, rfl⟩
    have e : fl.inexact = fl'.inexact := by
      have := (C141_inexact hq h).trans (C141_inexact hq h').symm
      rw [← Bool.not_eq_true, ← Bool.not_eq_true, not_iff_not] at this
      exact Bool.eq_iff_iff.2 this
    refine ⟨e, fun hT ↦ ?_⟩
    obtain ⟨a1, a2, a3, a4⟩ := C141_quiet hT hq h
    obtain ⟨b1, b2, b3, b4⟩ := C141_quiet hT hq h'
    cases fl
    cases fl'
    simp_all

example : convert binary32 i32 .upward true ⟨1, 10⟩ ⇓
      (0x3DCCCCCD, ⟨false, false, false, false, true⟩) ∧
    convert binary32 i32 .downward false ⟨1, 10⟩ ⇓
      (0x3DCCCCCC, ⟨false, false, false, false, true⟩) := by decide +kernel

/-- **C141** A normal result without `FE_INEXACT` leads back to the fraction: converting it to a
fraction gives one of the same value. -/
theorem C141_round_trip (hq : Denotes f q) (h : convert F T d after f ⇓ (b, fl))
    (hi : fl.inexact = false) (hb : F.Normal b) {U : IntTy} {o}
    (h' : toFraction .little F U o b ⇓ r) : Denotes r q := by
  have := C58_normal_exact hb h'
  rwa [(C141_exact hq h hi).2.1] at this

example : convert binary32 i32 .nearest true ⟨6, 16⟩ ⇓ (0x3EC00000, Flags.none) ∧
    binary32.Normal 0x3EC00000 ∧ toFraction .little binary32 i32 .defaults 0x3EC00000 ⇓ ⟨3, 8⟩ := by
  decide +kernel

private theorem or_inexact (a b : Flags) : (a.or b).inexact = (a.inexact || b.inexact) := rfl

/-- **C141** Flags stay raised, so one look after any number of conversions is enough: if `FE_INEXACT` is
clear, each result is the value of its fraction; and when the integers fit the exponent range, it is
clear exactly then, and `FE_INVALID` is raised exactly when one of the fractions was undefined. -/
theorem C141_sequence {fs : List Raw} {bs : List ℕ} (h : convertAll F T d after fs ⇓ (bs, fl)) :
    bs.length = fs.length ∧
    (fl.inexact = false → ∀ (i : ℕ) f b, fs[i]? = some f → bs[i]? = some b → ∀ q, Denotes f q →
      F.Finite b ∧ F.value b = q) ∧
    ((T.bits : ℤ) ≤ F.bias → ((∀ f ∈ fs, ∀ q, Denotes f q → F.Representable q) ↔
      fl.inexact = false)) ∧
    ((T.bits : ℤ) < F.bias → ((∃ f ∈ fs, f.den = 0) ↔ fl.invalid = true)) := by
  induction fs generalizing bs fl with
  | nil =>
    obtain ⟨rfl, rfl⟩ := Prod.ext_iff.1 (pure_eq_ok.1 h).1
    simp [Flags.none]
  | cons f fs ih =>
    obtain ⟨⟨b, fb⟩, h1, h⟩ := bind_eq_clean.1 h
    obtain ⟨⟨bs', fr⟩, h2, h⟩ := bind_eq_clean.1 h
    obtain ⟨rfl, rfl⟩ := Prod.ext_iff.1 (pure_eq_ok.1 h).1
    obtain ⟨ih1, ih2, ih3, ih4⟩ := ih h2
    refine ⟨by simp [ih1], fun hi ↦ ?_, fun hT ↦ ?_, fun hT ↦ ?_⟩
    · rw [or_inexact, Bool.or_eq_false_iff] at hi
      rintro (_ | i) g c hg hc q hq
      · simp only [List.getElem?_cons_zero, Option.some.injEq] at hg hc
        subst hg hc
        obtain ⟨e1, e2, -⟩ := C141_exact hq h1 hi.1
        exact ⟨e1, e2⟩
      · simp only [List.getElem?_cons_succ] at hg hc
        exact ih2 hi.2 i g c hg hc q hq
    · rw [or_inexact, Bool.or_eq_false_iff, ← ih3 hT, List.forall_mem_cons]
      refine and_congr_left fun _ ↦ ?_
      rcases eq_or_ne f.den 0 with h0 | h0
      · obtain ⟨b1, e1, -⟩ := C141_undefined (F := F) (T := T) (d := d) (after := after) h0
        rw [h1] at e1
        simp only [Res.ok.injEq, Prod.mk.injEq, and_true] at e1
        rw [e1.2]
        exact iff_of_true (fun q hq ↦ absurd h0 hq.1) rfl
      · have hq : Denotes f (f.num / f.den) := ⟨h0, rfl⟩
        have key := (C141_inexact_iff_partial hT hq h1).1
        rw [← Bool.not_eq_true, key, not_not]
        exact ⟨fun h ↦ h _ hq, fun h q hq' ↦ by rwa [hq'.unique hq]⟩
    · have : (fb.or fr).invalid = (fb.invalid || fr.invalid) := rfl
      rw [this, Bool.or_eq_true, ← ih4 hT]
      have key : f.den = 0 ↔ fb.invalid = true := by
        rcases eq_or_ne f.den 0 with h0 | h0
        · obtain ⟨b1, e1, -⟩ := C141_undefined (F := F) (T := T) (d := d) (after := after) h0
          rw [h1] at e1
          simp only [Res.ok.injEq, Prod.mk.injEq, and_true] at e1
          rw [e1.2]
          exact iff_of_true h0 rfl
        · have hq : Denotes f (f.num / f.den) := ⟨h0, rfl⟩
          rw [(C141_quiet hT hq h1).2.2.1]
          exact iff_of_false h0 (by simp)
      rw [← key]
      simp

example : convertAll binary32 i32 .nearest true [⟨1, 2⟩, ⟨3, -4⟩] ⇓
      ([0x3F000000, 0xBF400000], Flags.none) ∧
    convertAll binary32 i32 .nearest true [⟨1, 2⟩, ⟨1, 0⟩, ⟨1, 3⟩] ⇓
      ([0x3F000000, 0x7FC00000, 0x3EAAAAAB], ⟨true, false, false, false, true⟩) := by
  decide +kernel

end Ieme
