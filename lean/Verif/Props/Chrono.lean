import Verif.Lemmas.Chrono
import Verif.Model.Chrono
import Verif.Lemmas.ParseValue
import Verif.Props.Compare
import Verif.Props.Arith

/-!
# Durations: properties C67 and C68
-/

namespace Ieme

open Res IntTy Chrono

variable {T : IntTy} {o : Ops} {p q s : Period} {c : Count} {r : Raw}

/-- **C67** Converting a duration of any count, integer or fractional, and any period to a
fractional duration of any period multiplies the count by the quotient of the periods. -/
theorem C67_duration_cast_exact {x : ℚ} (hc : c.Is x) (h : convert T o p q c ⇓ r) :
    Denotes r (x * p.seconds / q.seconds) := by
  unfold convert at h
  split at h
  · cases h
  rename_i n' d' hr'
  split at h
  swap
  · cases h
  unfold durationCast at h
  rw [hr'] at h
  obtain ⟨n0, d0, hf⟩ := Chrono.ratioDivide_factor hr'
  have hdq : (d' : ℚ) ≠ 0 := by exact_mod_cast d0.ne'
  obtain ⟨f, h1, h2⟩ := bind_eq_clean.1 h
  have hx := Chrono.cast_denotes hc h1
  rw [mul_div_assoc, ← hf]
  split at h2
  · rename_i h11
    obtain rfl := (pure_eq_ok.1 h2).1
    rw [h11.1, h11.2, Int.cast_one, div_one, mul_one]
    exact hx
  split at h2
  · rename_i h11
    obtain ⟨g, h3, h4⟩ := bind_eq_clean.1 h2
    have := Chrono.mul_denotes hx (Chrono.factor_denotes h3) h4
    rwa [h11, Int.cast_one, div_one]
  split at h2
  · rename_i h11
    obtain ⟨g, h3, h4⟩ := bind_eq_clean.1 h2
    have := Chrono.div_denotes hx (Chrono.factor_denotes h3) hdq h4
    rwa [h11, Int.cast_one, mul_one_div]
  · obtain ⟨g, h3, h4⟩ := bind_eq_clean.1 h2
    obtain ⟨y, h5, h6⟩ := bind_eq_clean.1 h4
    obtain ⟨k, h7, h8⟩ := bind_eq_clean.1 h6
    have := Chrono.div_denotes (Chrono.mul_denotes hx (Chrono.factor_denotes h3) h5) (Chrono.factor_denotes h7) hdq h8
    rwa [mul_div_assoc] at this

/-- **C67** A conversion is rejected by the compiler only if the conversion factor in lowest
terms does not fit `std::intmax_t`; in particular it is not required, as for integer durations,
that the factor be a whole number. -/
theorem C67_accepted_iff :
    convert T o p q c ≠ .fault .illFormed ↔ FitsParts i64 (conversionFactor p q) := by
  rw [Chrono.convert_eq, durationCast, Chrono.ratioDivide_eq]
  by_cases h : i64.InRange (conversionFactor p q).num ∧ i64.InRange (conversionFactor p q).den
  · rw [if_pos h]
    refine ⟨fun _ => h, fun _ => ?_⟩
    suffices hs : Res.NoThrow (durationCast T o p q c) by
      rw [durationCast, Chrono.ratioDivide_eq, if_pos h] at hs
      exact fun e => (hs _ e).2 rfl
    rw [durationCast, Chrono.ratioDivide_eq, if_pos h]
    refine Chrono.cast_noThrow.bind fun _ => ?_
    repeat' first
      | exact NoThrow.pure _
      | exact Fraction.arith_noThrow _ _ _ _ _
      | exact Chrono.factor_noThrow _
      | (refine NoThrow.bind ?_ fun _ => ?_)
      | split
  · rw [if_neg h]
    exact ⟨fun h' => absurd rfl h', fun h' => absurd h' h⟩

/-- **C67** `to_fractional` of a duration or time point always finishes and gives the count
over one. -/
theorem C67_to_fractional {n : ℤ} (hn : T.InRange n) : toFractional T o p n ⇓ ⟨n, 1⟩ := by
  have hp : ratioDivide p p = some (1, 1) := by
    have h0 : 0 < p.num * p.den := mul_pos p.num_pos p.den_pos
    have hg : (Int.gcd (p.num * p.den) (p.den * p.num) : ℤ) = p.num * p.den := by
      rw [mul_comm p.den, Int.gcd_self]; omega
    rw [ratioDivide]
    simp only [hg]
    rw [mul_comm p.den, Int.ediv_self h0.ne']
    rfl
  rw [toFractional, Chrono.convert_eq, durationCast, hp]
  simp only [Count.cast, conv_clean.2 ⟨hn, rfl⟩, ok_bind_false]
  rfl

/-- **C67** The conversion finishes on a signed representation if the count times the
numerator of the factor, and its denominator, are small. -/
theorem C67_finishes {K B : ℕ} (hs : T.signed = true)
    (hq : FitsParts i64 (conversionFactor p q)) (hc : c.AbsLe K) (hK : 1 ≤ K)
    (hn : K * (conversionFactor p q).num.natAbs ≤ B) (hd : (conversionFactor p q).den ≤ B)
    (hB : (2 * (B * B) : ℤ) ≤ T.max) : ∃ r, convert T o p q c ⇓ r := by
  have hr := (Chrono.ratioDivide_eq (p := p) (q := q)).trans (if_pos hq)
  obtain ⟨n0, -, -⟩ := Chrono.ratioDivide_factor hr
  have smin : T.min = -T.max - 1 := min_signed hs
  have hK' : K * 1 ≤ K * (conversionFactor p q).num.natAbs := Nat.mul_le_mul_left _ (by omega)
  have hBB : (B : ℤ) ≤ B * B := le_mul_of_one_le_left (by omega) (by omega)
  obtain ⟨f, h1, h2, h3⟩ : ∃ f, c.cast T ⇓ f ∧ f.AbsLe K ∧ f.den ≠ 0 := by
    cases c with
    | frac f => exact ⟨f, rfl, hc⟩
    | int m =>
      have hm : m.natAbs ≤ K := hc
      have : T.InRange m := by constructor <;> omega
      refine ⟨⟨m, 1⟩, ?_, ⟨hm, hK⟩, one_ne_zero⟩
      rw [Count.cast, conv_clean.2 ⟨this, rfl⟩, ok_bind_false]
      rfl
  exact Chrono.convert_finishes hs hr h1 h2 h3 hK hn (by simpa using hd) hB

/-- **C67** Exactly when a conversion finishes without overflow, and with which parts: the
factor must fit `std::intmax_t`, an integer count and the parts of the factor other than 1 must
fit the representation, and the multiplication by the numerator and the division by the
denominator, where they are not 1, must finish. -/
theorem C67_finishes_iff : convert T o p q c ⇓ r ↔
    FitsParts i64 (conversionFactor p q) ∧ c.Fits T ∧
    if conversionFactor p q = 1 then r = c.parts
    else if (conversionFactor p q).den = 1 then
      T.InRange (conversionFactor p q).num ∧
      Fraction.arith T T o .multiplies (.ff c.parts ⟨(conversionFactor p q).num, 1⟩) ⇓ r
    else if (conversionFactor p q).num = 1 then
      T.InRange (conversionFactor p q).den ∧
      Fraction.arith T T o .divides (.ff c.parts ⟨(conversionFactor p q).den, 1⟩) ⇓ r
    else T.InRange (conversionFactor p q).num ∧ T.InRange (conversionFactor p q).den ∧
      ∃ y, Fraction.arith T T o .multiplies (.ff c.parts ⟨(conversionFactor p q).num, 1⟩) ⇓ y ∧
        Fraction.arith T T o .divides (.ff y ⟨(conversionFactor p q).den, 1⟩) ⇓ r := by
  generalize hk : conversionFactor p q = k
  have hcast : ∀ x, c.cast T ⇓ x ↔ c.Fits T ∧ x = c.parts := fun x => by
    cases c with
    | int n =>
      simp only [Count.cast, bind_eq_clean, conv_clean, pure_eq_ok, and_true, Count.Fits,
        Count.parts]
      exact ⟨fun ⟨_, ⟨h, rfl⟩, e⟩ => ⟨h, e.symm⟩, fun ⟨h, e⟩ => ⟨n, ⟨h, rfl⟩, e.symm⟩⟩
    | frac f =>
      simp only [Count.cast, pure_eq_ok, and_true, Count.Fits, Count.parts, true_and, eq_comm]
  have hfac : ∀ (n : ℤ) x, factor T n ⇓ x ↔ T.InRange n ∧ x = ⟨n, 1⟩ := fun n x => by
    simp only [factor, bind_eq_clean, conv_clean, pure_eq_ok, and_true]
    exact ⟨fun ⟨_, ⟨h, rfl⟩, e⟩ => ⟨h, e.symm⟩, fun ⟨h, e⟩ => ⟨n, ⟨h, rfl⟩, e.symm⟩⟩
  have h1 : k = 1 ↔ k.num = 1 ∧ (k.den : ℤ) = 1 := by
    constructor
    · rintro rfl; decide
    · rintro ⟨a, b⟩
      have b' : k.den = 1 := by exact_mod_cast b
      rw [← Rat.num_div_den k, a, b']; norm_num
  have h2 : k.den = 1 ↔ (k.den : ℤ) = 1 := by norm_cast
  rw [Chrono.convert_eq, durationCast, Chrono.ratioDivide_eq, hk]
  by_cases hf : FitsParts i64 k
  swap
  · rw [if_neg (show ¬ (i64.InRange k.num ∧ i64.InRange k.den) from hf)]
    exact ⟨fun h => (by cases h), fun h => absurd h.1 hf⟩
  rw [if_pos (show i64.InRange k.num ∧ i64.InRange k.den from hf)]
  simp only [bind_eq_clean, hcast, hf, true_and]
  by_cases e1 : k = 1
  · simp only [if_pos e1, if_pos (h1.1 e1), pure_eq_ok, and_true]
    exact ⟨fun ⟨_, ⟨a, rfl⟩, e⟩ => ⟨a, e.symm⟩, fun ⟨a, e⟩ => ⟨_, ⟨a, rfl⟩, e.symm⟩⟩
  simp only [if_neg e1, if_neg (fun h => e1 (h1.2 h))]
  by_cases e2 : k.den = 1
  · simp only [if_pos e2, if_pos (h2.1 e2), bind_eq_clean, hfac]
    exact ⟨fun ⟨_, ⟨a, rfl⟩, _, ⟨b, rfl⟩, h⟩ => ⟨a, b, h⟩,
      fun ⟨a, b, h⟩ => ⟨_, ⟨a, rfl⟩, _, ⟨b, rfl⟩, h⟩⟩
  simp only [if_neg e2, if_neg (fun h => e2 (h2.2 h))]
  by_cases e3 : k.num = 1
  · simp only [if_pos e3, bind_eq_clean, hfac]
    exact ⟨fun ⟨_, ⟨a, rfl⟩, _, ⟨b, rfl⟩, h⟩ => ⟨a, b, h⟩,
      fun ⟨a, b, h⟩ => ⟨_, ⟨a, rfl⟩, _, ⟨b, rfl⟩, h⟩⟩
  · simp only [if_neg e3, bind_eq_clean, hfac]
    exact ⟨fun ⟨_, ⟨a, rfl⟩, _, ⟨b, rfl⟩, y, h, _, ⟨b', rfl⟩, h'⟩ => ⟨a, b, b', y, h, h'⟩,
      fun ⟨a, b, b', y, h, h'⟩ => ⟨_, ⟨a, rfl⟩, _, ⟨b, rfl⟩, y, h, _, ⟨b', rfl⟩, h'⟩⟩

/-- **C67** `clock_wrapper::now` gives the reading of the clock in the wrapper's period. -/
theorem C67_now_exact {n : ℤ} (h : now T o p q n ⇓ r) :
    Denotes r (n * p.seconds / q.seconds) :=
  C67_duration_cast_exact (c := .int n) rfl h

/-- Periods for the examples: milliseconds, seconds, minutes, and frames of 1001/30000 s. -/
private def ms : Period := ⟨1, 1000, by decide, by decide, by decide⟩
private def sec : Period := ⟨1, 1, by decide, by decide, by decide⟩
private def min' : Period := ⟨60, 1, by decide, by decide, by decide⟩
private def frame : Period := ⟨1001, 30000, by decide, by decide, by decide⟩

example : (Count.int 1500).Is 1500 ∧ convert i64 .defaults ms min' (.int 1500) ⇓ ⟨1, 40⟩ ∧
    (Count.frac ⟨1, 7⟩).Is (1 / 7) ∧
    convert i64 .fast frame ms (.frac ⟨1, 7⟩) ⇓ ⟨1001, 210⟩ ∧
    convert i32 .safe min' sec (.int (-7)) ⇓ ⟨-420, 1⟩ ∧
    toFractional i64 .defaults ms 1500 ⇓ ⟨1500, 1⟩ ∧
    conversionFactor frame ms = 1001 / 30 ∧ (Count.frac ⟨1, 7⟩).AbsLe 7 ∧ 7 * 1001 ≤ 7007 ∧
    (2 * (7007 * 7007) : ℤ) ≤ i32.max :=
  ⟨rfl, by decide, ⟨by decide, by norm_num⟩, by decide, by decide, by decide,
    by norm_num [conversionFactor, Period.seconds, frame, ms],
    ⟨⟨by decide, by decide⟩, by decide⟩, by decide, by decide⟩

/-- The largest count of minutes that can be converted to milliseconds on `int`, and counts that
can not be converted. -/
example : conversionFactor min' ms = 60000 ∧ (Count.int 35791).Fits i32 ∧
    convert i32 .safe min' ms (.int 35791) ⇓ ⟨2147460000, 1⟩ ∧
    (∀ r, ¬ convert i32 .safe min' ms (.int 35792) ⇓ r) ∧
    (∀ r, ¬ convert i32 .safe sec sec (.int 2147483648) ⇓ r) :=
  ⟨by norm_num [conversionFactor, Period.seconds, min', ms], ⟨by decide, by decide⟩, by decide,
    (fun r h => by
      have e : convert i32 .safe min' ms (.int 35792) = Res.fault .overflow := by decide
      rw [e] at h; cases h), fun r h => absurd (C67_finishes_iff.1 h).2.1 (by
      show ¬ i32.InRange _; decide)⟩

/-- A factor that fits and one that does not. -/
example : FitsParts i64 (conversionFactor frame ms) ∧
    ¬ FitsParts i64 (conversionFactor
      ⟨9223372036854775807, 1, by decide, by decide, by decide⟩ ms) := by
  decide +kernel

/-! ## Round trips -/

/-- **C68** Converting a fractional duration to another period and back gives the same count;
the two compare equal whenever the comparison finishes. -/
theorem C68_round_trip {f g : Raw} {x : ℚ} (hx : Denotes f x)
    (h1 : convert T o p q (.frac f) ⇓ g) (h2 : convert T o q p (.frac g) ⇓ r) :
    Denotes r x ∧ ∀ b, Fraction.cmp T T o .equalTo (.ff r f) ⇓ b → b = true := by
  have e1 := C67_duration_cast_exact (c := .frac f) hx h1
  have e2 := C67_duration_cast_exact (c := .frac g) e1 h2
  have hr : Denotes r x := by
    have a := p.seconds_pos.ne'
    have b := q.seconds_pos.ne'
    have : x * p.seconds / q.seconds * q.seconds / p.seconds = x := by field_simp
    rwa [this] at e2
  refine ⟨hr, fun b hb => ?_⟩
  rw [Fraction.cmp_self] at hb
  exact (C13_eq_exact (a := .ff r f) ⟨hr, hx⟩ hb).2 rfl

/-- **C68** Converting through an intermediate period gives the same value as converting
directly, for integer and fractional sources alike, and even if the two ways use different
policies. -/
theorem C68_intermediate_period {o₁ o₂ o₃ : Ops} {x : ℚ} {g r₁ r₂ : Raw} (hc : c.Is x)
    (h1 : convert T o₁ p q c ⇓ g) (h2 : convert T o₂ q s (.frac g) ⇓ r₁)
    (h3 : convert T o₃ p s c ⇓ r₂) : SameValue r₁ r₂ := by
  have e1 := C67_duration_cast_exact hc h1
  have e2 := C67_duration_cast_exact (c := .frac g) e1 h2
  have e3 := C67_duration_cast_exact hc h3
  refine ⟨_, e2, ?_⟩
  have b := q.seconds_pos.ne'
  have : x * p.seconds / q.seconds * q.seconds / s.seconds = x * p.seconds / s.seconds := by
    field_simp
  rwa [this]

/-- **C68** Distinct counts stay distinct. -/
theorem C68_injective {c' : Count} {x x' : ℚ} (hc : c.Is x) (hc' : c'.Is x')
    (h1 : convert T o p q c ⇓ r) (h2 : convert T o p q c' ⇓ r) : x = x' := by
  have e1 := C67_duration_cast_exact hc h1
  have e2 := C67_duration_cast_exact hc' h2
  have e := e1.unique e2
  have a := p.seconds_pos.ne'
  have b := q.seconds_pos.ne'
  rw [div_left_inj' b] at e
  exact mul_right_cancel₀ a e

example : Denotes ⟨5, 3⟩ (5 / 3) ∧ convert i64 .defaults sec frame (.frac ⟨5, 3⟩) ⇓ ⟨50000, 1001⟩ ∧
    convert i64 .defaults frame sec (.frac ⟨50000, 1001⟩) ⇓ ⟨5, 3⟩ ∧
    Fraction.cmp i64 i64 .defaults .equalTo (.ff ⟨5, 3⟩ ⟨5, 3⟩) ⇓ true ∧
    convert i64 .fast ms sec (.int 90) ⇓ ⟨90, 1000⟩ ∧
    convert i64 .fast sec min' (.frac ⟨90, 1000⟩) ⇓ ⟨90, 60000⟩ ∧
    convert i64 .defaults ms min' (.int 90) ⇓ ⟨3, 2000⟩ ∧ SameValue ⟨90, 60000⟩ ⟨3, 2000⟩ :=
  ⟨⟨by decide, by norm_num⟩, by decide, by decide, by decide, by decide, by decide, by decide,
    3 / 2000, ⟨by decide, by norm_num⟩, ⟨by decide, by norm_num⟩⟩

end Ieme
