import Verif.Model.DurationAlg
import Verif.Props.Duration
import Verif.Props.Limits

/-!
# C112: algorithms of `std::chrono` on fractional durations
-/

namespace Ieme
open Res IntTy Chrono

variable {T : IntTy} {o : Ops} {p q : Period} {c : Count} {f g : Raw} {t a : ℚ}

private theorem cast_eq : durationCast T o p q c = convert T o p q c := by
  unfold convert durationCast
  cases ratioDivide p q with
  | none => rfl
  | some z => simp [treatAsFloatingPoint]

/-- Durations of equal length are not ordered, whatever the policy. -/
private theorem less_irrefl {l r : Count} {b : Bool} (hl : Lasts p l t) (hr : Lasts q r t)
    (h : Chrono.cmp T o .less p q l r ⇓ b) : b = false := by
  obtain ⟨⟨x, y⟩, h1, h2⟩ := bind_eq_clean.1 h
  obtain ⟨c, hc⟩ : ∃ c, commonPeriod p q = some c := by
    rcases hc : commonPeriod p q with _ | c
    · rw [Chrono.common, hc] at h1; cases h1
    · exact ⟨c, rfl⟩
  obtain ⟨dx, dy⟩ := common_denotes hc hl hr h1
  simp only [Fraction.cmp_self] at h2
  obtain ⟨k1, k2⟩ := C15_order_characterised (a := .ff x y) ⟨dx, dy⟩ h2
  cases b with
  | false => rfl
  | true =>
    by_cases hs : o.OrderSafe (.ff x y)
    · exact absurd ((k1 hs).1 rfl) (lt_irrefl _)
    · exact absurd ((k2 hs).1 rfl) (lt_irrefl _)

private theorem cast_lasts (hc : Lasts p c t) (h : durationCast T o p q c ⇓ g) :
    Lasts q (.frac g) t := by
  rw [cast_eq] at h
  have := C67_duration_cast_exact hc h
  rwa [div_mul_cancel₀ _ p.seconds_pos.ne'] at this

/-- **C112** Under every policy `floor` to a fractional duration keeps the exact length: it is the
plain conversion and does not round to a whole count. -/
theorem C112_floor_exact (hc : Lasts p c t) (h : Chrono.floor T o p q c ⇓ g) :
    Lasts q (.frac g) t ∧ convert T o p q c ⇓ g := by
  obtain ⟨x, h1, h⟩ := bind_eq_clean.1 h
  obtain ⟨b, h2, h⟩ := bind_eq_clean.1 h
  have hx := cast_lasts hc h1
  obtain rfl := less_irrefl hc hx h2
  obtain rfl := (pure_eq_ok.1 h).1
  exact ⟨hx, cast_eq ▸ h1⟩

/-- **C112** The same for `ceil`. -/
theorem C112_ceil_exact (hc : Lasts p c t) (h : Chrono.ceil T o p q c ⇓ g) :
    Lasts q (.frac g) t ∧ convert T o p q c ⇓ g := by
  obtain ⟨x, h1, h⟩ := bind_eq_clean.1 h
  obtain ⟨b, h2, h⟩ := bind_eq_clean.1 h
  have hx := cast_lasts hc h1
  obtain rfl := less_irrefl hx hc h2
  obtain rfl := (pure_eq_ok.1 h).1
  exact ⟨hx, cast_eq ▸ h1⟩

/-- **C112, partial.**  Full claim: `abs` of a duration lasts the absolute value.  Proved for
policies built on `safe` and for positive denominators; false otherwise, see `C112_abs_wrong`. -/
theorem C112_abs_exact_partial (hf : Lasts p (.frac f) t) (hs : o.SafeBased ∨ 0 < f.den)
    (h : Chrono.abs T o p f ⇓ g) : Lasts p (.frac g) |t| := by
  unfold Chrono.abs at h
  split at h
  · obtain ⟨b, h1, h⟩ := bind_eq_clean.1 h
    have hz : Lasts p (.frac Chrono.zero) 0 := by
      norm_num [Lasts, Count.Is, Denotes, Chrono.zero, Fraction.mk]
    have := C88_compare_exact_partial hf hz (hs.imp_right fun h => ⟨h, (Int.zero_lt_one : (0 : ℤ) < 1)⟩) h1
    cases b with
    | true =>
      obtain rfl := (pure_eq_ok.1 h).1
      rwa [abs_of_nonneg (this.1 rfl)]
    | false =>
      have ht : t < 0 := not_le.1 fun h0 => by simpa using this.2 h0
      rw [abs_of_neg ht]
      exact (C87_scale_exact (n := 0) (k := ⟨0, 1⟩) (x := 0) hf (by norm_num [Denotes])).1 h
  · cases h

/-- **C112** (negation) Under `fast` `abs` leaves `1/(-2)` seconds negative. -/
theorem C112_abs_wrong :
    ¬ ∀ (T : IntTy) (o : Ops) (p : Period) (f g : Raw) (t : ℚ), Lasts p (.frac f) t →
      Chrono.abs T o p f ⇓ g → Lasts p (.frac g) |t| := by
  intro h
  have := h i64 .fast ⟨1, 1, by decide, by decide, by decide⟩ ⟨1, -2⟩ ⟨1, -2⟩ (-1 / 2)
    (by norm_num [Lasts, Count.Is, Denotes, Period.seconds]) (by decide +kernel)
  norm_num [Lasts, Count.Is, Denotes, Period.seconds] at this

/-- **C112** `abs` does not exist for unsigned representations. -/
theorem C112_abs_unsigned (hs : T.signed = false) : Chrono.abs T o p f = .fault .illFormed := by
  simp [Chrono.abs, hs]

/-- **C112** `zero()` has no length, `min()` is a least duration, and `max()` a greatest apart from
the count with parts `min` and `-1`. -/
theorem C112_bounds (hf : f.InRange T) (hx : Lasts p (.frac f) t) :
    Lasts p (.frac Chrono.zero) 0 ∧
    (Lasts p (.frac (durMin T)) a → a ≤ t) ∧
    (Lasts p (.frac (durMax T)) a → f ≠ ⟨T.min, -1⟩ → t ≤ a) := by
  have p0 := p.seconds_pos
  obtain ⟨m1, m2, -⟩ := C66_limit_values (T := T)
  refine ⟨by norm_num [Lasts, Count.Is, Denotes, Chrono.zero, Fraction.mk], fun ha => ?_,
    fun ha hne => ?_⟩
  · have e : a / p.seconds = T.min := ha.2.symm.trans m2.2
    rw [← div_le_div_iff_of_pos_right p0, e]
    exact C66_lower_bound hf hx
  · have e : a / p.seconds = T.max := ha.2.symm.trans m1.2
    rw [← div_le_div_iff_of_pos_right p0, e]
    exact C66_upper_bound_partial hf hx hne

/-- 1001/30000 s -/
private def frame : Period := ⟨1001, 30000, by decide, by decide, by decide⟩
private def sec : Period := ⟨1, 1, by decide, by decide, by decide⟩

example : Lasts frame (.frac ⟨-5, 2⟩) (-1001 / 12000) ∧
    Chrono.floor i64 .defaults frame sec (.frac ⟨-5, 2⟩) ⇓ ⟨-1001, 12000⟩ ∧
    Chrono.ceil i64 .fast frame sec (.frac ⟨5, -2⟩) ⇓ ⟨5005, -60000⟩ ∧
    Chrono.floor i64 .defaults frame sec (.int 7) ⇓ ⟨7007, 30000⟩ ∧
    Chrono.abs i64 .defaults frame ⟨5, -2⟩ ⇓ ⟨5, 2⟩ ∧
    Chrono.abs i64 .fast frame ⟨-5, 2⟩ ⇓ ⟨5, 2⟩ ∧
    Chrono.abs i64 .fast sec ⟨-9223372036854775808, 1⟩ = .fault .overflow ∧
    (⟨-5, 2⟩ : Raw).InRange i64 := by
  refine ⟨by norm_num [Lasts, Count.Is, Denotes, Period.seconds, frame], by decide +kernel,
    by decide +kernel, by decide +kernel, by decide +kernel, by decide +kernel, by decide +kernel,
    by decide⟩

end Ieme
