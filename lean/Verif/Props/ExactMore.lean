import Verif.Props.ExactParts
import Verif.Props.DurationAlg
import Verif.Props.Limits
import Verif.Props.Rounding
import Verif.Props.Narrow
import Verif.Lemmas.NarrowMin

/-!
# Exactly where the properties that hold in part fail, continued: C30, C31, C66, C109, C112
-/

namespace Ieme

open Res IntTy Chrono

variable {T : IntTy} {N : NarrowTy} {o : Ops} {f g : Raw} {x t : ℚ} {b w : Bool} {n : ℤ}

/-- **C30** `floor` is right exactly outside the open interval from -1 to 0. -/
theorem C30_floor_exact_iff (hx : Denotes f x) (h : Fraction.floor T f ⇓ n) :
    ((n : ℚ) ≤ x ∧ x < n + 1) ↔ ¬ (-1 < x ∧ x < 0) :=
  ⟨fun h1 h2 => (C30_floor_wrong.1 T f x n hx h2.1 h2.2 h).2 h1.1,
    fun hr => C30_floor_exact_partial hx hr h⟩

/-- **C31** `ceil` is right exactly outside the open interval from -1 to 0. -/
theorem C31_ceil_exact_iff (hx : Denotes f x) (h : Fraction.ceil T f ⇓ n) :
    ((n : ℚ) - 1 < x ∧ x ≤ n) ↔ ¬ (-1 < x ∧ x < 0) :=
  ⟨fun h1 h2 => (C31_ceil_wrong.1 T f x n hx h2.1 h2.2 h).2 h1.1,
    fun hr => C31_ceil_exact_partial hx hr h⟩

example : Denotes ⟨-7, 2⟩ (-7/2) ∧ Fraction.floor i32 ⟨-7, 2⟩ ⇓ -4 ∧ Fraction.ceil i32 ⟨-7, 2⟩ ⇓ -3 ∧
    Denotes ⟨-1, 2⟩ (-1/2) ∧ Fraction.floor i32 ⟨-1, 2⟩ ⇓ 0 ∧ Fraction.ceil i32 ⟨-1, 2⟩ ⇓ 1 :=
  ⟨by norm_num [Denotes], by decide, by decide, by norm_num [Denotes], by decide, by decide⟩

/-- **C66** `max()` and `smallest()` bound every fraction but one each. -/
theorem C66_bounds_iff (hf : f.InRange T) (hx : Denotes f x) :
    (x ≤ T.max ↔ f ≠ ⟨T.min, -1⟩) ∧ (0 < x → (1 / (T.max : ℚ) ≤ x ↔ f ≠ ⟨-1, T.min⟩)) := by
  have h1 := T.max_ge
  have hM : (0 : ℚ) < T.max := by exact_mod_cast (by omega : 0 < T.max)
  have hm : ∀ {v : ℤ}, v < 0 → T.InRange v → T.min = -T.max - 1 := by
    intro v hv hr
    have hr := hr.1
    unfold IntTy.min IntTy.max at *
    split <;> simp_all <;> omega
  refine ⟨⟨?_, C66_upper_bound_partial hf hx⟩, fun h0 => ⟨?_, C66_smallest_partial hf hx h0⟩⟩
  · rintro h rfl
    have hm := hm (v := -1) (by decide) hf.2
    rw [← hx.2] at h
    simp only [hm] at h
    push_cast at h
    linarith
  · rintro h rfl
    have hm := hm (v := -1) (by decide) hf.1
    rw [← hx.2] at h
    simp only [hm] at h
    push_cast at h
    rw [show (-(T.max : ℚ) - 1) = -(T.max + 1) by ring, neg_div_neg_eq,
      div_le_div_iff₀ hM (by linarith)] at h
    linarith

example : (⟨-2147483648, -1⟩ : Raw).InRange i32 ∧ Denotes ⟨-2147483648, -1⟩ 2147483648 ∧
    (⟨-2147483648, -1⟩ : Raw) = ⟨i32.min, -1⟩ ∧ (⟨-2147483648, -2⟩ : Raw).InRange i32 ∧
    Denotes ⟨-2147483648, -2⟩ 1073741824 :=
  ⟨by decide, by norm_num [Denotes], by decide, by decide, by norm_num [Denotes]⟩

/-- **C109** On a narrow type `is_proper` is right exactly when neither or both of the parts are
the least value of a signed type. -/
theorem C109_is_proper_iff (hf : f.InNarrow N) (h : Narrow.isProper N f = .ok b w) :
    (b = true ↔ |f.num| < |f.den|) ↔
      (N.signed = true → (f.num = N.min ↔ f.den = N.min)) := by
  unfold Narrow.isProper at h
  by_cases hs : N.signed = true
  · have h0 := NarrowTy.min_neg hs
    by_cases hn : f.num = N.min <;> by_cases hd : f.den = N.min
    · rw [hn, hd, Narrow.mathAbs_min hs] at h
      replace h : Res.ok (decide (N.min < N.min)) true = .ok b w := h
      obtain ⟨rfl, -⟩ := Res.ok.inj h
      simp [hn, hd]
    · rw [hn, Narrow.mathAbs_min hs, Narrow.mathAbs_clean hf.2 fun _ => hd] at h
      replace h : Res.ok (decide (N.min < |f.den|)) true = .ok b w := h
      obtain ⟨rfl, -⟩ := Res.ok.inj h
      have h2 : |f.den| ≤ |N.min| := NarrowTy.abs_le_min hf.2 hs
      have h3 := abs_nonneg f.den
      exact iff_of_false (fun e => h2.not_gt (hn ▸ e.1 (decide_eq_true (by omega))))
        fun e => hd ((e hs).1 hn)
    · rw [hd, Narrow.mathAbs_min hs, Narrow.mathAbs_clean hf.1 fun _ => hn] at h
      replace h : Res.ok (decide (|f.num| < N.min)) true = .ok b w := h
      obtain ⟨rfl, -⟩ := Res.ok.inj h
      have h2 : |f.num| < |N.min| := NarrowTy.abs_lt_min hf.1 hs hn
      have h3 := abs_nonneg f.num
      refine iff_of_false (fun e => ?_) fun e => hn ((e hs).2 hd)
      have := of_decide_eq_true (e.2 (by rwa [hd]))
      omega
    · rw [Narrow.mathAbs_clean hf.1 fun _ => hn, ok_bind_false,
        Narrow.mathAbs_clean hf.2 fun _ => hd, ok_bind_false] at h
      obtain ⟨rfl, -⟩ := pure_eq_ok.1 h
      simp [hn, hd]
  · rw [Narrow.mathAbs_clean hf.1 fun h => (hs h).elim, ok_bind_false,
      Narrow.mathAbs_clean hf.2 fun h => (hs h).elim, ok_bind_false] at h
    obtain ⟨rfl, -⟩ := pure_eq_ok.1 h
    simp [hs]

example : (⟨-128, -128⟩ : Raw).InNarrow i8 ∧ Narrow.isProper i8 ⟨-128, -128⟩ = .ok false true ∧
    (⟨1, -128⟩ : Raw).InNarrow i8 ∧ Narrow.isProper i8 ⟨1, -128⟩ = .ok false true ∧
    i8.min = -128 := by decide

/-- **C109** On a narrow type `normalize_signs` keeps the value of a defined fraction exactly
when its denominator is positive, its numerator is zero, or neither or both of the parts are the
least value; it makes the denominator positive unless that is the least value. -/
theorem C109_normalize_signs_iff (hf : f.InNarrow N) (h0 : f.den ≠ 0)
    (h : Narrow.normalizeSigns N f = .ok g w) :
    ((∀ q, Denotes g q ↔ Denotes f q) ↔
      0 < f.den ∨ f.num = 0 ∨ (f.num = N.min ↔ f.den = N.min)) ∧
    (0 < g.den ↔ 0 < f.den ∨ f.den ≠ N.min) := by
  by_cases hp : 0 < f.den
  · rw [Narrow.normalizeSigns, if_pos hp] at h
    obtain ⟨rfl, -⟩ := pure_eq_ok.1 h
    simp [hp]
  · have hs : N.signed = true := by
      by_contra hs
      have : 0 ≤ f.den := by simpa [NarrowTy.InRange, NarrowTy.min, hs] using hf.2.1
      omega
    have hm := NarrowTy.min_neg hs
    have flip : ∀ {a b : ℤ}, a ≠ 0 → b ≠ 0 → (¬ ∀ q : ℚ, Denotes ⟨a, -b⟩ q ↔ Denotes ⟨a, b⟩ q) ∧
        ¬ ∀ q : ℚ, Denotes ⟨-a, b⟩ q ↔ Denotes ⟨a, b⟩ q := by
      intro a b ha hb
      have h0 : ((a : ℚ) / b) ≠ 0 := div_ne_zero (by exact_mod_cast ha) (by exact_mod_cast hb)
      constructor <;>
      · intro hq
        have := ((hq (a / b)).2 ⟨hb, rfl⟩).2
        simp only [Int.cast_neg, neg_div, div_neg] at this
        exact h0 (by linarith)
    rw [Narrow.normalizeSigns, if_neg hp,
      neg_clean.2 ⟨NarrowTy.neg_inRange_int hf.1, rfl⟩, ok_bind_false,
      neg_clean.2 ⟨NarrowTy.neg_inRange_int hf.2, rfl⟩] at h
    simp only [ok_bind_false] at h
    simp only [hp, false_or]
    by_cases hn : f.num = N.min <;> by_cases hd : f.den = N.min
    · rw [hn, hd, NarrowTy.conv_neg_min hs] at h
      replace h : Res.ok (⟨N.min, N.min⟩ : Raw) true = .ok g w := h
      obtain ⟨rfl, -⟩ := Res.ok.inj h
      have : f = ⟨N.min, N.min⟩ := by cases f; simp_all
      simp [this, hm.le]
    · rw [hn, NarrowTy.conv_neg_min hs, NarrowTy.conv_ok (NarrowTy.neg_inRange hf.2 hs hd)] at h
      replace h : Res.ok (⟨N.min, -f.den⟩ : Raw) true = .ok g w := h
      obtain ⟨rfl, -⟩ := Res.ok.inj h
      have e : f = ⟨N.min, f.den⟩ := by cases f; simp_all
      refine ⟨iff_of_false (fun h => (flip hm.ne h0).1 fun q => (h q).trans (by rw [← e])) ?_, ?_⟩
      · simp only [hn, hd, true_iff, or_false]; omega
      · simp only [hd, not_false_eq_true, iff_true, ne_eq]; omega
    · rw [hd, NarrowTy.conv_neg_min hs, NarrowTy.conv_ok (NarrowTy.neg_inRange hf.1 hs hn)] at h
      replace h : Res.ok (⟨-f.num, N.min⟩ : Raw) true = .ok g w := h
      obtain ⟨rfl, -⟩ := Res.ok.inj h
      refine ⟨?_, ?_⟩
      · by_cases hz : f.num = 0
        · have : f = ⟨0, N.min⟩ := by cases f; simp_all
          simp [this]
        · have e : f = ⟨f.num, N.min⟩ := by cases f; simp_all
          exact iff_of_false (fun h => (flip hz hm.ne).2 fun q => (h q).trans (by rw [← e]))
            (by simp [hn, hd, hz])
      · simp only [hd, ne_eq, not_true_eq_false, iff_false]; omega
    · rw [NarrowTy.conv_ok (NarrowTy.neg_inRange hf.1 hs hn),
        NarrowTy.conv_ok (NarrowTy.neg_inRange hf.2 hs hd)] at h
      replace h : Res.ok (⟨-f.num, -f.den⟩ : Raw) false = .ok g w := h
      obtain ⟨rfl, -⟩ := Res.ok.inj h
      refine ⟨iff_of_true (fun q => by simp [Denotes, neg_div_neg_eq]) (.inr (by simp [hn, hd])), ?_⟩
      simp only [hd, not_false_eq_true, iff_true, ne_eq]; omega

example : (⟨-128, -3⟩ : Raw).InNarrow i8 ∧
    Narrow.normalizeSigns i8 ⟨-128, -3⟩ = .ok ⟨-128, 3⟩ true ∧
    Narrow.normalizeSigns i8 ⟨5, -128⟩ = .ok ⟨-5, -128⟩ true ∧
    Narrow.normalizeSigns i8 ⟨0, -128⟩ = .ok ⟨0, -128⟩ true := by decide

/-- **C112** `abs` of a duration that finishes lasts the absolute value exactly when the policy
orders the count and zero correctly, or the duration is zero. -/
theorem C112_abs_exact_iff {p : Period} (hf : Lasts p (.frac f) t) (h : Chrono.abs T o p f ⇓ g) :
    ∃ x y : Raw, Chrono.common T o p p (.frac f) (.frac Chrono.zero) ⇓ (x, y) ∧
      (Lasts p (.frac g) |t| ↔ o.OrderSafe (.ff x y) ∨ t = 0) := by
  have p0 := p.seconds_pos.ne'
  have uniq : ∀ {g : Raw} {s u : ℚ}, Lasts p (.frac g) s → (Lasts p (.frac g) u ↔ u = s) := by
    intro g s u hs
    refine ⟨fun hu => ?_, fun h => h ▸ hs⟩
    simp only [Lasts, Count.Is, Denotes] at hs hu
    have := hu.2.symm.trans hs.2
    field_simp at this
    exact this
  unfold Chrono.abs at h
  split at h
  · obtain ⟨b, h1, h⟩ := bind_eq_clean.1 h
    have hz : Lasts p (.frac Chrono.zero) 0 := by
      norm_num [Lasts, Count.Is, Denotes, Chrono.zero, Fraction.mk]
    obtain ⟨x, y, h2, h3⟩ := C88_compare_iff hf hz h1
    refine ⟨x, y, h2, ?_⟩
    simp only [CmpOp.IsOrder, not_true_eq_false, or_false, CmpOp.Holds] at h3
    rw [← h3]
    cases b with
    | true =>
      obtain rfl := (pure_eq_ok.1 h).1
      rw [uniq hf]
      simp
    | false =>
      have := (C87_scale_exact (n := 0) (k := ⟨0, 1⟩) (x := 0) hf (by norm_num [Denotes])).1 h
      rw [uniq this, abs_eq_neg_self]
      simp only [Bool.false_eq_true, false_iff, ge_iff_le, not_le] at h3 ⊢
      exact ⟨fun h => h.lt_of_ne fun e => h.not_gt (e.symm ▸ h3.2 (.inr e)), le_of_lt⟩
  · cases h

private def second : Period := ⟨1, 1, by decide, by decide, by decide⟩

example : Lasts second (.frac ⟨1, -2⟩) (-1/2) ∧ Chrono.abs i64 .fast second ⟨1, -2⟩ ⇓ ⟨1, -2⟩ ∧
    Chrono.common i64 .fast second second (.frac ⟨1, -2⟩) (.frac Chrono.zero) ⇓
      (⟨1, -2⟩, ⟨0, 1⟩) ∧ ¬ Ops.fast.OrderSafe (.ff ⟨1, -2⟩ ⟨0, 1⟩) :=
  ⟨by norm_num [Lasts, Count.Is, Denotes, Period.seconds, second], by decide +kernel,
    by decide +kernel, by simp [Ops.OrderSafe]⟩

end Ieme
