import Verif.Lemmas.Rounding
import Verif.Lemmas.Pow
import Mathlib.Order.Bounds.Basic

/-!
# Rounding, redenomination and powers: properties C29–C37
-/

namespace Ieme

open Res IntTy

variable {T : IntTy} {o : Ops} {f r : Raw} {x : ℚ} {n d : ℤ}

/-- **C29** `trunc` discards the fractional part: the result has the sign of the value and
`|n| ≤ |x| < |n| + 1`. -/
theorem C29_trunc_exact {w : Bool} (hx : Denotes f x) (h : Fraction.trunc T f = .ok n w) :
    |(n : ℚ)| ≤ |x| ∧ |x| < |(n : ℚ)| + 1 ∧ 0 ≤ (n : ℚ) * x ∧ n = ratTrunc x := by
  have hn := (Fraction.trunc_ok hx h).1
  have hn' := hn
  unfold ratTrunc at hn
  split at hn
  · rename_i h0
    have h1 := Int.floor_le x
    have h2 := Int.lt_floor_add_one x
    rw [← hn] at h1 h2
    have h3 : (0 : ℚ) ≤ n := by rw [hn]; exact_mod_cast Int.floor_nonneg.2 h0
    rw [abs_of_nonneg h3, abs_of_nonneg h0]
    exact ⟨h1, h2, by positivity, hn'⟩
  · rename_i h0
    have h1 := Int.le_ceil x
    have h2 := Int.ceil_lt_add_one x
    rw [← hn] at h1 h2
    have h3 : (n : ℚ) ≤ 0 := by
      rw [hn]; exact_mod_cast Int.ceil_le.2 (by push_cast; linarith)
    have h0 : x < 0 := not_le.1 h0
    rw [abs_of_nonpos h3, abs_of_neg h0]
    exact ⟨by linarith, by linarith, mul_nonneg_of_nonpos_of_nonpos h3 h0.le, hn'⟩

/-- **C29** (also C30, C31) `trunc`, `floor` and `ceil` finish cleanly on every defined
fraction except the minimum value divided by minus one. -/
theorem C29_whole_parts_finish (h0 : f.den ≠ 0) (hf : f.InRange T)
    (hm : ¬ (f.num = T.min ∧ f.den = -1)) :
    (∃ n, Fraction.trunc T f ⇓ n) ∧ (∃ n, Fraction.floor T f ⇓ n) ∧
    (∃ n, Fraction.ceil T f ⇓ n) := by
  have hmax := T.max_ge
  have habs : 2 ≤ f.den.natAbs → 2 * (f.num.tdiv f.den).natAbs ≤ f.num.natAbs := by
    intro h2
    rw [Int.natAbs_tdiv]
    calc 2 * (f.num.natAbs / f.den.natAbs) ≤ f.den.natAbs * (f.num.natAbs / f.den.natAbs) :=
          Nat.mul_le_mul_right _ h2
      _ ≤ f.num.natAbs := Nat.mul_div_le _ _
  have hN : (f.num.natAbs : ℤ) ≤ T.max + 1 := by
    obtain ⟨h1, h2⟩ := hf.1
    cases hs : T.signed
    · have := hf.1.nonneg hs; omega
    · have := min_signed hs; omega
  have hsign : T.signed = false → 0 ≤ f.num.tdiv f.den := fun hs =>
    Int.tdiv_nonneg (hf.1.nonneg hs) (hf.2.nonneg hs)
  have hmin : T.signed = true → T.min = -T.max - 1 := min_signed
  have hmin' : T.signed = false → T.min = 0 := min_unsigned
  have hr : T.InRange (f.num.tdiv f.den) := by
    by_cases h2 : 2 ≤ f.den.natAbs
    · have := habs h2
      cases hs : T.signed
      · have := hsign hs; have := hmin' hs; constructor <;> omega
      · have := hmin hs; constructor <;> omega
    · have : f.den = 1 ∨ f.den = -1 := by omega
      rcases this with e | e
      · rw [e, Int.tdiv_one]; exact hf.1
      · rw [e, Int.tdiv_neg, Int.tdiv_one]
        have hne : f.num ≠ T.min := fun h => hm ⟨h, e⟩
        obtain ⟨h1, h2⟩ := hf.1
        cases hs : T.signed
        · have := hf.2.nonneg hs; omega
        · have := hmin hs; constructor <;> omega
  have ht : Fraction.trunc T f ⇓ (f.num.tdiv f.den) := div_clean.2 ⟨h0, hr, rfl⟩
  have hi : f.isInteger T ⇓ (f.num.tmod f.den == 0) := by
    rw [Raw.isInteger, if_pos (Raw.isDefined_iff.2 h0), mod_clean.2 ⟨h0, hr, rfl⟩, ok_bind_false]
    rfl
  have hden : (f.num.tmod f.den == 0) = false → 2 ≤ f.den.natAbs := by
    intro h
    by_contra hc
    have : f.den = 1 ∨ f.den = -1 := by omega
    rcases this with e | e <;> rw [e] at h <;> simp at h
  refine ⟨⟨_, ht⟩, ?_, ?_⟩
  · rw [Fraction.floor, ht, ok_bind_false, hi, ok_bind_false]
    split
    · exact ⟨_, rfl⟩
    · rename_i hc
      simp only [Bool.or_eq_true, decide_eq_true_eq, not_or, Bool.not_eq_true] at hc
      have := habs (hden hc.1)
      refine ⟨_, sub_clean.2 ⟨?_, rfl⟩⟩
      cases hs : T.signed
      · have := hsign hs; omega
      · have := hmin hs; constructor <;> omega
  · rw [Fraction.ceil, ht, ok_bind_false, hi, ok_bind_false]
    split
    · exact ⟨_, rfl⟩
    · rename_i hc
      simp only [Bool.or_eq_true, decide_eq_true_eq, not_or, Bool.not_eq_true] at hc
      have := habs (hden hc.1)
      refine ⟨_, add_clean.2 ⟨?_, rfl⟩⟩
      cases hs : T.signed
      · have := hmin' hs; constructor <;> omega
      · have := hmin hs; constructor <;> omega

example : Denotes ⟨-7, 2⟩ (-7/2) ∧ Fraction.trunc i32 ⟨-7, 2⟩ ⇓ -3 ∧
    Fraction.floor i32 ⟨-7, 2⟩ ⇓ -4 ∧ Fraction.ceil i32 ⟨7, 2⟩ ⇓ 4 ∧
    (⟨-7, 2⟩ : Raw).InRange i32 ∧ Fraction.trunc i32 ⟨-2147483648, -1⟩ = .fault .overflow :=
  ⟨by norm_num [Denotes], by decide, by decide, by decide, by decide, by decide⟩

/-- **C30, partial.**  Full claim: `floor(f) ≤ v < floor(f) + 1` for every defined fraction.
Proved for every value outside the open interval `(-1, 0)`; inside it the claim is false,
see `C30_floor_wrong`. -/
theorem C30_floor_exact_partial (hx : Denotes f x) (hr : ¬ (-1 < x ∧ x < 0))
    (h : Fraction.floor T f ⇓ n) : (n : ℚ) ≤ x ∧ x < n + 1 := by
  rw [Fraction.floor_val hx h, if_neg hr]
  exact ⟨Int.floor_le x, Int.lt_floor_add_one x⟩

/-- **C30, refuted in general.**  On the whole interval `(-1, 0)` `floor` answers `0`, one
too many; for instance `floor(-1/2)` is `0`. -/
theorem C30_floor_wrong :
    (∀ (T : IntTy) (f : Raw) (x : ℚ) (n : ℤ), Denotes f x → -1 < x → x < 0 →
      Fraction.floor T f ⇓ n → n = 0 ∧ ¬ ((n : ℚ) ≤ x)) ∧
    Fraction.floor i32 ⟨-1, 2⟩ ⇓ 0 := by
  refine ⟨?_, by decide⟩
  intro T f x n hx h1 h2 h
  have := Fraction.floor_val hx h
  rw [if_pos ⟨h1, h2⟩] at this
  subst this
  exact ⟨rfl, by push_cast; linarith⟩

example : Denotes ⟨7, -2⟩ (-7/2) ∧ ¬ (-1 < (-7/2 : ℚ) ∧ (-7/2 : ℚ) < 0) ∧
    Fraction.floor i32 ⟨7, -2⟩ ⇓ -4 :=
  ⟨by norm_num [Denotes], by norm_num, by decide⟩

/-- **C31, partial.**  Full claim: `ceil(f) - 1 < v ≤ ceil(f)` for every defined fraction.
Proved for every value outside the open interval `(-1, 0)`; inside it the claim is false,
see `C31_ceil_wrong`. -/
theorem C31_ceil_exact_partial (hx : Denotes f x) (hr : ¬ (-1 < x ∧ x < 0))
    (h : Fraction.ceil T f ⇓ n) : (n : ℚ) - 1 < x ∧ x ≤ n := by
  rw [Fraction.ceil_val hx h, if_neg hr]
  have := Int.ceil_lt_add_one x
  exact ⟨by linarith, Int.le_ceil x⟩

/-- **C31, refuted in general.**  On the whole interval `(-1, 0)` `ceil` answers `1`, one too
many; for instance `ceil(-1/2)` is `1`. -/
theorem C31_ceil_wrong :
    (∀ (T : IntTy) (f : Raw) (x : ℚ) (n : ℤ), Denotes f x → -1 < x → x < 0 →
      Fraction.ceil T f ⇓ n → n = 1 ∧ ¬ ((n : ℚ) - 1 < x)) ∧
    Fraction.ceil i32 ⟨-1, 2⟩ ⇓ 1 := by
  refine ⟨?_, by decide⟩
  intro T f x n hx h1 h2 h
  have := Fraction.ceil_val hx h
  rw [if_pos ⟨h1, h2⟩] at this
  subst this
  exact ⟨rfl, by push_cast; linarith⟩

example : Denotes ⟨-7, 2⟩ (-7/2) ∧ ¬ (-1 < (-7/2 : ℚ) ∧ (-7/2 : ℚ) < 0) ∧
    Fraction.ceil i32 ⟨-7, 2⟩ ⇓ -3 :=
  ⟨by norm_num [Denotes], by norm_num, by decide⟩

/-- **C32, partial.**  Full claim: `round` is the nearest integer, ties upwards, for every
defined fraction and policy.  Proved for values outside `(-1, -1/2)`, unless the denominator is
negative under a policy built on `fast` that never fixes signs; the missing cases are false, see
`C32_round_wrong`, and `C32_round_exact_iff` for the exact condition. -/
theorem C32_round_exact_partial (hx : Denotes f x) (hr : ¬ (-1 < x ∧ x < -1 / 2))
    (hs : o.RoundsProperly f) (h : Fraction.round T o f ⇓ n) : NearestUp x n := by
  have hn := Fraction.round_val hx hs h
  rw [if_neg hr] at hn
  exact hn ▸ nearestUp_floor x

/-- **C32** The exact condition under which `round` is right.  Under a policy that never fixes
the sign of the denominator it is right by accident, for halves only. -/
theorem C32_round_exact_iff (hx : Denotes f x) (h : Fraction.round T o f ⇓ n) :
    NearestUp x n ↔ (o.RoundsProperly f ∧ ¬ (-1 < x ∧ x < -1 / 2)) ∨
      (¬ o.RoundsProperly f ∧ (∃ m : ℤ, x = m + 1 / 2) ∧ x ≠ -1 / 2) := by
  by_cases hs : o.RoundsProperly f
  · simp only [hs, true_and, not_true_eq_false, false_and, or_false]
    refine ⟨fun hn hr => ?_, fun hr => C32_round_exact_partial hx hr hs h⟩
    have := Fraction.round_val hx hs h
    rw [if_pos hr] at this
    subst this
    have := (abs_le.1 hn.1).2
    push_cast at this
    linarith [hr.2]
  · simp only [hs, false_and, not_false_eq_true, true_and, false_or]
    obtain ⟨m, hm, -, hn⟩ := Fraction.round_cases hx h
    have hn := hn hs
    by_cases hc : -1 < x ∧ x < 0
    · rw [if_pos hc] at hm
      subst hm
      rw [if_neg (by push_cast; linarith [hc.2])] at hn
      subst hn
      refine ⟨fun hn => ?_, ?_⟩
      · have := (abs_le.1 hn.1).2
        push_cast at this
        linarith [hc.2]
      · rintro ⟨⟨k, rfl⟩, hk⟩
        have h1 : ((-2 : ℤ) : ℚ) < k := by push_cast; linarith [hc.1]
        have h2 : (k : ℚ) < ((0 : ℤ) : ℚ) := by push_cast; linarith [hc.2]
        have h1 : -2 < k := by exact_mod_cast h1
        have h2 : k < 0 := by exact_mod_cast h2
        have : k = -1 := by omega
        subst this
        exact absurd (by norm_num) hk
    · rw [if_neg hc] at hm
      have h1 := Int.floor_le x
      have h2 := Int.lt_floor_add_one x
      rw [← hm] at h1 h2
      constructor
      · intro hN
        have hN' := abs_le.1 hN.1
        split at hn
        · rename_i hgt
          rw [hn] at hN'
          linarith [hN'.1]
        · rename_i hle
          rw [hn] at hN'
          push_cast at hN'
          have : x = m + 1 / 2 := by linarith [hN'.2]
          refine ⟨⟨m, this⟩, fun e => hc ?_⟩
          rw [e]; norm_num
      · rintro ⟨⟨k, rfl⟩, -⟩
        have h3 : (m : ℚ) < ((k + 1 : ℤ) : ℚ) := by push_cast; linarith
        have h4 : (k : ℚ) < ((m + 1 : ℤ) : ℚ) := by push_cast; linarith
        have h3 : m < k + 1 := by exact_mod_cast h3
        have h4 : k < m + 1 := by exact_mod_cast h4
        have : m = k := by omega
        subst this
        rw [if_neg (by linarith)] at hn
        rw [hn]
        have := nearestUp_floor ((m : ℚ) + 1 / 2)
        have e : ⌊(m : ℚ) + 1 / 2 + 1 / 2⌋ = m + 1 := by
          rw [Int.floor_eq_iff]; push_cast; constructor <;> linarith
        rwa [e] at this

/-- **C32, refuted in general.**  On `(-1, -1/2)` the answer is `0` instead of `-1` (for
instance `round(-3/4)` is `0`); and under `fast` with a negative denominator the comparison
inside is reversed, so `round(1/(-3))` is `1`. -/
theorem C32_round_wrong :
    (∀ (T : IntTy) (o : Ops) (f : Raw) (x : ℚ) (n : ℤ), o.SafeBased → Denotes f x → -1 < x →
      x < -1 / 2 → Fraction.round T o f ⇓ n → n = 0 ∧ ¬ NearestUp x n) ∧
    Fraction.round i32 .defaults ⟨-3, 4⟩ ⇓ 0 ∧ Fraction.round i32 .fast ⟨1, -3⟩ ⇓ 1 := by
  refine ⟨?_, by decide, by decide⟩
  intro T o f x n hs hx h1 h2 h
  have := Fraction.round_val hx (.inr (.inl hs)) h
  rw [if_pos ⟨h1, h2⟩] at this
  subst this
  refine ⟨rfl, fun hn => ?_⟩
  have h4 := (abs_le.1 hn.1).2
  push_cast at h4; linarith

example : Denotes ⟨-5, 2⟩ (-5/2) ∧ Ops.defaults.RoundsProperly ⟨-5, 2⟩ ∧
    ¬ Ops.fast.RoundsProperly ⟨3, -2⟩ ∧ Fraction.round i32 .fast ⟨3, -2⟩ ⇓ -1 ∧
    Fraction.round i32 .defaults ⟨-5, 2⟩ ⇓ -2 ∧ Fraction.round i32 .defaults ⟨5, 2⟩ ⇓ 3 ∧
    Fraction.round i32 .fast ⟨7, 3⟩ ⇓ 2 :=
  ⟨by norm_num [Denotes], .inl (by decide), by simp [Ops.RoundsProperly, Ops.SafeBased,
    Ops.IgnoresSigns], by decide, by decide, by decide, by decide⟩

/-- **C33** `to_whole` and `redenominate` dispatch on the mode; the default is `round`, also
for values outside the enumeration. -/
theorem C33_dispatch (f : Raw) (d : ℤ) :
    Fraction.toWhole T o f .trunc = Fraction.trunc T f ∧
    Fraction.toWhole T o f .ceil = Fraction.ceil T f ∧
    Fraction.toWhole T o f .floor = Fraction.floor T f ∧
    Fraction.toWhole T o f .round = Fraction.round T o f ∧
    Fraction.toWhole T o f = Fraction.round T o f ∧
    Fraction.toWhole T o f .other = Fraction.round T o f ∧
    Fraction.redenominate T o f d .trunc = Fraction.truncRedenominate T o f d ∧
    Fraction.redenominate T o f d .ceil = Fraction.ceilRedenominate T o f d ∧
    Fraction.redenominate T o f d .floor = Fraction.floorRedenominate T o f d ∧
    Fraction.redenominate T o f d .round = Fraction.roundRedenominate T o f d ∧
    Fraction.redenominate T o f d = Fraction.roundRedenominate T o f d ∧
    Fraction.redenominate T o f d .other = Fraction.roundRedenominate T o f d :=
  ⟨rfl, rfl, rfl, rfl, rfl, rfl, rfl, rfl, rfl, rfl, rfl, rfl⟩

/-- **C33** The four modes select four different functions. -/
theorem C33_modes_differ :
    Fraction.toWhole i32 .defaults ⟨-9, 4⟩ .trunc ⇓ -2 ∧
    Fraction.toWhole i32 .defaults ⟨-9, 4⟩ .floor ⇓ -3 ∧
    Fraction.toWhole i32 .defaults ⟨9, 4⟩ .ceil ⇓ 3 ∧
    Fraction.toWhole i32 .defaults ⟨9, 4⟩ .round ⇓ 2 ∧
    Fraction.toWhole i32 .defaults ⟨-7, 4⟩ .round ⇓ -2 ∧
    Fraction.toWhole i32 .defaults ⟨-7, 4⟩ .trunc ⇓ -1 ∧
    Fraction.toWhole i32 .defaults ⟨11, 4⟩ ⇓ 3 := by decide

/-- **C34** `trunc_redenominate`: denominator exactly `d`, and among the multiples of `1/d`
not exceeding the value in magnitude and of its sign, the one of largest magnitude. -/
theorem C34_trunc_redenominate (hd : d ≠ 0) (hx : Denotes f x)
    (h : Fraction.truncRedenominate T o f d ⇓ r) : r.den = d ∧
      |gridPoint d r.num| ≤ |x| ∧ 0 ≤ gridPoint d r.num * x ∧
      ∀ m : ℤ, |gridPoint d m| ≤ |x| → |gridPoint d m| ≤ |gridPoint d r.num| := by
  obtain ⟨p, hp, h⟩ := bind_eq_clean.1 h
  obtain ⟨n, hn, h⟩ := bind_eq_clean.1 h
  simp only [pure_eq_ok, and_true] at h
  subst h
  have hdq : (d : ℚ) ≠ 0 := by exact_mod_cast hd
  have hda : 0 < |(d : ℚ)| := abs_pos.2 hdq
  obtain ⟨h1, h2, h3, -⟩ := C29_trunc_exact (redenominate_product hx hp) hn
  rw [abs_mul] at h1 h2
  simp only [Fraction.mk, gridPoint, abs_div]
  refine ⟨trivial, by rwa [div_le_iff₀ hda], ?_, fun m hm => ?_⟩
  · have : (n : ℚ) / d * x = (n * (x * d)) / (d * d) := by field_simp
    rw [this]
    exact div_nonneg h3 (mul_self_nonneg _)
  · rw [div_le_iff₀ hda] at hm
    rw [div_le_div_iff_of_pos_right hda]
    have : |(m : ℚ)| < |(n : ℚ)| + 1 := lt_of_le_of_lt hm h2
    have h4 : |m| < |n| + 1 := by exact_mod_cast this
    have h5 : |m| ≤ |n| := by omega
    exact_mod_cast h5

/-- **C34, partial** `floor_redenominate`: the largest multiple of `1/d` not above the value,
for positive and negative `d`.  Missing (false in the code, see `C34_redenominate_wrong`):
values with `-1 < x * |d| < 0`. -/
theorem C34_floor_redenominate_partial (hd : d ≠ 0) (hx : Denotes f x)
    (hr : ¬ (-1 < x * |(d : ℚ)| ∧ x * |(d : ℚ)| < 0))
    (h : Fraction.floorRedenominate T o f d ⇓ r) : r.den = d ∧
      IsGreatest {v | ∃ m : ℤ, v = gridPoint d m ∧ v ≤ x} (gridPoint d r.num) := by
  have hdq : (d : ℚ) ≠ 0 := by exact_mod_cast hd
  unfold Fraction.floorRedenominate at h
  split at h
  · rename_i h0
    have hpos : (0 : ℚ) < d := by
      have : 0 < d := by omega
      exact_mod_cast this
    rw [abs_of_pos hpos] at hr
    obtain ⟨p, hp, h⟩ := bind_eq_clean.1 h
    obtain ⟨n, hn, h⟩ := bind_eq_clean.1 h
    simp only [pure_eq_ok, and_true] at h
    subst h
    obtain ⟨h1, h2⟩ := C30_floor_exact_partial (redenominate_product hx hp) hr hn
    refine ⟨rfl, ⟨n, rfl, by simpa only [gridPoint, Fraction.mk, div_le_iff₀ hpos] using h1⟩, ?_⟩
    rintro v ⟨m, rfl, hv⟩
    simp only [gridPoint, Fraction.mk] at hv ⊢
    rw [div_le_iff₀ hpos] at hv
    rw [div_le_div_iff_of_pos_right hpos]
    have : (m : ℚ) < n + 1 := lt_of_le_of_lt hv h2
    have : m < n + 1 := by exact_mod_cast this
    exact_mod_cast (by omega : m ≤ n)
  · rename_i h0
    have hneg : (d : ℚ) < 0 := by
      have : d < 0 := by omega
      exact_mod_cast this
    have hpos : (0 : ℚ) < -d := by linarith
    rw [abs_of_neg hneg] at hr
    obtain ⟨k, hk, h⟩ := bind_eq_clean.1 h
    obtain ⟨-, rfl⟩ := neg_clean.1 hk
    obtain ⟨p, hp, h⟩ := bind_eq_clean.1 h
    obtain ⟨n, hn, h⟩ := bind_eq_clean.1 h
    obtain ⟨c, hc, h⟩ := bind_eq_clean.1 h
    obtain ⟨-, rfl⟩ := neg_clean.1 hc
    simp only [pure_eq_ok, and_true] at h
    subst h
    have hp' := redenominate_product hx hp
    push_cast at hp'
    obtain ⟨h1, h2⟩ := C30_floor_exact_partial hp' hr hn
    have e : ∀ m : ℤ, gridPoint d m = (-(m : ℚ)) / (-(d : ℚ)) := fun m => by
      rw [gridPoint, neg_div_neg_eq]
    refine ⟨rfl, ⟨-n, rfl, ?_⟩, ?_⟩
    · rw [e, div_le_iff₀ hpos]; simp only [Fraction.mk]; push_cast; linarith
    · rintro v ⟨m, rfl, hv⟩
      rw [e, div_le_iff₀ hpos] at hv
      rw [e, e, div_le_div_iff_of_pos_right hpos]
      have h5 : -(m : ℚ) < n + 1 := by linarith
      have h5 : -m < n + 1 := by exact_mod_cast h5
      have h6 : -m ≤ n := by omega
      simp only [Fraction.mk]
      push_cast
      rw [neg_neg]
      exact_mod_cast h6

/-- **C34, partial** `ceil_redenominate`: the smallest multiple of `1/d` not below the value.
Missing (false in the code): values with `-1 < x * |d| < 0`. -/
theorem C34_ceil_redenominate_partial (hd : d ≠ 0) (hx : Denotes f x)
    (hr : ¬ (-1 < x * |(d : ℚ)| ∧ x * |(d : ℚ)| < 0))
    (h : Fraction.ceilRedenominate T o f d ⇓ r) : r.den = d ∧
      IsLeast {v | ∃ m : ℤ, v = gridPoint d m ∧ x ≤ v} (gridPoint d r.num) := by
  have hdq : (d : ℚ) ≠ 0 := by exact_mod_cast hd
  unfold Fraction.ceilRedenominate at h
  split at h
  · rename_i h0
    have hpos : (0 : ℚ) < d := by
      have : 0 < d := by omega
      exact_mod_cast this
    rw [abs_of_pos hpos] at hr
    obtain ⟨p, hp, h⟩ := bind_eq_clean.1 h
    obtain ⟨n, hn, h⟩ := bind_eq_clean.1 h
    simp only [pure_eq_ok, and_true] at h
    subst h
    obtain ⟨h1, h2⟩ := C31_ceil_exact_partial (redenominate_product hx hp) hr hn
    refine ⟨rfl, ⟨n, rfl, by simpa only [gridPoint, Fraction.mk, le_div_iff₀ hpos] using h2⟩, ?_⟩
    rintro v ⟨m, rfl, hv⟩
    simp only [gridPoint, Fraction.mk] at hv ⊢
    rw [le_div_iff₀ hpos] at hv
    rw [div_le_div_iff_of_pos_right hpos]
    have : (n : ℚ) - 1 < m := lt_of_lt_of_le h1 hv
    have : n - 1 < m := by exact_mod_cast this
    exact_mod_cast (by omega : n ≤ m)
  · rename_i h0
    have hneg : (d : ℚ) < 0 := by
      have : d < 0 := by omega
      exact_mod_cast this
    have hpos : (0 : ℚ) < -d := by linarith
    rw [abs_of_neg hneg] at hr
    obtain ⟨k, hk, h⟩ := bind_eq_clean.1 h
    obtain ⟨-, rfl⟩ := neg_clean.1 hk
    obtain ⟨p, hp, h⟩ := bind_eq_clean.1 h
    obtain ⟨n, hn, h⟩ := bind_eq_clean.1 h
    obtain ⟨c, hc, h⟩ := bind_eq_clean.1 h
    obtain ⟨-, rfl⟩ := neg_clean.1 hc
    simp only [pure_eq_ok, and_true] at h
    subst h
    have hp' := redenominate_product hx hp
    push_cast at hp'
    obtain ⟨h1, h2⟩ := C31_ceil_exact_partial hp' hr hn
    have e : ∀ m : ℤ, gridPoint d m = (-(m : ℚ)) / (-(d : ℚ)) := fun m => by
      rw [gridPoint, neg_div_neg_eq]
    refine ⟨rfl, ⟨-n, rfl, ?_⟩, ?_⟩
    · rw [e, le_div_iff₀ hpos]; simp only [Fraction.mk]; push_cast; linarith
    · rintro v ⟨m, rfl, hv⟩
      rw [e, le_div_iff₀ hpos] at hv
      rw [e, e, div_le_div_iff_of_pos_right hpos]
      have h5 : (n : ℚ) - 1 < -m := by linarith
      have h5 : n - 1 < -m := by exact_mod_cast h5
      have h6 : n ≤ -m := by omega
      simp only [Fraction.mk]
      push_cast
      rw [neg_neg]
      exact_mod_cast h6

/-- **C34** The exact condition under which `floor_redenominate` is right. -/
theorem C34_floor_redenominate_iff (hd : d ≠ 0) (hx : Denotes f x)
    (h : Fraction.floorRedenominate T o f d ⇓ r) :
    IsGreatest {v | ∃ m : ℤ, v = gridPoint d m ∧ v ≤ x} (gridPoint d r.num) ↔
      ¬ (-1 < x * |(d : ℚ)| ∧ x * |(d : ℚ)| < 0) := by
  refine ⟨fun hg hr => ?_, fun hr => (C34_floor_redenominate_partial hd hx hr h).2⟩
  obtain ⟨k, hk, hle⟩ := hg.1
  have h0 : r.num = 0 := by
    unfold Fraction.floorRedenominate at h
    split at h
    · rename_i h0
      have hpos : (0 : ℚ) < d := by exact_mod_cast lt_of_le_of_ne h0 hd.symm
      rw [abs_of_pos hpos] at hr
      obtain ⟨p, hp, h⟩ := bind_eq_clean.1 h
      obtain ⟨n, hn, h⟩ := bind_eq_clean.1 h
      simp only [pure_eq_ok, and_true] at h
      subst h
      exact (C30_floor_wrong.1 _ _ _ _ (redenominate_product hx hp) hr.1 hr.2 hn).1
    · rename_i h0
      have hneg : (d : ℚ) < 0 := by exact_mod_cast not_le.1 h0
      rw [abs_of_neg hneg] at hr
      obtain ⟨k, hk, h⟩ := bind_eq_clean.1 h
      obtain ⟨-, rfl⟩ := neg_clean.1 hk
      obtain ⟨p, hp, h⟩ := bind_eq_clean.1 h
      obtain ⟨n, hn, h⟩ := bind_eq_clean.1 h
      obtain ⟨c, hc, h⟩ := bind_eq_clean.1 h
      obtain ⟨-, rfl⟩ := neg_clean.1 hc
      simp only [pure_eq_ok, and_true] at h
      subst h
      have hp' := redenominate_product hx hp
      push_cast at hp'
      simp [Fraction.mk, (C30_floor_wrong.1 _ _ _ _ hp' hr.1 hr.2 hn).1]
  rw [h0, gridPoint] at hle
  push_cast at hle
  rw [zero_div] at hle
  have := mul_nonneg hle (abs_nonneg (d : ℚ))
  linarith [hr.2]

/-- **C34** The exact condition under which `ceil_redenominate` is right. -/
theorem C34_ceil_redenominate_iff (hd : d ≠ 0) (hx : Denotes f x)
    (h : Fraction.ceilRedenominate T o f d ⇓ r) :
    IsLeast {v | ∃ m : ℤ, v = gridPoint d m ∧ x ≤ v} (gridPoint d r.num) ↔
      ¬ (-1 < x * |(d : ℚ)| ∧ x * |(d : ℚ)| < 0) := by
  have hdq : (d : ℚ) ≠ 0 := by exact_mod_cast hd
  refine ⟨fun hg hr => ?_, fun hr => (C34_ceil_redenominate_partial hd hx hr h).2⟩
  have hle : gridPoint d r.num ≤ 0 :=
    hg.2 ⟨0, by simp [gridPoint], by nlinarith [abs_pos.2 hdq, hr.2]⟩
  have h0 : gridPoint d r.num = 1 / |(d : ℚ)| := by
    unfold Fraction.ceilRedenominate at h
    split at h
    · rename_i h0
      have hpos : (0 : ℚ) < d := by exact_mod_cast lt_of_le_of_ne h0 hd.symm
      rw [abs_of_pos hpos] at hr ⊢
      obtain ⟨p, hp, h⟩ := bind_eq_clean.1 h
      obtain ⟨n, hn, h⟩ := bind_eq_clean.1 h
      simp only [pure_eq_ok, and_true] at h
      subst h
      simp [Fraction.mk, gridPoint,
        (C31_ceil_wrong.1 _ _ _ _ (redenominate_product hx hp) hr.1 hr.2 hn).1]
    · rename_i h0
      have hneg : (d : ℚ) < 0 := by exact_mod_cast not_le.1 h0
      rw [abs_of_neg hneg] at hr ⊢
      obtain ⟨k, hk, h⟩ := bind_eq_clean.1 h
      obtain ⟨-, rfl⟩ := neg_clean.1 hk
      obtain ⟨p, hp, h⟩ := bind_eq_clean.1 h
      obtain ⟨n, hn, h⟩ := bind_eq_clean.1 h
      obtain ⟨c, hc, h⟩ := bind_eq_clean.1 h
      obtain ⟨-, rfl⟩ := neg_clean.1 hc
      simp only [pure_eq_ok, and_true] at h
      subst h
      have hp' := redenominate_product hx hp
      push_cast at hp'
      simp [Fraction.mk, gridPoint, (C31_ceil_wrong.1 _ _ _ _ hp' hr.1 hr.2 hn).1, neg_div,
        div_neg]
  rw [h0] at hle
  have : 0 < 1 / |(d : ℚ)| := by positivity
  linarith

/-- **C34, partial** `round_redenominate`: within `1/(2|d|)` of the value, and of two multiples
equally near the one with the larger numerator.  Missing (false in the code, see
`C34_round_redenominate_iff`): values with `-1 < x * d < -1/2`, and negative denominators under
policies that never fix signs. -/
theorem C34_round_redenominate_partial (hd : d ≠ 0) (hx : Denotes f x)
    (hr : ¬ (-1 < x * d ∧ x * d < -1 / 2)) (hs : o.RoundsProperly f)
    (h : Fraction.roundRedenominate T o f d ⇓ r) : r.den = d ∧
      |gridPoint d r.num - x| ≤ 1 / (2 * |(d : ℚ)|) ∧
      ∀ m : ℤ, |gridPoint d m - x| = 1 / (2 * |(d : ℚ)|) → m ≤ r.num := by
  obtain ⟨p, hp, h⟩ := bind_eq_clean.1 h
  obtain ⟨n, hn, h⟩ := bind_eq_clean.1 h
  simp only [pure_eq_ok, and_true] at h
  subst h
  exact ⟨rfl, (nearestUp_grid hd).1 (C32_round_exact_partial (redenominate_product hx hp) hr
    ((redenominate_properly hx.1 hp).2 hs) hn)⟩

/-- **C34** The exact condition under which `round_redenominate` is right. -/
theorem C34_round_redenominate_iff (hd : d ≠ 0) (hx : Denotes f x)
    (h : Fraction.roundRedenominate T o f d ⇓ r) :
    (|gridPoint d r.num - x| ≤ 1 / (2 * |(d : ℚ)|) ∧
      ∀ m : ℤ, |gridPoint d m - x| = 1 / (2 * |(d : ℚ)|) → m ≤ r.num) ↔
    (o.RoundsProperly f ∧ ¬ (-1 < x * d ∧ x * d < -1 / 2)) ∨
      (¬ o.RoundsProperly f ∧ (∃ m : ℤ, x * d = m + 1 / 2) ∧ x * d ≠ -1 / 2) := by
  obtain ⟨p, hp, h⟩ := bind_eq_clean.1 h
  obtain ⟨n, hn, h⟩ := bind_eq_clean.1 h
  simp only [pure_eq_ok, and_true] at h
  subst h
  rw [← redenominate_properly hx.1 hp, ← C32_round_exact_iff (redenominate_product hx hp) hn]
  exact (nearestUp_grid hd).symm

/-- **C34** Asking for the denominator zero gives the undefined fraction `0/0` in every mode;
under a policy that never fixes signs, rounding a fraction with a negative denominator gives
`1/0`. -/
theorem C34_redenominate_zero {mode : RoundMode} (hx : Denotes f x)
    (h : Fraction.redenominate T o f 0 mode ⇓ r) :
    ((mode = .trunc ∨ mode = .ceil ∨ mode = .floor ∨ o.RoundsProperly f) → r = ⟨0, 0⟩) ∧
    (mode = .round ∨ mode = .other → ¬ o.RoundsProperly f → r = ⟨1, 0⟩) := by
  have hround : Fraction.roundRedenominate T o f 0 ⇓ r →
      (o.RoundsProperly f → r = ⟨0, 0⟩) ∧ (¬ o.RoundsProperly f → r = ⟨1, 0⟩) := by
    intro h
    obtain ⟨p, hp, h⟩ := bind_eq_clean.1 h
    obtain ⟨n, hn, h⟩ := bind_eq_clean.1 h
    simp only [pure_eq_ok, and_true] at h
    subst h
    have hpd := redenominate_product hx hp
    rw [Int.cast_zero, mul_zero] at hpd
    obtain ⟨k, hk, h1, h2⟩ := Fraction.round_cases hpd hn
    simp only [lt_self_iff_false, and_false, if_false, Int.floor_zero] at hk
    subst hk
    rw [redenominate_properly hx.1 hp] at h1 h2
    refine ⟨fun hs => ?_, fun hs => ?_⟩
    · have := h1 hs
      norm_num at this
      rw [this]; rfl
    · have := h2 hs
      norm_num at this
      rw [this]; rfl
  cases mode
  · obtain ⟨p, hp, h⟩ := bind_eq_clean.1 h
    obtain ⟨n, hn, h⟩ := bind_eq_clean.1 h
    simp only [pure_eq_ok, and_true] at h
    subst h
    have hpd := redenominate_product hx hp
    rw [Int.cast_zero, mul_zero] at hpd
    rw [(C29_trunc_exact hpd hn).2.2.2]
    simp [ratTrunc, Fraction.mk]
  · rw [Fraction.redenominate, Fraction.ceilRedenominate, if_pos (le_refl _)] at h
    obtain ⟨p, hp, h⟩ := bind_eq_clean.1 h
    obtain ⟨n, hn, h⟩ := bind_eq_clean.1 h
    simp only [pure_eq_ok, and_true] at h
    subst h
    have hpd := redenominate_product hx hp
    rw [Int.cast_zero, mul_zero] at hpd
    rw [Fraction.ceil_val hpd hn]
    simp [Fraction.mk]
  · rw [Fraction.redenominate, Fraction.floorRedenominate, if_pos (le_refl _)] at h
    obtain ⟨p, hp, h⟩ := bind_eq_clean.1 h
    obtain ⟨n, hn, h⟩ := bind_eq_clean.1 h
    simp only [pure_eq_ok, and_true] at h
    subst h
    have hpd := redenominate_product hx hp
    rw [Int.cast_zero, mul_zero] at hpd
    rw [Fraction.floor_val hpd hn]
    simp [Fraction.mk]
  · simpa using hround h
  · simpa using hround h

example : Denotes ⟨7, -3⟩ (-7/3) ∧ Fraction.redenominate i32 .fast ⟨7, -3⟩ 0 .floor ⇓ ⟨0, 0⟩ ∧
    Fraction.redenominate i32 .fast ⟨7, -3⟩ 0 .round ⇓ ⟨1, 0⟩ ∧
    Fraction.redenominate i32 .defaults ⟨7, -3⟩ 0 .round ⇓ ⟨0, 0⟩ :=
  ⟨by norm_num [Denotes], by decide, by decide, by decide⟩

/-- **C34, partial** A value that already is a multiple of `1/d` is unchanged in all four
modes.  Missing (false in the code, see `C34_redenominate_wrong`): rounding a negative
denominator under a policy that never fixes signs. -/
theorem C34_multiple_unchanged_partial {m : ℤ} (hd : d ≠ 0) (hx : Denotes f x)
    (hm : x = (m : ℚ) / d) (mode : RoundMode)
    (hs : mode = .trunc ∨ mode = .ceil ∨ mode = .floor ∨ o.RoundsProperly f)
    (h : Fraction.redenominate T o f d mode ⇓ r) : Denotes r x ∧ r.den = d := by
  have hdq : (d : ℚ) ≠ 0 := by exact_mod_cast hd
  have hxd : x * d = (m : ℤ) := by rw [hm]; field_simp
  have nint : ∀ k : ℤ, ¬ (-1 < (k : ℚ) ∧ (k : ℚ) < 0) := by
    rintro k ⟨h1, h2⟩
    have h1 : (-1 : ℤ) < k := by exact_mod_cast h1
    have h2 : k < 0 := by exact_mod_cast h2
    omega
  have hn2 : ¬ (-1 < x * d ∧ x * d < -1 / 2) := by
    rw [hxd]; rintro ⟨h1, h2⟩; exact nint m ⟨h1, by linarith⟩
  have hn1 : ¬ (-1 < x * |(d : ℚ)| ∧ x * |(d : ℚ)| < 0) := by
    rcases abs_choice (d : ℚ) with h | h <;> rw [h]
    · rw [hxd]; exact nint m
    · rw [mul_neg, hxd]
      have := nint (-m); push_cast at this; exact this
  have fin : ∀ {r : Raw}, r.den = d → gridPoint d r.num = x → Denotes r x ∧ r.den = d := by
    intro r h1 h2
    exact ⟨⟨by rw [h1]; exact hd, by rw [h1]; exact h2⟩, h1⟩
  have hgm : gridPoint d m = x := hm.symm
  have hround : o.RoundsProperly f → Fraction.roundRedenominate T o f d ⇓ r →
      Denotes r x ∧ r.den = d := by
    intro hs h
    obtain ⟨h1, h2, -⟩ := C34_round_redenominate_partial hd hx hn2 hs h
    refine fin h1 ?_
    have hda : 0 < |(d : ℚ)| := abs_pos.2 hdq
    have e : gridPoint d r.num - x = ((r.num - m : ℤ) : ℚ) / d := by
      rw [hm, gridPoint]; push_cast; ring
    rw [e, abs_div, div_le_div_iff₀ hda (by positivity)] at h2
    have h3 : |((r.num - m : ℤ) : ℚ)| ≤ 1 / 2 := by nlinarith
    have h4 : r.num - m = 0 := by
      by_contra hc
      have : 1 ≤ |r.num - m| := Int.one_le_abs hc
      have : (1 : ℚ) ≤ |((r.num - m : ℤ) : ℚ)| := by exact_mod_cast this
      linarith
    have : r.num = m := by omega
    rw [this, hgm]
  cases mode
  · obtain ⟨p, hp, h⟩ := bind_eq_clean.1 h
    obtain ⟨n, hn, h⟩ := bind_eq_clean.1 h
    simp only [pure_eq_ok, and_true] at h
    subst h
    have := (C29_trunc_exact (redenominate_product hx hp) hn).2.2.2
    rw [hxd, ratTrunc_int] at this
    exact fin rfl (by rw [this]; exact hgm)
  · obtain ⟨h1, h2⟩ := C34_ceil_redenominate_partial hd hx hn1 h
    obtain ⟨⟨k, hk, hk'⟩, h3⟩ := h2
    exact fin h1 (le_antisymm (h3 ⟨m, hm, le_refl x⟩) hk')
  · obtain ⟨h1, h2⟩ := C34_floor_redenominate_partial hd hx hn1 h
    obtain ⟨⟨k, hk, hk'⟩, h3⟩ := h2
    exact fin h1 (le_antisymm hk' (h3 ⟨m, hm, le_refl x⟩))
  · exact hround (by simpa using hs) h
  · exact hround (by simpa using hs) h

/-- **C34, refuted in general.**  `floor_redenominate(-1/8, 4)` is `0/4`, above the value;
`ceil_redenominate(-1/8, 4)` is `1/4` although `0/4` would do; `round_redenominate(-3/16, 4)`
is `0/4` although `-1/4` is nearer; under `fast`, `round_redenominate(1/(-4), -4)` is
`2/(-4)`, although the fraction has the denominator asked for. -/
theorem C34_redenominate_wrong :
    Fraction.floorRedenominate i32 .defaults ⟨-1, 8⟩ 4 ⇓ ⟨0, 4⟩ ∧
    Fraction.ceilRedenominate i32 .defaults ⟨-1, 8⟩ 4 ⇓ ⟨1, 4⟩ ∧
    Fraction.roundRedenominate i32 .defaults ⟨-3, 16⟩ 4 ⇓ ⟨0, 4⟩ ∧
    Fraction.roundRedenominate i32 .fast ⟨1, -4⟩ (-4) ⇓ ⟨2, -4⟩ := by decide

example : Denotes ⟨-7, 8⟩ (-7/8) ∧ ¬ (-1 < (-7/8) * |((4 : ℤ) : ℚ)| ∧ (-7/8) * |((4 : ℤ) : ℚ)| < 0) ∧
    Fraction.floorRedenominate i32 .defaults ⟨-7, 8⟩ 4 ⇓ ⟨-4, 4⟩ ∧
    Fraction.floorRedenominate i32 .defaults ⟨-7, 8⟩ (-4) ⇓ ⟨4, -4⟩ ∧
    Fraction.ceilRedenominate i32 .defaults ⟨-7, 8⟩ (-4) ⇓ ⟨3, -4⟩ ∧
    Fraction.truncRedenominate i32 .defaults ⟨-7, 8⟩ (-4) ⇓ ⟨3, -4⟩ ∧
    Fraction.roundRedenominate i32 .defaults ⟨-7, 8⟩ 4 ⇓ ⟨-3, 4⟩ ∧
    Fraction.redenominate i32 .defaults ⟨-3, 4⟩ 8 .floor ⇓ ⟨-6, 8⟩ :=
  ⟨by norm_num [Denotes], by norm_num, by decide, by decide, by decide, by decide, by decide,
    by decide⟩

end Ieme
