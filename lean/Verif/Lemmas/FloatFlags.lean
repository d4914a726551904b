import Verif.Model.FloatFlags
import Verif.Lemmas.Directed
import Verif.Lemmas.FloatParts
import Mathlib.Tactic.LinearCombination

/-!
# Lemmas about the flags of conversions
-/

namespace Ieme
namespace Fmt

variable {F : Fmt} {d : Direction} {after neg : Bool} {a x : ℚ}

/-- The significand of `a`. -/
theorem roundSig_exact (k : ℕ) : roundSig d neg (k : ℚ) = k := by
  unfold roundSig
  split_ifs
  · refine le_antisymm (roundHalfEven_le (Nat.cast_nonneg k) le_rfl)
      (le_roundHalfEven (Nat.cast_nonneg k) le_rfl)
  · exact Nat.ceil_natCast k
  · exact Nat.floor_natCast k

theorem roundSig_mono_le {t : ℚ} (ht : 0 ≤ t) {n : ℕ} (h : t ≤ n) : roundSig d neg t ≤ n := by
  unfold roundSig
  split_ifs
  · exact roundHalfEven_le ht h
  · exact Nat.ceil_le.2 h
  · exact Nat.floor_le_of_le h

theorem le_roundSig {t : ℚ} (ht : 0 ≤ t) {n : ℕ} (h : (n : ℚ) ≤ t) : n ≤ roundSig d neg t := by
  unfold roundSig
  split_ifs
  · exact le_roundHalfEven ht h
  · exact_mod_cast h.trans (Nat.le_ceil t)
  · exact Nat.le_floor h

/-- Reaching the pattern of infinity: the scale is too large, or the greatest and the significand
is rounded to the next power of two. -/
theorem infBits_le_iff {m : ℕ} (hm : m ≤ 2 ^ (F.mant + 1))
    (hm' : F.scale a ≠ 1 - F.bias → 2 ^ F.mant ≤ m) :
    F.infBits ≤ (F.scale a - (1 - F.bias)).toNat * 2 ^ F.mant + m ↔
      F.bias < F.scale a ∨ (F.scale a = F.bias ∧ m = 2 ^ (F.mant + 1)) := by
  have hb := two_bias F
  have hb1 := bias_pos F
  have hge := scale_ge F a
  have hp : 0 < 2 ^ F.mant := Nat.pow_pos (by decide)
  obtain ⟨E, hE⟩ : ∃ E : ℕ, (E : ℤ) = F.scale a - (1 - F.bias) :=
    ⟨(F.scale a - (1 - F.bias)).toNat, by omega⟩
  rw [← hE, Int.toNat_natCast]
  have h4 : (E + 2) * 2 ^ F.mant = E * 2 ^ F.mant + 2 ^ (F.mant + 1) := by ring
  constructor
  · intro h
    by_contra hc
    push Not at hc
    have h1 : E + 2 ≤ 2 ^ F.exp - 1 := by omega
    have h3 : (E + 2) * 2 ^ F.mant ≤ F.infBits := Nat.mul_le_mul_right _ h1
    have h5 : m = 2 ^ (F.mant + 1) := by omega
    have h6 : E + 2 ≠ 2 ^ F.exp - 1 := fun h => hc.2 (by omega) h5
    have h7 : (E + 3) * 2 ^ F.mant ≤ F.infBits := Nat.mul_le_mul_right _ (by omega)
    have h8 : (E + 3) * 2 ^ F.mant = (E + 2) * 2 ^ F.mant + 2 ^ F.mant := by ring
    omega
  · rintro (h | ⟨h, rfl⟩)
    · have h1 : 2 ^ F.exp - 1 ≤ E + 1 := by omega
      have h2 := hm' (by omega)
      have h3 : F.infBits ≤ (E + 1) * 2 ^ F.mant := Nat.mul_le_mul_right _ h1
      have h5 : (E + 1) * 2 ^ F.mant = E * 2 ^ F.mant + 2 ^ F.mant := by ring
      omega
    · have h1 : E + 2 = 2 ^ F.exp - 1 := by omega
      rw [← h4, h1]
      exact le_rfl

theorem roundSig_bounds (ha : 0 ≤ a) :
    roundSig d neg (a / 2 ^ (F.scale a - F.mant)) ≤ 2 ^ (F.mant + 1) ∧
    (F.scale a ≠ 1 - F.bias → 2 ^ F.mant ≤ roundSig d neg (a / 2 ^ (F.scale a - F.mant))) :=
  ⟨roundSig_mono_le (quot_nonneg ha) (quot_lt ha).le,
    fun h => le_roundSig (quot_nonneg ha) (le_quot ha h)⟩

theorem bias_lt_scale (ha : 0 ≤ a) : F.bias < F.scale a ↔ 2 ^ (F.bias + 1) ≤ a := by
  have hb1 := bias_pos F
  constructor
  · intro h
    exact (zpow_le_zpow_right₀ (by norm_num) (by omega)).trans
      (scale_le (F := F) ha (by omega))
  · intro h
    by_contra hc
    have := (lt_scale (F := F) ha).trans_le (zpow_le_zpow_right₀ (by norm_num : (1 : ℚ) ≤ 2)
      (by omega : F.scale a + 1 ≤ F.bias + 1))
    linarith

theorem maxFinite_eq (F : Fmt) : F.maxFinite = F.magnitude (F.infBits - 1) := by
  rw [magnitude_max, maxFinite, Nat.cast_sub Nat.one_le_two_pow]
  push_cast
  rw [sub_mul, one_mul, ← zpow_natCast, ← zpow_add₀ (by norm_num)]
  congr 2
  push_cast
  ring

theorem maxFinite_lt (F : Fmt) : F.maxFinite < 2 ^ (F.bias + 1) := by
  rw [maxFinite_eq]; exact max_lt_two_zpow F

theorem over_down (ha : 0 ≤ a) :
    F.infBits ≤ (F.scale a - (1 - F.bias)).toNat * 2 ^ F.mant + ⌊a / 2 ^ (F.scale a - F.mant)⌋₊ ↔
      2 ^ (F.bias + 1) ≤ a := by
  have hl : ⌊a / 2 ^ (F.scale a - F.mant)⌋₊ < 2 ^ (F.mant + 1) :=
    (Nat.floor_lt (quot_nonneg ha)).2 (quot_lt ha)
  rw [infBits_le_iff hl.le fun h => Nat.le_floor (le_quot ha h), ← bias_lt_scale ha]
  constructor
  · rintro (h | ⟨-, h⟩)
    · exact h
    · omega
  · exact .inl

theorem over_up (ha : 0 ≤ a) :
    F.infBits ≤ (F.scale a - (1 - F.bias)).toNat * 2 ^ F.mant + ⌈a / 2 ^ (F.scale a - F.mant)⌉₊ ↔
      F.maxFinite < a := by
  have hl : ⌈a / 2 ^ (F.scale a - F.mant)⌉₊ ≤ 2 ^ (F.mant + 1) := Nat.ceil_le.2 (quot_lt ha).le
  have hz := two_zpow_pos (F.scale a - F.mant)
  have h1 : 0 < 2 ^ (F.mant + 1) := Nat.pow_pos (by decide)
  rw [infBits_le_iff hl fun h => by
    exact_mod_cast (le_quot ha h).trans (Nat.le_ceil _)]
  constructor
  · rintro (h | ⟨h, h5⟩)
    · exact (maxFinite_lt F).trans_le ((bias_lt_scale ha).1 h)
    · have := Nat.ceil_lt_add_one (quot_nonneg (F := F) ha)
      rw [h5, h] at this
      rw [maxFinite_eq, magnitude_max, ← lt_div_iff₀ (two_zpow_pos _), Nat.cast_sub (by omega)]
      push_cast at this ⊢
      linarith
  · intro h
    rcases lt_trichotomy (F.scale a) F.bias with hc | hc | hc
    · exfalso
      have h2 : a < 2 ^ F.bias := (lt_scale (F := F) ha).trans_le
        (zpow_le_zpow_right₀ (by norm_num) (by omega))
      have h3 : (2 : ℚ) ^ F.bias ≤ F.maxFinite := by
        rw [maxFinite, zpow_add_one₀ (by norm_num)]
        have : (2 : ℚ) ^ (F.bias - F.mant) ≤ 2 ^ F.bias :=
          zpow_le_zpow_right₀ (by norm_num) (by omega)
        linarith
      linarith
    · refine .inr ⟨hc, le_antisymm hl ?_⟩
      rw [maxFinite_eq, magnitude_max, ← lt_div_iff₀ (two_zpow_pos _), ← hc] at h
      have h2 := h.trans_le (Nat.le_ceil _)
      have h3 : 2 ^ (F.mant + 1) - 1 < ⌈a / 2 ^ (F.scale a - F.mant)⌉₊ := by exact_mod_cast h2
      omega
    · exact .inl hc

/-- The model's overflow is that of the standard. -/
theorem over_iff (x : ℚ) : F.infBits ≤ (F.scale |x| - (1 - F.bias)).toNat * 2 ^ F.mant +
    roundSig d (decide (x < 0)) (|x| / 2 ^ (F.scale |x| - F.mant)) ↔ F.Overflows d x := by
  have ha := abs_nonneg x
  have hmax : 0 ≤ F.maxFinite := by rw [maxFinite_eq]; exact magnitude_nonneg _ _
  have hpow := two_zpow_pos (F.bias + 1)
  have near : F.infBits ≤ (F.scale |x| - (1 - F.bias)).toNat * 2 ^ F.mant +
      roundHalfEven (|x| / 2 ^ (F.scale |x| - F.mant)) ↔ F.overflowBound ≤ |x| := by
    rw [← not_lt, ← not_lt]
    exact not_congr (finite_iff ha)
  cases d with
  | nearest => exact near
  | upward =>
    rcases lt_or_ge x 0 with h0 | h0
    · simp only [roundSig, away, h0, decide_true, Bool.not_true, Bool.false_eq_true, if_false,
        reduceCtorEq, Overflows]
      rw [over_down ha, abs_of_neg h0]
      constructor
      · intro h; right; linarith
      · rintro (h | h) <;> linarith
    · simp only [roundSig, away, not_lt.2 h0, decide_false, Bool.not_false, if_true, if_false,
        reduceCtorEq, Overflows]
      rw [over_up ha, abs_of_nonneg h0]
      constructor
      · exact .inl
      · rintro (h | h) <;> linarith
  | downward =>
    rcases lt_or_ge x 0 with h0 | h0
    · simp only [roundSig, away, h0, decide_true, if_true, if_false, reduceCtorEq, Overflows]
      rw [over_up ha, abs_of_neg h0]
      constructor
      · intro h; left; linarith
      · rintro (h | h) <;> linarith
    · simp only [roundSig, away, not_lt.2 h0, decide_false, Bool.false_eq_true, if_false,
        reduceCtorEq, Overflows]
      rw [over_down ha, abs_of_nonneg h0]
      constructor
      · exact .inr
      · rintro (h | h) <;> linarith
  | towardZero =>
    simp only [roundSig, away, Bool.false_eq_true, if_false, reduceCtorEq, Overflows]
    exact over_down ha

theorem Overflows.not_representable (h : F.Overflows d x) : ¬ F.Representable x := by
  rintro ⟨c, hc, rfl⟩
  have h1 : |F.value c| ≤ F.maxFinite := by rw [abs_value, maxFinite_eq]; exact hc.le_max
  have h2 := Representable.lt ⟨c, hc, rfl⟩
  have h3 := maxFinite_lt F
  have h4 := abs_le.1 h1
  cases d with
  | nearest => exact absurd h (not_le.2 h2)
  | upward => rcases h with h | h <;> linarith
  | downward => rcases h with h | h <;> linarith
  | towardZero =>
    have h : 2 ^ (F.bias + 1) ≤ |F.value c| := h
    linarith

theorem representable_of_abs (h : F.Representable |x|) : F.Representable x := by
  obtain ⟨c, hc, e⟩ := h
  obtain ⟨p, hp, e1, -⟩ := hc.pattern
  have hlt := hp.trans (infBits_lt F)
  refine ⟨F.withSign (decide (x < 0)) p, finite_withSign _ hp, ?_⟩
  rw [value_withSign _ hlt, ← e1, ← abs_value, e, abs_abs]
  rcases lt_or_ge x 0 with h0 | h0
  · simp [h0, abs_of_neg h0]
  · simp [not_lt.2 h0, abs_of_nonneg h0]

/-- The model's inexact is that of the standard. -/
theorem inexact_iff (x : ℚ) :
    (F.roundFlags d after (decide (x < 0)) |x|).inexact = true ↔ ¬ F.Representable x := by
  have ha := abs_nonneg x
  have hz := two_zpow_pos (F.scale |x| - F.mant)
  have hge := scale_ge F |x|
  simp only [roundFlags, Bool.or_eq_true, decide_eq_true_eq, over_iff]
  constructor
  · rintro (h | h)
    · exact h.not_representable
    · rintro ⟨c, hc, e0⟩
      obtain ⟨k, j, hk, hj, e⟩ := magnitude_grid F c
      rw [← abs_value, e0] at e
      have := grid_le_floor ha hk hj e.symm.le
      rw [← e, ← div_le_iff₀ hz] at this
      exact h (le_antisymm this (Nat.floor_le (quot_nonneg ha)))
  · intro h
    by_contra hc
    push Not at hc
    obtain ⟨h1, h2⟩ := hc
    rw [← over_iff, not_le, h2, roundSig_exact] at h1
    obtain ⟨E, hE⟩ : ∃ E : ℕ, (E : ℤ) = F.scale |x| - (1 - F.bias) :=
      ⟨(F.scale |x| - (1 - F.bias)).toNat, by omega⟩
    rw [← hE, Int.toNat_natCast] at h1
    have hfl : ⌊|x| / 2 ^ (F.scale |x| - F.mant)⌋₊ < 2 ^ (F.mant + 1) :=
      (Nat.floor_lt (quot_nonneg ha)).2 (quot_lt ha)
    have hmin : E = 0 ∨ 2 ^ F.mant ≤ ⌊|x| / 2 ^ (F.scale |x| - F.mant)⌋₊ := by
      by_cases h0 : F.scale |x| = 1 - F.bias
      · left; omega
      · right; exact Nat.le_floor (le_quot ha h0)
    have e := magnitude_decode hfl.le hmin h1
    rw [← h2, show (E : ℤ) + (1 - F.bias) - F.mant = F.scale |x| - F.mant by omega,
      div_mul_cancel₀ _ hz.ne'] at e
    refine h (representable_of_abs ⟨_, finite_withSign false h1, ?_⟩)
    rw [value_withSign _ (h1.trans (infBits_lt F)), e]
    simp

theorem tiny_before : (x ≠ 0 ∧ F.tiny d false neg |x| = true) ↔ F.Subnormal x := by
  simp [tiny, Subnormal]

/-- Rounded without a bound for the exponent, a number above zero is below the least normal one exactly
when it is by the margin the direction asks for. -/
theorem unbounded {a : ℚ} (ha : 0 < a) :
    ((⌈a / 2 ^ (Int.log 2 a - F.mant)⌉₊ : ℚ) * 2 ^ (Int.log 2 a - F.mant) < 2 ^ (1 - F.bias) ↔
      a ≤ 2 ^ (1 - F.bias) - 2 ^ (-F.bias - F.mant)) ∧
    ((⌊a / 2 ^ (Int.log 2 a - F.mant)⌋₊ : ℚ) * 2 ^ (Int.log 2 a - F.mant) < 2 ^ (1 - F.bias) ↔
      a < 2 ^ (1 - F.bias)) ∧
    ((roundHalfEven (a / 2 ^ (Int.log 2 a - F.mant)) : ℚ) * 2 ^ (Int.log 2 a - F.mant) <
        2 ^ (1 - F.bias) ↔
      a < 2 ^ (1 - F.bias) - 2 ^ (-F.bias - F.mant - 1)) := by
  set e := Int.log 2 a with he
  have l1 : (2 : ℚ) ^ e ≤ a := Int.zpow_log_le_self (b := 2) (by decide) ha
  have l2 : a < (2 : ℚ) ^ (e + 1) := Int.lt_zpow_succ_log_self (b := 2) (by decide) a
  have hz := two_zpow_pos (e - F.mant)
  have ht : 0 ≤ a / 2 ^ (e - F.mant) := div_nonneg ha.le hz.le
  have e1 : ((2 ^ (F.mant + 1) : ℕ) : ℚ) * 2 ^ (e - F.mant) = 2 ^ (e + 1) := by
    push_cast
    rw [← zpow_natCast, ← zpow_add₀ (by norm_num)]
    congr 1; push_cast; ring
  have e2 : ((2 ^ F.mant : ℕ) : ℚ) * 2 ^ (e - F.mant) = 2 ^ e := by
    push_cast
    rw [← zpow_natCast, ← zpow_add₀ (by norm_num)]
    congr 1; ring
  have t1 : ((2 ^ F.mant : ℕ) : ℚ) ≤ a / 2 ^ (e - F.mant) := by
    rw [le_div_iff₀ hz, e2]; exact l1
  have t2 : a / 2 ^ (e - F.mant) < ((2 ^ (F.mant + 1) : ℕ) : ℚ) := by
    rw [div_lt_iff₀ hz, e1]; exact l2
  have gap : (2 : ℚ) ^ (-F.bias - F.mant) ≤ 2 ^ (-F.bias) :=
    zpow_le_zpow_right₀ (by norm_num) (by omega)
  have gap' : (2 : ℚ) ^ (-F.bias - F.mant - 1) * 2 = 2 ^ (-F.bias - F.mant) := by
    rw [zpow_sub_one₀ (by norm_num)]; ring
  have gap0 := two_zpow_pos (-F.bias - F.mant - 1)
  have dbl : (2 : ℚ) ^ (1 - F.bias) = 2 * 2 ^ (-F.bias) := by
    rw [sub_eq_add_neg, zpow_add₀ (by norm_num), zpow_one]
  -- what every rounded significand satisfies
  have small : ∀ m : ℕ, m ≤ 2 ^ (F.mant + 1) → e < -F.bias →
      (m : ℚ) * 2 ^ (e - F.mant) < 2 ^ (1 - F.bias) := fun m hm h ↦ by
    have : (m : ℚ) * 2 ^ (e - F.mant) ≤ 2 ^ (e + 1) := by
      rw [← e1]; exact mul_le_mul_of_nonneg_right (by exact_mod_cast hm) hz.le
    exact this.trans_lt (zpow_lt_zpow_right₀ (by norm_num) (by omega))
  have large : ∀ m : ℕ, 2 ^ F.mant ≤ m → -F.bias < e →
      ¬ (m : ℚ) * 2 ^ (e - F.mant) < 2 ^ (1 - F.bias) := fun m hm h ↦ by
    have : (2 : ℚ) ^ e ≤ (m : ℚ) * 2 ^ (e - F.mant) := by
      rw [← e2]; exact mul_le_mul_of_nonneg_right (by exact_mod_cast hm) hz.le
    exact not_lt.2 ((zpow_le_zpow_right₀ (by norm_num) (by omega)).trans this)
  have mid : ∀ m : ℕ, e = -F.bias →
      ((m : ℚ) * 2 ^ (e - F.mant) < 2 ^ (1 - F.bias) ↔ m < 2 ^ (F.mant + 1)) := fun m h ↦ by
    rw [show 1 - F.bias = e + 1 by omega, ← e1, mul_lt_mul_iff_left₀ hz, Nat.cast_lt]
  have asmall : e < -F.bias → a < 2 ^ (-F.bias) := fun h ↦
    l2.trans_le (zpow_le_zpow_right₀ (by norm_num) (by omega))
  have alarge : -F.bias < e → 2 ^ (1 - F.bias) ≤ a := fun h ↦
    (zpow_le_zpow_right₀ (by norm_num) (by omega)).trans l1
  have amid : e = -F.bias → a = a / 2 ^ (e - F.mant) * 2 ^ (-F.bias - F.mant) ∧
      (2 : ℚ) ^ (1 - F.bias) = ((2 ^ (F.mant + 1) : ℕ) : ℚ) * 2 ^ (-F.bias - F.mant) := fun h ↦ by
    rw [← h]
    refine ⟨(div_mul_cancel₀ _ hz.ne').symm, ?_⟩
    rw [e1, h]; congr 1; ring
  have hg := two_zpow_pos (-F.bias - F.mant)
  refine ⟨?_, ?_, ?_⟩
  · rcases lt_trichotomy e (-F.bias) with h | h | h
    · refine iff_of_true (small _ (Nat.ceil_le.2 t2.le) h) ?_
      have := asmall h
      linarith
    · rw [mid _ h, ← Nat.le_sub_one_iff_lt (by positivity), Nat.ceil_le,
        Nat.cast_sub Nat.one_le_two_pow]
      obtain ⟨x1, x2⟩ := amid h
      rw [← mul_le_mul_iff_left₀ hg, ← x1, sub_mul, ← x2]
      simp
    · refine iff_of_false (large _ ?_ h) ?_
      · exact_mod_cast t1.trans (Nat.le_ceil _)
      · have := alarge h
        linarith
  · rcases lt_trichotomy e (-F.bias) with h | h | h
    · refine iff_of_true (small _ ?_ h) ?_
      · exact ((Nat.floor_lt ht).2 t2).le
      · have := asmall h
        linarith
    · rw [mid _ h, Nat.floor_lt ht]
      refine iff_of_true t2 ?_
      rw [show 1 - F.bias = e + 1 by omega]
      exact l2
    · refine iff_of_false (large _ (Nat.le_floor t1) h) ?_
      exact not_lt.2 (alarge h)
  · rcases lt_trichotomy e (-F.bias) with h | h | h
    · refine iff_of_true (small _ ?_ h) ?_
      · exact roundHalfEven_le ht t2.le
      · have := asmall h
        linarith
    · rw [mid _ h, ← not_le, le_roundHalfEven_iff ht (by rw [pow_succ]; omega), not_le]
      obtain ⟨x1, x2⟩ := amid h
      rw [← mul_lt_mul_iff_left₀ hg, ← x1, sub_mul, ← x2, ← gap']
      ring_nf
    · refine iff_of_false (large _ ?_ h) ?_
      · exact le_roundHalfEven ht t1
      · have := alarge h
        linarith

theorem tiny_after : (x ≠ 0 ∧ F.tiny d true (decide (x < 0)) |x| = true) ↔
    F.SubnormalRounded d x := by
  rcases eq_or_ne x 0 with rfl | hx
  · cases d <;> simp [SubnormalRounded]
  obtain ⟨up, down, near⟩ := unbounded (F := F) (abs_pos.2 hx)
  simp only [tiny, if_true, decide_eq_true_eq, ne_eq, hx, not_false_eq_true, true_and]
  cases d with
  | nearest => simpa [roundSig, SubnormalRounded, hx] using near
  | upward =>
    rcases lt_or_gt_of_ne hx with h0 | h0
    · have : ∀ t : ℚ, roundSig .upward (decide (x < 0)) t = ⌊t⌋₊ := fun t ↦ by
        simp [roundSig, away, h0]
      rw [this, down, abs_of_neg h0]
      simp only [SubnormalRounded, not_lt.2 h0.le, false_and, false_or, h0, true_and, neg_lt]
    · have : ∀ t : ℚ, roundSig .upward (decide (x < 0)) t = ⌈t⌉₊ := fun t ↦ by
        simp [roundSig, away, not_lt.2 h0.le]
      rw [this, up, abs_of_pos h0]
      simp only [SubnormalRounded, not_lt.2 h0.le, false_and, or_false, h0, true_and]
  | downward =>
    rcases lt_or_gt_of_ne hx with h0 | h0
    · have : ∀ t : ℚ, roundSig .downward (decide (x < 0)) t = ⌈t⌉₊ := fun t ↦ by
        simp [roundSig, away, h0]
      rw [this, up, abs_of_neg h0]
      simp only [SubnormalRounded, not_lt.2 h0.le, false_and, false_or, h0, true_and, neg_le]
    · have : ∀ t : ℚ, roundSig .downward (decide (x < 0)) t = ⌊t⌋₊ := fun t ↦ by
        simp [roundSig, away, not_lt.2 h0.le]
      rw [this, down, abs_of_pos h0]
      simp only [SubnormalRounded, not_lt.2 h0.le, false_and, or_false, h0, true_and]
  | towardZero =>
    have : ∀ t : ℚ, roundSig .towardZero (decide (x < 0)) t = ⌊t⌋₊ := fun t ↦ by
      simp [roundSig, away]
    rw [this, down]
    simp [SubnormalRounded, hx]

theorem zero_representable : F.Representable 0 := by
  have h2 : 2 ^ 2 ≤ 2 ^ F.exp := Nat.pow_le_pow_right (by decide) F.exp_ge
  refine ⟨0, ⟨Nat.pow_pos (by decide), ?_⟩, ?_⟩
  · rw [expField, Nat.zero_div, Nat.zero_mod]
    omega
  · rw [value, magnitude, expField, mantField]
    simp

theorem roundFlags_zero : F.roundFlags d after neg 0 = Flags.none := by
  have key : ∀ n, roundSig d n 0 = 0 := fun n ↦ by
    have := roundSig_exact (d := d) (neg := n) 0
    rwa [Nat.cast_zero] at this
  have h := (inexact_iff (F := F) (d := d) (after := after) 0).not.2 (not_not.2 zero_representable)
  simp only [roundFlags, abs_zero, zero_div, key, Nat.floor_zero, Nat.cast_zero, ne_eq,
    not_true_eq_false, decide_false, Bool.or_false, Bool.false_and, Bool.not_eq_true] at h ⊢
  simpa [Flags.none] using h

theorem ofIntFlags_eq (n : ℤ) :
    F.ofIntFlags d after n = F.roundFlags d after (decide ((n : ℚ) < 0)) |(n : ℚ)| := by
  have e1 : decide ((n : ℚ) < 0) = decide (n < 0) := by
    rw [decide_eq_decide]; exact Int.cast_lt_zero
  have e2 : |(n : ℚ)| = (n.natAbs : ℚ) := by
    rw [← Int.cast_abs, ← Int.natCast_natAbs, Int.cast_natCast]
  rw [ofIntFlags, e1, e2]

theorem divFlags_eq' {x y : ℕ} (n1 : ¬ F.NaN x) (n2 : ¬ F.NaN y) (n3 : ¬ F.Inf x) (n4 : ¬ F.Inf y)
    (hy0 : F.value y ≠ 0) :
    F.divFlags d after x y =
      F.roundFlags d after (decide (F.value x / F.value y < 0)) |F.value x / F.value y| := by
  have hm : F.magnitude y ≠ 0 := fun h => hy0 (by rw [value, h, mul_zero])
  have hmp := lt_of_le_of_ne (magnitude_nonneg F y) (Ne.symm hm)
  simp only [divFlags, n1, n2, n3, n4, hm, or_self, and_self, if_false]
  rw [abs_div, abs_value, abs_value]
  rcases eq_or_ne (F.magnitude x) 0 with h0 | h0
  · rw [h0, zero_div, roundFlags_zero, roundFlags_zero]
  · have e : (F.signField x != F.signField y) = decide (F.value x / F.value y < 0) := by
      have hxp := lt_of_le_of_ne (magnitude_nonneg F x) (Ne.symm h0)
      have sx : F.signField x = 0 ∨ F.signField x = 1 := by rw [signField]; omega
      have sy : F.signField y = 0 ∨ F.signField y = 1 := by rw [signField]; omega
      have hq := div_pos hxp hmp
      rw [value, value, sgn, sgn]
      rcases sx with e | e <;> rcases sy with e' | e' <;> rw [e, e'] <;>
        simp [neg_div, _root_.div_neg] <;> first | exact hq | exact hq.le
    rw [e]

theorem divFlags_eq {x y : ℕ} (hx : F.Finite x) (hy : F.Finite y) (hy0 : F.value y ≠ 0) :
    F.divFlags d after x y =
      F.roundFlags d after (decide (F.value x / F.value y < 0)) |F.value x / F.value y| :=
  divFlags_eq' hx.not_nan hy.not_nan (fun h => by have := h.1; have := hx.2; omega)
    (fun h => by have := h.1; have := hy.2; omega) hy0

theorem maxFinite_ge : 2 ^ F.bias ≤ F.maxFinite := by
  have h1 : (2 : ℚ) ^ (F.bias + 1) = 2 * 2 ^ F.bias := by
    rw [zpow_add₀ (by norm_num), zpow_one, mul_comm]
  have h2 : (2 : ℚ) ^ (F.bias - F.mant) ≤ 2 ^ F.bias :=
    zpow_le_zpow_right₀ (by norm_num) (by omega)
  rw [maxFinite, h1]
  linarith

theorem Overflows.large (h : F.Overflows d x) : 2 ^ F.bias < |x| := by
  by_contra hc
  push Not at hc
  have hm := maxFinite_ge (F := F)
  have h1 : (2 : ℚ) ^ (F.bias + 1) = 2 * 2 ^ F.bias := by
    rw [zpow_add₀ (by norm_num), zpow_one, mul_comm]
  have hp := two_zpow_pos F.bias
  obtain ⟨l1, l2⟩ := abs_le.1 hc
  cases d with
  | nearest =>
    have ho : F.overflowBound ≤ |x| := h
    have h2 : (2 : ℚ) ^ (F.bias - F.mant - 1) < 2 ^ F.bias :=
      zpow_lt_zpow_right₀ (by norm_num) (by omega)
    unfold overflowBound at ho
    linarith
  | upward => rcases h with h | h <;> linarith
  | downward => rcases h with h | h <;> linarith
  | towardZero =>
    have ho : 2 ^ (F.bias + 1) ≤ |x| := h
    linarith

theorem SubnormalRounded.subnormal (h : F.SubnormalRounded d x) : F.Subnormal x := by
  have h1 := two_zpow_pos (-F.bias - F.mant - 1)
  have h2 := two_zpow_pos (-F.bias - F.mant)
  cases d with
  | nearest => exact ⟨h.1, h.2.trans (by linarith)⟩
  | upward =>
    rcases h with ⟨h, h'⟩ | ⟨h, h'⟩
    · exact ⟨h.ne', by rw [abs_of_pos h]; linarith⟩
    · exact ⟨h.ne, by rw [abs_of_neg h]; linarith⟩
  | downward =>
    rcases h with ⟨h, h'⟩ | ⟨h, h'⟩
    · exact ⟨h.ne', by rw [abs_of_pos h]; linarith⟩
    · exact ⟨h.ne, by rw [abs_of_neg h]; linarith⟩
  | towardZero => exact h

/-- The flags of one correctly rounded operation. -/
theorem roundFlags_spec (x : ℚ) :
    (F.roundFlags d after (decide (x < 0)) |x|).invalid = false ∧
    (F.roundFlags d after (decide (x < 0)) |x|).divByZero = false ∧
    ((F.roundFlags d after (decide (x < 0)) |x|).overflow = true ↔ F.Overflows d x) ∧
    ((F.roundFlags d after (decide (x < 0)) |x|).underflow = true ↔
      (if after then F.SubnormalRounded d x else F.Subnormal x) ∧ ¬ F.Representable x) := by
  refine ⟨rfl, rfl, ?_, ?_⟩
  · simp only [roundFlags, decide_eq_true_eq, over_iff]
  · rw [← inexact_iff (F := F) (d := d) (after := after)]
    have : (F.roundFlags d after (decide (x < 0)) |x|).underflow =
      (decide (|x| ≠ 0) && F.tiny d after (decide (x < 0)) |x| &&
        (F.roundFlags d after (decide (x < 0)) |x|).inexact) := rfl
    rw [this, Bool.and_eq_true, Bool.and_eq_true, decide_eq_true_eq, ne_eq, abs_eq_zero]
    cases after
    · rw [← ne_eq, tiny_before]; simp
    · rw [← ne_eq, tiny_after]; simp

/-- A quotient of significands below a power of two is below it by half a unit of the last place. -/
theorem quotient_gap {k l : ℕ} {i j e : ℤ} (hk : k < 2 ^ (F.mant + 1)) (hl : l < 2 ^ (F.mant + 1))
    (hx : (k : ℚ) * 2 ^ i / (l * 2 ^ j) < 2 ^ e) (hl0 : 0 < l) :
    (k : ℚ) * 2 ^ i / (l * 2 ^ j) ≤ 2 ^ e - 2 ^ (e - F.mant - 1) := by
  obtain ⟨A, B, hB, hAB, e1⟩ : ∃ A B : ℕ, 0 < B ∧ (A < 2 ^ (F.mant + 1) ∨ B ≤ 2 ^ (F.mant + 1)) ∧
      (k : ℚ) * 2 ^ i / (l * 2 ^ j) = 2 ^ e * (A / B) := by
    have hl' : (0 : ℚ) < l := by exact_mod_cast hl0
    rcases le_or_gt 0 (e + j - i) with h | h
    · obtain ⟨n, hn⟩ := Int.eq_ofNat_of_zero_le h
      refine ⟨k, l * 2 ^ n, Nat.mul_pos hl0 (Nat.pow_pos (by decide)), .inl hk, ?_⟩
      have : (2 : ℚ) ^ e * 2 ^ j = 2 ^ i * 2 ^ n := by
        rw [← zpow_natCast, ← zpow_add₀ (by norm_num), ← zpow_add₀ (by norm_num)]
        congr 1; omega
      push_cast
      rw [mul_div_assoc', div_eq_div_iff (mul_pos hl' (two_zpow_pos _)).ne' (by positivity)]
      linear_combination (-(k : ℚ) * l) * this
    · obtain ⟨n, hn⟩ := Int.eq_ofNat_of_zero_le (show 0 ≤ i - e - j by omega)
      refine ⟨k * 2 ^ n, l, hl0, .inr hl.le, ?_⟩
      have : (2 : ℚ) ^ e * 2 ^ j * 2 ^ n = 2 ^ i := by
        rw [← zpow_natCast, ← zpow_add₀ (by norm_num), ← zpow_add₀ (by norm_num)]
        congr 1; omega
      push_cast
      rw [mul_div_assoc', div_eq_div_iff (mul_pos hl' (two_zpow_pos _)).ne' (by positivity)]
      linear_combination (-(k : ℚ) * l) * this
  have he := two_zpow_pos e
  have hB' : (0 : ℚ) < B := by exact_mod_cast hB
  have e2 : (2 : ℚ) ^ (e - F.mant - 1) = 2 ^ e * (1 / (2 ^ (F.mant + 1) : ℕ)) := by
    rw [sub_sub, zpow_sub₀ (by norm_num), show (F.mant : ℤ) + 1 = ((F.mant + 1 : ℕ) : ℤ) by simp,
      zpow_natCast]
    push_cast; ring
  have hM : 0 < 2 ^ (F.mant + 1) := Nat.pow_pos (by decide)
  rw [e1] at hx ⊢
  rw [e2]
  generalize 2 ^ (F.mant + 1) = M at hAB hM ⊢
  have hM' : (0 : ℚ) < M := by exact_mod_cast hM
  have lt : A < B := by
    have : (A : ℚ) / B < 1 := by
      by_contra hc
      push Not at hc
      nlinarith
    rw [div_lt_one hB'] at this
    exact_mod_cast this
  have key : B + A * M ≤ B * M := by
    rcases hAB with h | h
    · obtain ⟨u, rfl⟩ := Nat.exists_eq_add_of_lt h
      obtain ⟨v, rfl⟩ := Nat.exists_eq_add_of_lt lt
      nlinarith [Nat.zero_le (u * v)]
    · obtain ⟨v, rfl⟩ := Nat.exists_eq_add_of_lt lt
      nlinarith [Nat.zero_le (v * M)]
  have key' : (A : ℚ) / B ≤ 1 - 1 / M := by
    have : (B : ℚ) + A * M ≤ B * M := by exact_mod_cast key
    rw [div_le_iff₀ hB', sub_mul, one_mul, div_mul_eq_mul_div, one_mul, le_sub_iff_add_le,
      ← sub_nonneg]
    have e3 : (B : ℚ) - (A + B / M) = (B * M - (B + A * M)) / M := by field_simp; ring
    rw [e3]
    exact div_nonneg (by linarith) hM'.le
  nlinarith

theorem quotient_tiny {x y : ℕ} (hy : F.value y ≠ 0) :
    F.SubnormalRounded d (F.value x / F.value y) ↔ F.Subnormal (F.value x / F.value y) := by
  refine ⟨SubnormalRounded.subnormal, fun ⟨h0, h1⟩ ↦ ?_⟩
  obtain ⟨k, i, hk, -, e1⟩ := magnitude_grid F x
  obtain ⟨l, j, hl, -, e2⟩ := magnitude_grid F y
  have hl0 : 0 < l := by
    rcases Nat.eq_zero_or_pos l with h | h
    · rw [h, Nat.cast_zero, zero_mul] at e2
      exact absurd (by rw [value, e2, mul_zero]) hy
    · exact h
  have gap : |F.value x / F.value y| ≤ 2 ^ (1 - F.bias) - 2 ^ (-F.bias - F.mant) := by
    have := quotient_gap (F := F) (k := k) (l := l) (i := i) (j := j) (e := 1 - F.bias) hk hl
    rw [← e1, ← e2, ← abs_value, ← abs_value, ← abs_div,
      show 1 - F.bias - F.mant - 1 = -F.bias - F.mant by ring] at this
    exact this h1 hl0
  have h2 : (2 : ℚ) ^ (-F.bias - F.mant - 1) < 2 ^ (-F.bias - F.mant) :=
    zpow_lt_zpow_right₀ (by norm_num) (by omega)
  have h3 := two_zpow_pos (-F.bias - F.mant)
  have lr := abs_le.1 gap
  cases d with
  | nearest => exact ⟨h0, by linarith⟩
  | upward =>
    rcases lt_or_gt_of_ne h0 with h | h
    · exact .inr ⟨h, by linarith⟩
    · exact .inl ⟨h, by linarith⟩
  | downward =>
    rcases lt_or_gt_of_ne h0 with h | h
    · exact .inr ⟨h, by linarith⟩
    · exact .inl ⟨h, by linarith⟩
  | towardZero => exact ⟨h0, h1⟩

/-- Between the least normal number and the largest power of two nothing but inexact is raised. -/
theorem roundFlags_moderate (h0 : x = 0 ∨ 2 ^ (1 - F.bias) ≤ |x|) (h1 : |x| ≤ 2 ^ F.bias) :
    (F.roundFlags d after (decide (x < 0)) |x|).overflow = false ∧
    (F.roundFlags d after (decide (x < 0)) |x|).underflow = false := by
  obtain ⟨-, -, ho, hu⟩ := roundFlags_spec (F := F) (d := d) (after := after) x
  have hs : ¬ F.Subnormal x := fun h ↦ by
    rcases h0 with h0 | h0
    · exact h.1 h0
    · exact absurd h.2 (not_lt.2 h0)
  constructor
  · rw [← Bool.not_eq_true, ho]
    exact fun h ↦ absurd h.large (not_lt.2 h1)
  · rw [← Bool.not_eq_true, hu]
    rintro ⟨h, -⟩
    cases after
    · exact hs h
    · exact hs (SubnormalRounded.subnormal h)

end Fmt
end Ieme
