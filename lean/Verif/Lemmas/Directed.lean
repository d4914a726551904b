import Verif.Model.Directed
import Verif.Lemmas.FloatMonotone

/-!
# Rounding in the four directions is correct
-/

namespace Ieme
namespace Fmt

variable {F : Fmt} {a x y : ℚ} {b c : ℕ} {d : Direction}

theorem roundTo_nearest (neg : Bool) : F.roundTo .nearest neg a = F.roundAbs a := rfl

theorem ofIntTo_nearest (n : ℤ) : F.ofIntTo .nearest n = F.ofInt n := rfl

theorem divTo_nearest (p q : ℕ) : F.divTo .nearest p q = F.div p q := rfl

/-! ## Magnitudes -/

theorem magnitude_max (F : Fmt) :
    F.magnitude (F.infBits - 1) = ((2 ^ (F.mant + 1) - 1 : ℕ) : ℚ) * 2 ^ (F.bias - F.mant) := by
  have hb := two_bias F
  have hb1 := bias_pos F
  have hp : 0 < 2 ^ F.mant := Nat.pow_pos (by decide)
  obtain ⟨B, hB⟩ : ∃ B : ℕ, (B : ℤ) = F.bias := ⟨F.bias.toNat, by omega⟩
  have hX : 2 ^ F.exp - 1 = 2 * B + 1 := by omega
  have e : F.infBits - 1 = (2 * B - 1) * 2 ^ F.mant + (2 ^ (F.mant + 1) - 1) := by
    obtain ⟨B', rfl⟩ : ∃ B', B = B' + 1 := ⟨B - 1, by omega⟩
    rw [infBits, hX, pow_succ, show 2 * (B' + 1) - 1 = 2 * B' + 1 by omega]
    ring_nf
    omega
  have hlt : (2 * B - 1) * 2 ^ F.mant + (2 ^ (F.mant + 1) - 1) < F.infBits := by
    rw [← e]
    have : 0 < F.infBits := by rw [infBits, hX]; positivity
    omega
  rw [e, magnitude_decode (by omega) (.inr (by rw [pow_succ]; omega)) hlt]
  congr 2
  omega

theorem Finite.pattern (h : F.Finite c) :
    ∃ p < F.infBits, F.magnitude c = F.magnitude p ∧ c = F.withSign (F.signField c == 1) p := by
  obtain ⟨p, hp, e⟩ := eq_withSign h.1
  obtain ⟨-, -, h2, h3, -⟩ := withSign_fields (F.signField c == 1) hp
  rw [← e] at h2 h3
  refine ⟨p, lt_infBits_of hp (by rw [← h2]; exact h.2), ?_, e⟩
  rw [magnitude, magnitude, h2, h3]

theorem Finite.le_max (h : F.Finite c) : F.magnitude c ≤ F.magnitude (F.infBits - 1) := by
  obtain ⟨p, hp, e, -⟩ := h.pattern
  rw [e]
  rcases Nat.lt_or_eq_of_le (Nat.le_sub_one_of_lt hp) with h1 | h1
  · exact (magnitude_strictMono h1 (by omega)).le
  · rw [h1]

theorem max_lt_two_zpow (F : Fmt) : F.magnitude (F.infBits - 1) < 2 ^ (F.bias + 1) := by
  rw [magnitude_max]
  have e : (2 : ℚ) ^ (F.bias + 1) = ((2 ^ (F.mant + 1) : ℕ) : ℚ) * 2 ^ (F.bias - F.mant) := by
    push_cast
    rw [← zpow_natCast, ← zpow_add₀ (by norm_num)]
    congr 1
    push_cast
    ring
  rw [e]
  refine mul_lt_mul_of_pos_right ?_ (two_zpow_pos _)
  have : 0 < 2 ^ (F.mant + 1) := Nat.pow_pos (by decide)
  exact_mod_cast (by omega : 2 ^ (F.mant + 1) - 1 < 2 ^ (F.mant + 1))

/-- A number of the grid that is not above `a` is not above `a` cut off. -/
theorem grid_le_floor (ha : 0 ≤ a) {k : ℕ} {j : ℤ} (hk : k < 2 ^ (F.mant + 1))
    (hj : 1 - F.bias - F.mant ≤ j) (h : (k : ℚ) * 2 ^ j ≤ a) :
    (k : ℚ) * 2 ^ j ≤ ⌊a / 2 ^ (F.scale a - F.mant)⌋₊ * 2 ^ (F.scale a - F.mant) := by
  have hz := two_zpow_pos (F.scale a - F.mant)
  rcases le_or_gt (F.scale a - F.mant) j with hc | hc
  · obtain ⟨n, hn⟩ : ∃ n : ℕ, j = F.scale a - F.mant + n := ⟨(j - (F.scale a - F.mant)).toNat, by omega⟩
    have e : (k : ℚ) * 2 ^ j = ((k * 2 ^ n : ℕ) : ℚ) * 2 ^ (F.scale a - F.mant) := by
      rw [hn, zpow_add₀ (by norm_num), zpow_natCast]; push_cast; ring
    rw [e] at h ⊢
    refine mul_le_mul_of_nonneg_right ?_ hz.le
    exact_mod_cast Nat.le_floor ((le_div_iff₀ hz).2 h)
  · have hs : F.scale a ≠ 1 - F.bias := by omega
    have h1 : 2 ^ F.mant ≤ ⌊a / 2 ^ (F.scale a - F.mant)⌋₊ := Nat.le_floor (le_quot ha hs)
    have h2 : (k : ℚ) * 2 ^ j ≤ ((2 ^ (F.mant + 1) : ℕ) : ℚ) * 2 ^ (F.scale a - F.mant - 1) :=
      mul_le_mul (by exact_mod_cast hk.le) (zpow_le_zpow_right₀ (by norm_num) (by omega))
        (two_zpow_pos _).le (Nat.cast_nonneg _)
    refine h2.trans ?_
    rw [pow_succ, zpow_sub_one₀ (by norm_num)]
    push_cast
    rw [show (2 : ℚ) ^ F.mant * 2 * (2 ^ (F.scale a - F.mant) * 2⁻¹)
      = 2 ^ F.mant * 2 ^ (F.scale a - F.mant) by ring]
    exact mul_le_mul_of_nonneg_right (by exact_mod_cast h1) hz.le

/-- A number of the grid that is not below `a` is not below `a` rounded up. -/
theorem ceil_le_grid (ha : 0 ≤ a) {k : ℕ} {j : ℤ} (hk : k < 2 ^ (F.mant + 1))
    (hj : 1 - F.bias - F.mant ≤ j) (h : a ≤ (k : ℚ) * 2 ^ j) :
    ⌈a / 2 ^ (F.scale a - F.mant)⌉₊ * 2 ^ (F.scale a - F.mant) ≤ (k : ℚ) * 2 ^ j := by
  have hz := two_zpow_pos (F.scale a - F.mant)
  rcases le_or_gt (F.scale a - F.mant) j with hc | hc
  · obtain ⟨n, hn⟩ : ∃ n : ℕ, j = F.scale a - F.mant + n := ⟨(j - (F.scale a - F.mant)).toNat, by omega⟩
    have e : (k : ℚ) * 2 ^ j = ((k * 2 ^ n : ℕ) : ℚ) * 2 ^ (F.scale a - F.mant) := by
      rw [hn, zpow_add₀ (by norm_num), zpow_natCast]; push_cast; ring
    rw [e] at h ⊢
    refine mul_le_mul_of_nonneg_right ?_ hz.le
    exact_mod_cast Nat.ceil_le.2 ((div_le_iff₀ hz).2 h)
  · have hs : F.scale a ≠ 1 - F.bias := by omega
    have h1 := (le_div_iff₀ hz).1 (le_quot ha hs)
    have h2 : (k : ℚ) * 2 ^ j < ((2 ^ (F.mant + 1) : ℕ) : ℚ) * 2 ^ (F.scale a - F.mant - 1) :=
      mul_lt_mul (by exact_mod_cast hk) (zpow_le_zpow_right₀ (by norm_num) (by omega))
        (two_zpow_pos _) (Nat.cast_nonneg _)
    exfalso
    rw [pow_succ, zpow_sub_one₀ (by norm_num)] at h2
    push_cast at h2 h1
    rw [show (2 : ℚ) ^ F.mant * 2 * (2 ^ (F.scale a - F.mant) * 2⁻¹)
      = 2 ^ F.mant * 2 ^ (F.scale a - F.mant) by ring] at h2
    linarith

/-- Cutting off gives the greatest finite magnitude that is not above. -/
theorem roundDown_spec (ha : 0 ≤ a) {r : ℕ}
    (hr : r = min ((F.scale a - (1 - F.bias)).toNat * 2 ^ F.mant + ⌊a / 2 ^ (F.scale a - F.mant)⌋₊)
      (F.infBits - 1)) :
    r < F.infBits ∧ F.magnitude r ≤ a ∧
      ∀ c, F.Finite c → F.magnitude c ≤ a → F.magnitude c ≤ F.magnitude r := by
  have hb := two_bias F
  have hb1 := bias_pos F
  have hge := scale_ge F a
  have hz := two_zpow_pos (F.scale a - F.mant)
  have hp : 0 < 2 ^ F.mant := Nat.pow_pos (by decide)
  have hinf : 0 < F.infBits := by
    have h2 : 2 ^ 2 ≤ 2 ^ F.exp := Nat.pow_le_pow_right (by decide) F.exp_ge
    exact Nat.mul_pos (by omega) hp
  have hfl : ⌊a / 2 ^ (F.scale a - F.mant)⌋₊ < 2 ^ (F.mant + 1) :=
    (Nat.floor_lt (quot_nonneg ha)).2 (quot_lt ha)
  set m := ⌊a / 2 ^ (F.scale a - F.mant)⌋₊ with hm
  obtain ⟨E, hE⟩ : ∃ E : ℕ, (E : ℤ) = F.scale a - (1 - F.bias) :=
    ⟨(F.scale a - (1 - F.bias)).toNat, by omega⟩
  rw [← hE, Int.toNat_natCast] at hr
  have hmin : E = 0 ∨ 2 ^ F.mant ≤ m := by
    by_cases h0 : F.scale a = 1 - F.bias
    · left; omega
    · right; exact Nat.le_floor (le_quot ha h0)
  have hma : (m : ℚ) * 2 ^ (F.scale a - F.mant) ≤ a :=
    (le_div_iff₀ hz).1 (Nat.floor_le (quot_nonneg ha))
  rcases lt_or_ge (E * 2 ^ F.mant + m) F.infBits with h | h
  · rw [min_eq_left (by omega)] at hr
    have e := magnitude_decode hfl.le hmin h
    rw [← hr, show (E : ℤ) + (1 - F.bias) - F.mant = F.scale a - F.mant by omega] at e
    refine ⟨hr ▸ h, e ▸ hma, fun c _ hc => ?_⟩
    obtain ⟨k, j, hk, hj, e'⟩ := magnitude_grid F c
    rw [e'] at hc ⊢
    rw [e]
    exact grid_le_floor ha hk hj hc
  · rw [min_eq_right (by omega)] at hr
    subst hr
    refine ⟨by omega, ?_, fun c hc _ => hc.le_max⟩
    have hE2 : F.bias + 1 ≤ F.scale a := by
      by_contra hc
      have h1 : (E : ℤ) + 2 ≤ 2 * F.bias + 1 := by omega
      have h2 : E + 2 ≤ 2 ^ F.exp - 1 := by omega
      have h3 : (E + 2) * 2 ^ F.mant ≤ F.infBits := Nat.mul_le_mul_right _ h2
      have h4 : (E + 2) * 2 ^ F.mant = E * 2 ^ F.mant + 2 ^ (F.mant + 1) := by ring
      omega
    refine (max_lt_two_zpow F).le.trans ?_
    exact (zpow_le_zpow_right₀ (by norm_num) hE2).trans (scale_le ha (by omega))

/-- Rounding up gives the least finite magnitude that is not below, or infinity if there is
none. -/
theorem roundUp_spec (ha : 0 ≤ a) {r : ℕ}
    (hr : r = min ((F.scale a - (1 - F.bias)).toNat * 2 ^ F.mant + ⌈a / 2 ^ (F.scale a - F.mant)⌉₊)
      F.infBits) :
    (r = F.infBits ∧ ∀ c, F.Finite c → F.magnitude c < a) ∨
    (r < F.infBits ∧ a ≤ F.magnitude r ∧
      ∀ c, F.Finite c → a ≤ F.magnitude c → F.magnitude r ≤ F.magnitude c) := by
  have hb := two_bias F
  have hb1 := bias_pos F
  have hge := scale_ge F a
  have hz := two_zpow_pos (F.scale a - F.mant)
  have hp : 0 < 2 ^ F.mant := Nat.pow_pos (by decide)
  have hfl : ⌈a / 2 ^ (F.scale a - F.mant)⌉₊ ≤ 2 ^ (F.mant + 1) := Nat.ceil_le.2 (quot_lt ha).le
  have hup := Nat.le_ceil (a / 2 ^ (F.scale a - F.mant))
  have hclt := Nat.ceil_lt_add_one (quot_nonneg (F := F) ha)
  set m := ⌈a / 2 ^ (F.scale a - F.mant)⌉₊ with hm
  obtain ⟨E, hE⟩ : ∃ E : ℕ, (E : ℤ) = F.scale a - (1 - F.bias) :=
    ⟨(F.scale a - (1 - F.bias)).toNat, by omega⟩
  rw [← hE, Int.toNat_natCast] at hr
  have hmin : E = 0 ∨ 2 ^ F.mant ≤ m := by
    by_cases h0 : F.scale a = 1 - F.bias
    · left; omega
    · right; exact_mod_cast (le_quot ha h0).trans hup
  rcases lt_or_ge (E * 2 ^ F.mant + m) F.infBits with h | h
  · right
    rw [min_eq_left h.le] at hr
    have e := magnitude_decode hfl hmin h
    rw [← hr, show (E : ℤ) + (1 - F.bias) - F.mant = F.scale a - F.mant by omega] at e
    refine ⟨hr ▸ h, e ▸ (div_le_iff₀ hz).1 hup, fun c _ hc => ?_⟩
    obtain ⟨k, j, hk, hj, e'⟩ := magnitude_grid F c
    rw [e'] at hc ⊢
    rw [e]
    exact ceil_le_grid ha hk hj hc
  · left
    rw [min_eq_right h] at hr
    refine ⟨hr, fun c hc => hc.le_max.trans_lt ?_⟩
    rcases le_or_gt (F.bias + 1) (F.scale a) with hE2 | hE2
    · refine (max_lt_two_zpow F).trans_le ?_
      exact (zpow_le_zpow_right₀ (by norm_num) hE2).trans (scale_le ha (by omega))
    · have h2 : E + 2 ≤ 2 ^ F.exp - 1 := by omega
      have h3 : (E + 2) * 2 ^ F.mant ≤ F.infBits := Nat.mul_le_mul_right _ h2
      have h4 : (E + 2) * 2 ^ F.mant = E * 2 ^ F.mant + 2 ^ (F.mant + 1) := by ring
      have h5 : m = 2 ^ (F.mant + 1) := by omega
      have h6 : E + 2 = 2 ^ F.exp - 1 := by
        refine le_antisymm h2 ?_
        have : F.infBits ≤ (E + 2) * 2 ^ F.mant := by omega
        exact Nat.le_of_mul_le_mul_right this hp
      have h7 : F.scale a = F.bias := by omega
      rw [magnitude_max]
      rw [h5, h7] at hclt
      rw [← lt_div_iff₀ (two_zpow_pos _)]
      have : 0 < 2 ^ (F.mant + 1) := Nat.pow_pos (by decide)
      rw [Nat.cast_sub (by omega)]
      push_cast at hclt ⊢
      linarith

/-! ## Numbers with sign -/

theorem Finite.exists (F : Fmt) : ∃ c, F.Finite c := by
  obtain ⟨c, hc, -⟩ := representable_one (F := F) false
  exact ⟨c, hc⟩

theorem finite_withSign (neg : Bool) {p : ℕ} (hp : p < F.infBits) : F.Finite (F.withSign neg p) := by
  obtain ⟨h1, -, h3, -⟩ := withSign_fields neg (hp.trans (infBits_lt F))
  exact ⟨h1, by rw [h3]; exact expField_lt_of hp⟩

theorem inf_withSign (neg : Bool) : F.Inf (F.withSign neg F.infBits) := by
  obtain ⟨-, -, h3, h4, -⟩ := withSign_fields neg (infBits_lt F)
  exact ⟨h3 ▸ (inf_infBits F).1, h4 ▸ (inf_infBits F).2⟩

theorem roundTo_le (F : Fmt) (d : Direction) (neg : Bool) (a : ℚ) : F.roundTo d neg a ≤ F.infBits := by
  rw [roundTo]
  split_ifs
  · rw [roundAbs_eq]; exact min_le_right _ _
  · exact min_le_right _ _
  · exact (min_le_right _ _).trans (Nat.sub_le _ _)

/-- Rounding the magnitude and attaching the sign is correct in each direction. -/
theorem roundedTo_withSign (d : Direction) (x : ℚ) :
    F.RoundedTo d x (F.withSign (decide (x < 0)) (F.roundTo d (decide (x < 0)) |x|)) := by
  have ha := abs_nonneg x
  have hlt := (roundTo_le F d (decide (x < 0)) |x|).trans_lt (infBits_lt F)
  obtain ⟨h1, h2, -⟩ := withSign_fields (decide (x < 0)) hlt
  refine ⟨h1, by rw [h2]; simp, ?_⟩
  have hv := value_withSign (F := F) (decide (x < 0)) hlt
  have hdown : away d (decide (x < 0)) = false → d ≠ .nearest → _ := fun e hd =>
    roundDown_spec (F := F) ha (r := F.roundTo d (decide (x < 0)) |x|)
      (by rw [roundTo, if_neg hd, e, if_neg (by decide)])
  have hup : away d (decide (x < 0)) = true → d ≠ .nearest → _ := fun e hd =>
    roundUp_spec (F := F) ha (r := F.roundTo d (decide (x < 0)) |x|)
      (by rw [roundTo, if_neg hd, e, if_pos rfl])
  cases d with
  | nearest => exact rounded_withSign x
  | upward =>
    rcases lt_or_ge x 0 with h0 | h0
    · obtain ⟨q1, q2, q3⟩ := hdown (by simp [away, h0]) (by decide)
      refine .inr ⟨finite_withSign _ q1, ?_, fun c hc hxc => ?_⟩
      · rw [hv]
        rw [decide_eq_true h0] at q2 ⊢
        rw [abs_of_neg h0] at q2 ⊢
        simp only [if_true]
        linarith
      · rw [hv]
        simp only [h0, decide_true, if_true]
        rcases le_or_gt 0 (F.value c) with h | h
        · have := magnitude_nonneg F (F.roundTo .upward true |x|)
          linarith
        · have e := abs_value F c
          rw [abs_of_neg h] at e
          have := q3 c hc (by rw [← e, abs_of_neg h0]; linarith)
          simp only [h0, decide_true] at this
          linarith
    · have hd : decide (x < 0) = false := decide_eq_false (not_lt.2 h0)
      rcases hup (by simp [away, hd]) (by decide) with ⟨q1, q2⟩ | ⟨q1, q2, q3⟩
      · rw [abs_of_nonneg h0] at q2
        obtain ⟨c, hc⟩ := Finite.exists F
        refine .inl ⟨by rw [q1]; exact inf_withSign _,
          (magnitude_nonneg F c).trans_lt (q2 c hc), fun c hc => ?_⟩
        exact (le_abs_self _).trans_lt (by rw [abs_value]; exact q2 c hc)
      · refine .inr ⟨finite_withSign _ q1, ?_, fun c hc hxc => ?_⟩
        · rw [hv]
          rw [hd] at q2 ⊢
          rw [abs_of_nonneg h0] at q2 ⊢
          simpa using q2
        · have e := abs_value F c
          rw [abs_of_nonneg (h0.trans hxc)] at e
          have := q3 c hc (by rw [← e, abs_of_nonneg h0]; exact hxc)
          rw [hv, e, hd]
          rw [hd] at this
          simpa using this
  | downward =>
    rcases lt_or_ge x 0 with h0 | h0
    · have hd : decide (x < 0) = true := decide_eq_true h0
      rcases hup (by simp [away, hd]) (by decide) with ⟨q1, q2⟩ | ⟨q1, q2, q3⟩
      · rw [abs_of_neg h0] at q2
        refine .inl ⟨by rw [q1]; exact inf_withSign _, h0, fun c hc => ?_⟩
        have := q2 c hc
        have := neg_abs_le (F.value c)
        rw [abs_value] at this
        linarith
      · refine .inr ⟨finite_withSign _ q1, ?_, fun c hc hxc => ?_⟩
        · rw [hv]
          rw [hd] at q2 ⊢
          rw [abs_of_neg h0] at q2 ⊢
          simp only [if_true]
          linarith
        · have e := abs_value F c
          rw [abs_of_neg (hxc.trans_lt h0)] at e
          have := q3 c hc (by rw [← e, abs_of_neg h0]; linarith)
          rw [hv, hd]
          rw [hd] at this
          simp only [if_true]
          linarith
    · have hd : decide (x < 0) = false := decide_eq_false (not_lt.2 h0)
      obtain ⟨q1, q2, q3⟩ := hdown (by simp [away, hd]) (by decide)
      refine .inr ⟨finite_withSign _ q1, ?_, fun c hc hxc => ?_⟩
      · rw [hv]
        rw [hd] at q2 ⊢
        rw [abs_of_nonneg h0] at q2 ⊢
        simpa using q2
      · rw [hv]
        rcases le_or_gt (F.value c) 0 with h | h
        · have := magnitude_nonneg F (F.roundTo .downward (decide (x < 0)) |x|)
          rw [hd] at this ⊢
          simp only [Bool.false_eq_true, if_false, one_mul]
          linarith
        · have e := abs_value F c
          rw [abs_of_pos h] at e
          have := q3 c hc (by rw [← e, abs_of_nonneg h0]; exact hxc)
          rw [hd] at this ⊢
          simp only [Bool.false_eq_true, if_false, one_mul]
          linarith
  | towardZero =>
    obtain ⟨q1, q2, q3⟩ := hdown rfl (by decide)
    refine ⟨finite_withSign _ q1, ?_, fun c hc hxc => ?_⟩
    · rw [hv]
      rw [abs_mul, abs_of_nonneg (magnitude_nonneg _ _)]
      refine le_trans (le_of_eq ?_) q2
      split <;> simp
    · rw [abs_value] at hxc ⊢
      refine (q3 c hc hxc).trans (le_of_eq ?_)
      rw [hv, abs_mul, abs_of_nonneg (magnitude_nonneg _ _)]
      split <;> simp

theorem roundedTo_ofInt (d : Direction) (n : ℤ) : F.RoundedTo d n (F.ofIntTo d n) := by
  have := roundedTo_withSign (F := F) d (n : ℚ)
  rw [ofIntTo]
  have e1 : decide ((n : ℚ) < 0) = decide (n < 0) := by
    rw [decide_eq_decide]; exact Int.cast_lt_zero
  have e2 : |(n : ℚ)| = (n.natAbs : ℚ) := by
    rw [← Int.cast_abs, ← Int.natCast_natAbs, Int.cast_natCast]
  rwa [e1, e2] at this

/-- Division of two finite numbers is correctly rounded in each direction. -/
theorem roundedTo_div (d : Direction) {x y : ℕ} (hx : F.Finite x) (hy : F.Finite y)
    (hy0 : F.value y ≠ 0) (hz : F.value x = 0 → F.signField x = F.signField y) :
    F.RoundedTo d (F.value x / F.value y) (F.divTo d x y) := by
  have n1 := hx.not_nan
  have n2 := hy.not_nan
  have n3 : ¬ F.Inf x := fun h => by have := h.1; have := hx.2; omega
  have n4 : ¬ F.Inf y := fun h => by have := h.1; have := hy.2; omega
  have hm : F.magnitude y ≠ 0 := fun h => hy0 (by rw [value, h, mul_zero])
  have hmp := lt_of_le_of_ne (magnitude_nonneg F y) (Ne.symm hm)
  simp only [divTo, n1, n2, n3, n4, hm, or_self, and_self, if_false]
  have := roundedTo_withSign (F := F) d (F.value x / F.value y)
  rw [abs_div, abs_value, abs_value] at this
  have e : (F.signField x != F.signField y) = decide (F.value x / F.value y < 0) := by
    rcases eq_or_ne (F.magnitude x) 0 with h0 | h0
    · have hvx : F.value x = 0 := by rw [value, h0, mul_zero]
      rw [hvx, hz hvx]
      simp
    · have hxp := lt_of_le_of_ne (magnitude_nonneg F x) (Ne.symm h0)
      have sx : F.signField x = 0 ∨ F.signField x = 1 := by rw [signField]; omega
      have sy : F.signField y = 0 ∨ F.signField y = 1 := by rw [signField]; omega
      have hq := div_pos hxp hmp
      rw [value, value, sgn, sgn]
      rcases sx with e | e <;> rcases sy with e' | e' <;> rw [e, e'] <;>
        simp [neg_div, _root_.div_neg] <;> first | exact hq | exact hq.le
  rw [e]
  exact this

/-! ## Consequences of correct rounding -/

theorem RoundedTo.exact (h : F.RoundedTo d x b) (hx : F.Representable x) :
    F.Finite b ∧ F.value b = x := by
  obtain ⟨-, hs, h⟩ := h
  obtain ⟨c, hc, e⟩ := hx
  cases d with
  | nearest => exact ⟨h.finite (Representable.lt ⟨c, hc, e⟩), h.exact ⟨c, hc, e⟩⟩
  | upward =>
    rcases h with ⟨-, -, h⟩ | ⟨h1, h2, h3⟩
    · exact absurd e (h c hc).ne
    · exact ⟨h1, le_antisymm (e ▸ h3 c hc e.ge) h2⟩
  | downward =>
    rcases h with ⟨-, -, h⟩ | ⟨h1, h2, h3⟩
    · exact absurd e (h c hc).ne'
    · exact ⟨h1, le_antisymm h2 (e ▸ h3 c hc e.le)⟩
  | towardZero =>
    obtain ⟨h1, h2, h3⟩ := h
    refine ⟨h1, ?_⟩
    have h4 : |F.value b| = |x| := le_antisymm h2 (e ▸ h3 c hc (e ▸ le_rfl))
    rw [abs_value] at h4
    rcases lt_or_ge x 0 with h0 | h0
    · rw [if_pos h0] at hs
      rw [value, sgn, hs, if_neg (by decide), h4, abs_of_neg h0]
      ring
    · rw [if_neg (not_lt.2 h0)] at hs
      rw [value, sgn, hs, if_pos rfl, h4, abs_of_nonneg h0]
      ring

theorem RoundedTo.not_nan (h : F.RoundedTo d x b) : ¬ F.NaN b := by
  obtain ⟨-, hs, h⟩ := h
  cases d with
  | nearest => exact h.not_nan
  | upward => exact h.elim (fun h => h.1.not_nan) fun h => h.1.not_nan
  | downward => exact h.elim (fun h => h.1.not_nan) fun h => h.1.not_nan
  | towardZero => exact h.1.not_nan

theorem roundedTo_quotient (d : Direction) {n m : ℤ} (hn : F.Representable n)
    (hm : F.Representable m) (h0 : 0 < m) :
    F.RoundedTo d (n / m) (F.divTo d (F.ofIntTo d n) (F.ofIntTo d m)) := by
  have r1 := roundedTo_ofInt (F := F) d n
  have r2 := roundedTo_ofInt (F := F) d m
  obtain ⟨f1, e1⟩ := r1.exact hn
  obtain ⟨f2, e2⟩ := r2.exact hm
  have hdq : (0 : ℚ) < m := by exact_mod_cast h0
  have := roundedTo_div d f1 f2 (by rw [e2]; exact hdq.ne') (by
    intro h
    rw [e1] at h
    rw [r1.2.1, r2.2.1, h, if_neg (lt_irrefl _), if_neg (not_lt.2 hdq.le)])
  rwa [e1, e2] at this

end Fmt

theorem FloatingPoint.ofFractionTo_nearest (F : Fmt) (T : IntTy) (f : Raw) :
    FloatingPoint.ofFractionTo F T .nearest f = FloatingPoint.ofFraction F T f := rfl

end Ieme
