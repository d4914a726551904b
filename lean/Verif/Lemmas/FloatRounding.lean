import Verif.Model.Ieee
import Verif.Spec.FloatRounding
import Mathlib.Tactic.Linarith
import Mathlib.Tactic.Ring
import Mathlib.Tactic.Positivity
import Mathlib.Tactic.FieldSimp
import Mathlib.Tactic.NormNum
import Mathlib.Tactic.IntervalCases

/-!
# Rounding is correct
-/

namespace Ieme.Fmt

variable {F : Fmt}

/-! ## Rounding to an integer -/

theorem roundHalfEven_spec {t : ℚ} (ht : 0 ≤ t) (k : ℤ) :
    |(roundHalfEven t : ℚ) - t| ≤ |(k : ℚ) - t| ∧
    (k ≠ roundHalfEven t → |(k : ℚ) - t| = |(roundHalfEven t : ℚ) - t| →
      roundHalfEven t % 2 = 0) := by
  have h1 := Nat.floor_le ht
  have h2 := Nat.lt_floor_add_one t
  have hk : k ≤ (⌊t⌋₊ : ℤ) ∨ (⌊t⌋₊ : ℤ) + 1 ≤ k := by omega
  have hk' : (k : ℚ) ≤ (⌊t⌋₊ : ℚ) ∨ (⌊t⌋₊ : ℚ) + 1 ≤ k := by
    rcases hk with h | h
    · exact .inl (by exact_mod_cast h)
    · exact .inr (by exact_mod_cast h)
  have habs : |(k : ℚ) - t| = if (k : ℚ) ≤ (⌊t⌋₊ : ℚ) then t - k else k - t := by
    split
    · rw [abs_of_nonpos (by linarith)]; ring
    · rcases hk' with h | h
      · contradiction
      · rw [abs_of_nonneg (by linarith)]
  unfold roundHalfEven
  split_ifs with c1 c2 c3
  · rw [abs_of_nonpos (by linarith : (⌊t⌋₊ : ℚ) - t ≤ 0), habs]
    refine ⟨by split <;> rcases hk' with h | h <;> linarith, fun hne he => ?_⟩
    exfalso
    split at he
    · have : (k : ℚ) = (⌊t⌋₊ : ℚ) := by linarith
      exact hne (by exact_mod_cast this)
    · rcases hk' with h | h <;> linarith
  · rw [show (((⌊t⌋₊ + 1 : ℕ) : ℚ)) = (⌊t⌋₊ : ℚ) + 1 by push_cast; rfl,
      abs_of_nonneg (by linarith : 0 ≤ (⌊t⌋₊ : ℚ) + 1 - t), habs]
    refine ⟨by split <;> rcases hk' with h | h <;> linarith, fun hne he => ?_⟩
    exfalso
    split at he
    · linarith
    · have : (k : ℚ) = (⌊t⌋₊ : ℚ) + 1 := by linarith
      exact hne (by exact_mod_cast this)
  · rw [abs_of_nonpos (by linarith : (⌊t⌋₊ : ℚ) - t ≤ 0), habs]
    exact ⟨by split <;> rcases hk' with h | h <;> linarith, fun _ _ => c3⟩
  · rw [show (((⌊t⌋₊ + 1 : ℕ) : ℚ)) = (⌊t⌋₊ : ℚ) + 1 by push_cast; rfl,
      abs_of_nonneg (by linarith : 0 ≤ (⌊t⌋₊ : ℚ) + 1 - t), habs]
    exact ⟨by split <;> rcases hk' with h | h <;> linarith, fun _ _ => by omega⟩

theorem roundHalfEven_le {t : ℚ} (ht : 0 ≤ t) {n : ℕ} (h : t ≤ n) : roundHalfEven t ≤ n := by
  by_contra hc
  have hc' : (n : ℚ) + 1 ≤ roundHalfEven t := by exact_mod_cast Nat.lt_of_not_le hc
  have := (roundHalfEven_spec ht n).1
  rw [abs_of_nonneg (by linarith), Int.cast_natCast, abs_of_nonneg (by linarith)] at this
  linarith

theorem le_roundHalfEven {t : ℚ} (ht : 0 ≤ t) {n : ℕ} (h : (n : ℚ) ≤ t) :
    n ≤ roundHalfEven t := by
  by_contra hc
  have hc' : (roundHalfEven t : ℚ) + 1 ≤ n := by exact_mod_cast Nat.lt_of_not_le hc
  have := (roundHalfEven_spec ht n).1
  rw [abs_of_nonpos (by linarith), Int.cast_natCast, abs_of_nonpos (by linarith)] at this
  linarith

/-- Rounding reaches an even number `n` exactly from half below it on. -/
theorem le_roundHalfEven_iff {t : ℚ} (ht : 0 ≤ t) {n : ℕ} (hn : n % 2 = 0) :
    n ≤ roundHalfEven t ↔ (n : ℚ) - 1 / 2 ≤ t := by
  constructor
  · intro h
    by_contra hc
    have h' : (n : ℚ) ≤ roundHalfEven t := by exact_mod_cast h
    have := (roundHalfEven_spec ht (n - 1)).1
    rw [abs_of_nonneg (by linarith)] at this
    push_cast at this
    rcases le_total ((n : ℚ) - 1) t with h0 | h0
    · rw [abs_of_nonpos (by linarith)] at this; linarith
    · rw [abs_of_nonneg (by linarith)] at this; linarith
  · intro h
    by_contra hc
    have hc' : (roundHalfEven t : ℚ) + 1 ≤ n := by exact_mod_cast Nat.lt_of_not_le hc
    obtain ⟨h1, h2⟩ := roundHalfEven_spec ht n
    rw [abs_of_nonpos (by linarith), Int.cast_natCast] at h1
    have h3 : (n : ℚ) - t ≤ t - roundHalfEven t := by linarith
    have h4 : |(n : ℚ) - t| = |(roundHalfEven t : ℚ) - t| := by
      apply le_antisymm
      · rw [abs_of_nonpos (by linarith : (roundHalfEven t : ℚ) - t ≤ 0), abs_le]
        constructor <;> linarith
      · rw [abs_of_nonpos (by linarith : (roundHalfEven t : ℚ) - t ≤ 0)]
        linarith
    have h5 := h2 (by omega) (by rw [Int.cast_natCast]; exact h4)
    -- the distance is at most one half, and the parity excludes the tie
    rw [abs_of_nonpos (by linarith : (roundHalfEven t : ℚ) - t ≤ 0)] at h4
    have h6 : (roundHalfEven t : ℚ) + 1 = n := by
      rcases abs_cases ((n : ℚ) - t) with ⟨e, _⟩ | ⟨e, _⟩ <;> rw [e] at h4 <;> linarith
    have h7 : roundHalfEven t + 1 = n := by exact_mod_cast h6
    omega

/-! ## Patterns -/

theorem two_bias (F : Fmt) : ((2 ^ F.exp : ℕ) : ℤ) = 2 * F.bias + 2 := by
  have := F.exp_ge
  obtain ⟨n, hn⟩ : ∃ n, F.exp = n + 1 := ⟨F.exp - 1, by omega⟩
  rw [bias, hn, Nat.add_sub_cancel]
  push_cast
  ring

theorem bias_pos (F : Fmt) : 1 ≤ F.bias := by
  have h1 := two_bias F
  have h2 : 2 ^ 2 ≤ 2 ^ F.exp := Nat.pow_le_pow_right (by decide) F.exp_ge
  omega

theorem two_zpow_pos (k : ℤ) : (0 : ℚ) < 2 ^ k := zpow_pos (by norm_num) _

/-- The fields of an unsigned pattern put together from exponent and significand. -/
theorem fields_of (E : ℕ) {r : ℕ} (hr : r < 2 ^ F.mant) (hE : E < 2 ^ F.exp) :
    F.expField (E * 2 ^ F.mant + r) = E ∧ F.mantField (E * 2 ^ F.mant + r) = r := by
  have hp : 0 < 2 ^ F.mant := Nat.pow_pos (by decide)
  constructor
  · rw [expField, Nat.add_comm, Nat.add_mul_div_right _ _ hp, Nat.div_eq_of_lt hr, Nat.zero_add,
      Nat.mod_eq_of_lt hE]
  · rw [mantField, Nat.add_comm, Nat.add_mul_mod_self_right, Nat.mod_eq_of_lt hr]

theorem magnitude_of (E : ℕ) {r : ℕ} (hr : r < 2 ^ F.mant) (hE : E + 1 < 2 ^ F.exp) :
    F.magnitude ((E + 1) * 2 ^ F.mant + r) =
      ((2 ^ F.mant + r : ℕ) : ℚ) * 2 ^ ((E : ℤ) + (1 - F.bias) - F.mant) := by
  obtain ⟨h1, h2⟩ := fields_of (E + 1) hr hE
  rw [magnitude, h1, h2, if_neg (by omega), zpow_sub₀ (by norm_num) _ (F.mant : ℤ), zpow_natCast]
  have : (2 : ℚ) ^ F.mant ≠ 0 := by positivity
  push_cast
  rw [show ((E : ℤ) + 1 - F.bias) = (E : ℤ) + (1 - F.bias) by ring]
  field_simp

/-- Decoding `(e - emin) * 2^M + m`, including the carry of a full significand. -/
theorem magnitude_decode {E m : ℕ} (h1 : m ≤ 2 ^ (F.mant + 1)) (h2 : E = 0 ∨ 2 ^ F.mant ≤ m)
    (h3 : E * 2 ^ F.mant + m < F.infBits) :
    F.magnitude (E * 2 ^ F.mant + m) = (m : ℚ) * 2 ^ ((E : ℤ) + (1 - F.bias) - F.mant) := by
  have hp : 0 < 2 ^ F.mant := Nat.pow_pos (by decide)
  have hq : (2 : ℚ) ^ F.mant ≠ 0 := by positivity
  have h2e : 2 ^ 2 ≤ 2 ^ F.exp := Nat.pow_le_pow_right (by decide) F.exp_ge
  rw [pow_succ] at h1
  rw [infBits] at h3
  have bound : ∀ k, k * 2 ^ F.mant ≤ E * 2 ^ F.mant + m → k < 2 ^ F.exp := fun k hk => by
    have := Nat.lt_of_mul_lt_mul_right (lt_of_le_of_lt hk h3)
    omega
  by_cases hm : m < 2 ^ F.mant
  · have hE : E = 0 := by omega
    subst hE
    obtain ⟨e1, e2⟩ := fields_of (F := F) 0 hm (by omega)
    rw [magnitude, e1, e2, if_pos rfl, zpow_sub₀ (by norm_num) _ (F.mant : ℤ), zpow_natCast]
    push_cast
    rw [show ((0 : ℤ) + (1 - F.bias)) = 1 - F.bias by ring]
    field_simp
  · by_cases hf : m < 2 * 2 ^ F.mant
    · obtain ⟨r, rfl⟩ : ∃ r, m = 2 ^ F.mant + r := ⟨m - 2 ^ F.mant, by omega⟩
      rw [show E * 2 ^ F.mant + (2 ^ F.mant + r) = (E + 1) * 2 ^ F.mant + r by ring]
      exact magnitude_of E (by omega) (bound _ (by ring_nf; omega))
    · have hm2 : m = 2 * 2 ^ F.mant := by omega
      subst hm2
      rw [show E * 2 ^ F.mant + 2 * 2 ^ F.mant = (E + 1 + 1) * 2 ^ F.mant + 0 by ring,
        magnitude_of (E + 1) hp (bound _ (by ring_nf; omega))]
      push_cast
      rw [show ((E : ℤ) + 1 + (1 - F.bias) - F.mant) = 1 + ((E : ℤ) + (1 - F.bias) - F.mant) by ring,
        zpow_one_add₀ (by norm_num)]
      ring

/-- A finite magnitude is a small integer times a power of two. -/
theorem magnitude_grid (F : Fmt) (b : ℕ) : ∃ (k : ℕ) (j : ℤ), k < 2 ^ (F.mant + 1) ∧
    1 - F.bias - F.mant ≤ j ∧ F.magnitude b = k * 2 ^ j := by
  have hm : F.mantField b < 2 ^ F.mant := Nat.mod_lt _ (Nat.pow_pos (by decide))
  have hq : (2 : ℚ) ^ F.mant ≠ 0 := by positivity
  rw [magnitude]
  split
  · refine ⟨F.mantField b, 1 - F.bias - F.mant, by rw [pow_succ]; omega, le_rfl, ?_⟩
    rw [zpow_sub₀ (by norm_num) _ (F.mant : ℤ), zpow_natCast]
    field_simp
  · refine ⟨2 ^ F.mant + F.mantField b, (F.expField b : ℤ) - F.bias - F.mant,
      by rw [pow_succ]; omega, by omega, ?_⟩
    rw [zpow_sub₀ (by norm_num) _ (F.mant : ℤ), zpow_natCast]
    push_cast
    field_simp

theorem magnitude_nonneg (F : Fmt) (b : ℕ) : 0 ≤ F.magnitude b := by
  obtain ⟨k, j, -, -, h⟩ := magnitude_grid F b
  rw [h]
  exact mul_nonneg (Nat.cast_nonneg _) (two_zpow_pos _).le

/-! ## Rounding a magnitude -/

theorem scale_ge (F : Fmt) (a : ℚ) : 1 - F.bias ≤ F.scale a := by
  rw [scale]
  split
  · exact le_rfl
  · exact le_max_right _ _

theorem lt_scale {a : ℚ} (ha : 0 ≤ a) : a < 2 ^ (F.scale a + 1) := by
  rw [scale]
  split
  · subst a; exact two_zpow_pos _
  · refine lt_of_lt_of_le (Int.lt_zpow_succ_log_self (b := 2) (by decide) a) ?_
    push_cast
    exact zpow_le_zpow_right₀ (by norm_num) (by omega)

theorem scale_le {a : ℚ} (ha : 0 ≤ a) (h : F.scale a ≠ 1 - F.bias) : 2 ^ F.scale a ≤ a := by
  rw [scale] at h ⊢
  split at h
  · exact absurd rfl h
  · rw [if_neg ‹_›]
    rename_i h0
    have : max (Int.log 2 a) (1 - F.bias) = Int.log 2 a := by omega
    rw [this]
    exact_mod_cast Int.zpow_log_le_self (b := 2) (by decide) (lt_of_le_of_ne ha (Ne.symm h0))

section

variable {a : ℚ}

/-- Significand to which `a` rounds. -/
def sig (F : Fmt) (a : ℚ) : ℕ := roundHalfEven (a / 2 ^ (F.scale a - F.mant))

theorem quot_nonneg (ha : 0 ≤ a) : 0 ≤ a / 2 ^ (F.scale a - F.mant) :=
  div_nonneg ha (two_zpow_pos _).le

theorem quot_lt (ha : 0 ≤ a) : a / 2 ^ (F.scale a - F.mant) < ((2 ^ (F.mant + 1) : ℕ) : ℚ) := by
  rw [div_lt_iff₀ (two_zpow_pos _)]
  refine lt_of_lt_of_eq (lt_scale (F := F) ha) ?_
  push_cast
  rw [← zpow_natCast, ← zpow_add₀ (by norm_num)]
  congr 1
  push_cast
  ring

theorem le_quot (ha : 0 ≤ a) (h : F.scale a ≠ 1 - F.bias) :
    ((2 ^ F.mant : ℕ) : ℚ) ≤ a / 2 ^ (F.scale a - F.mant) := by
  rw [le_div_iff₀ (two_zpow_pos _)]
  refine le_of_eq_of_le ?_ (scale_le ha h)
  push_cast
  rw [← zpow_natCast, ← zpow_add₀ (by norm_num)]
  congr 1
  ring

theorem sig_le (ha : 0 ≤ a) : F.sig a ≤ 2 ^ (F.mant + 1) :=
  roundHalfEven_le (quot_nonneg ha) (quot_lt ha).le

theorem le_sig (ha : 0 ≤ a) (h : F.scale a ≠ 1 - F.bias) : 2 ^ F.mant ≤ F.sig a :=
  le_roundHalfEven (quot_nonneg ha) (le_quot ha h)

theorem roundAbs_eq (F : Fmt) (a : ℚ) : F.roundAbs a =
    min ((F.scale a - (1 - F.bias)).toNat * 2 ^ F.mant + F.sig a) F.infBits := rfl

/-- When rounding stays finite. -/
theorem finite_iff (ha : 0 ≤ a) :
    (F.scale a - (1 - F.bias)).toNat * 2 ^ F.mant + F.sig a < F.infBits ↔
      a < F.overflowBound := by
  have hb := two_bias F
  have hb1 := bias_pos F
  have hge := scale_ge F a
  have hle := sig_le (F := F) ha
  have hp : 0 < 2 ^ F.mant := Nat.pow_pos (by decide)
  obtain ⟨E, hE⟩ : ∃ E : ℕ, (E : ℤ) = F.scale a - (1 - F.bias) :=
    ⟨(F.scale a - (1 - F.bias)).toNat, by omega⟩
  obtain ⟨B, hB⟩ : ∃ B : ℕ, (B : ℤ) = F.bias := ⟨F.bias.toNat, by omega⟩
  have hX : 2 ^ F.exp - 1 = 2 * B + 1 := by omega
  rw [← hE, Int.toNat_natCast, infBits, hX]
  rw [pow_succ] at hle
  have hov : F.overflowBound = (((2 ^ (F.mant + 1) : ℕ) : ℚ) - 1 / 2) * 2 ^ (F.bias - F.mant) := by
    rw [overflowBound]
    push_cast
    rw [sub_mul, ← zpow_natCast, ← zpow_add₀ (by norm_num), zpow_sub₀ (by norm_num) _ (1 : ℤ)]
    push_cast
    rw [show ((F.mant : ℤ) + 1 + (F.bias - F.mant)) = F.bias + 1 by ring]
    ring
  rcases lt_trichotomy (F.scale a) F.bias with h | h | h
  · have h1 : a < F.overflowBound := by
      refine (lt_scale (F := F) ha).trans_le ?_
      refine (zpow_le_zpow_right₀ (by norm_num) (show F.scale a + 1 ≤ F.bias by omega)).trans ?_
      rw [hov]
      have : (2 : ℚ) ^ F.bias = ((2 ^ F.mant : ℕ) : ℚ) * 2 ^ (F.bias - F.mant) := by
        push_cast
        rw [← zpow_natCast, ← zpow_add₀ (by norm_num)]
        congr 1
        ring
      rw [this]
      refine mul_le_mul_of_nonneg_right ?_ (two_zpow_pos _).le
      have h1 : (1 : ℚ) ≤ ((2 ^ F.mant : ℕ) : ℚ) := by exact_mod_cast hp
      rw [pow_succ]
      push_cast at h1 ⊢
      linarith
    refine iff_of_true ?_ h1
    have h2 : E + 2 ≤ 2 * B := by omega
    calc E * 2 ^ F.mant + F.sig a ≤ (E + 2) * 2 ^ F.mant := by ring_nf; omega
      _ ≤ (2 * B) * 2 ^ F.mant := Nat.mul_le_mul_right _ h2
      _ < (2 * B + 1) * 2 ^ F.mant := by ring_nf; omega
  · have h2 : E + 1 = 2 * B := by omega
    have h3 : E * 2 ^ F.mant + F.sig a < (2 * B + 1) * 2 ^ F.mant ↔
        ¬ 2 ^ (F.mant + 1) ≤ F.sig a := by
      rw [← h2, pow_succ]
      constructor <;> intro h <;> ring_nf at h ⊢ <;> omega
    rw [h3, sig, le_roundHalfEven_iff (quot_nonneg ha) (by rw [pow_succ]; omega),
      hov, not_le, div_lt_iff₀ (two_zpow_pos _), h]
  · have h2 : 2 * B ≤ E := by omega
    have h3 := le_sig (F := F) ha (by omega)
    refine iff_of_false ?_ ?_
    · rw [not_lt]
      calc (2 * B + 1) * 2 ^ F.mant ≤ (E + 1) * 2 ^ F.mant := Nat.mul_le_mul_right _ (by omega)
        _ ≤ E * 2 ^ F.mant + F.sig a := by ring_nf; omega
    · rw [not_lt]
      refine le_trans ?_ (scale_le (F := F) ha (by omega))
      refine le_trans ?_ (zpow_le_zpow_right₀ (by norm_num) (show F.bias + 1 ≤ F.scale a by omega))
      rw [overflowBound]
      linarith [two_zpow_pos (F.bias - F.mant - 1)]

theorem roundAbs_magnitude (ha : 0 ≤ a) (h : a < F.overflowBound) :
    F.roundAbs a < F.infBits ∧
    F.magnitude (F.roundAbs a) = F.sig a * 2 ^ (F.scale a - F.mant) ∧
    F.roundAbs a % 2 = F.sig a % 2 := by
  have hf := (finite_iff ha).2 h
  have hge := scale_ge F a
  rw [roundAbs_eq, min_eq_left hf.le]
  refine ⟨hf, ?_, ?_⟩
  · rw [magnitude_decode (sig_le ha) ?_ hf]
    · congr 2
      omega
    · by_cases h0 : F.scale a = 1 - F.bias
      · left; omega
      · right; exact le_sig ha h0
  · obtain ⟨n, hn⟩ : ∃ n, F.mant = n + 1 := ⟨F.mant - 1, by have := F.mant_pos; omega⟩
    rw [Nat.add_mod, Nat.mul_mod, hn, pow_succ, Nat.mul_mod_left]
    simp

/-- No number of the grid is closer, and if one is as close the significand is even. -/
theorem sig_nearest (ha : 0 ≤ a) {k : ℕ} {j : ℤ} (hk : k < 2 ^ (F.mant + 1))
    (hj : 1 - F.bias - F.mant ≤ j) {s : ℤ} (hs : s = 1 ∨ s = -1) :
    |F.sig a * 2 ^ (F.scale a - F.mant) - a| ≤ |s * (k * 2 ^ j) - a| ∧
    ((s * (k * 2 ^ j) : ℚ) ≠ F.sig a * 2 ^ (F.scale a - F.mant) →
      |s * (k * 2 ^ j) - a| = |F.sig a * 2 ^ (F.scale a - F.mant) - a| →
        F.sig a % 2 = 0) := by
  set u : ℚ := 2 ^ (F.scale a - F.mant) with hu
  have hup : 0 < u := two_zpow_pos _
  have habs : ∀ z : ℚ, |z * u - a| = |z - a / u| * u := fun z => by
    rw [← abs_of_pos hup, ← abs_mul, abs_of_pos hup, sub_mul, div_mul_cancel₀ _ hup.ne']
  by_cases hjs : F.scale a - F.mant ≤ j
  · obtain ⟨d, hd⟩ : ∃ d : ℕ, j = F.scale a - F.mant + d := ⟨(j - (F.scale a - F.mant)).toNat, by omega⟩
    have he : ((s : ℚ) * (k * 2 ^ j)) = ((s * (k * 2 ^ d) : ℤ) : ℚ) * u := by
      rw [hd, zpow_add₀ (by norm_num), zpow_natCast, hu]
      push_cast
      ring
    rw [he, habs, habs]
    obtain ⟨h1, h2⟩ := roundHalfEven_spec (quot_nonneg (F := F) ha) (s * (k * 2 ^ d))
    refine ⟨mul_le_mul_of_nonneg_right h1 hup.le, fun hne heq => h2 ?_ ?_⟩
    · rintro e
      exact hne (by rw [e]; rfl)
    · exact mul_right_cancel₀ hup.ne' heq
  · have hb : 2 ^ F.scale a ≤ a := scale_le ha (by omega)
    have hlt : (s : ℚ) * (k * 2 ^ j) < 2 ^ F.scale a := by
      have h0 : (k : ℚ) * 2 ^ j < 2 ^ F.scale a := by
        have hk' : (k : ℚ) < ((2 ^ (F.mant + 1) : ℕ) : ℚ) := by exact_mod_cast hk
        calc (k : ℚ) * 2 ^ j < ((2 ^ (F.mant + 1) : ℕ) : ℚ) * 2 ^ j :=
              mul_lt_mul_of_pos_right hk' (two_zpow_pos _)
          _ = 2 ^ ((F.mant : ℤ) + 1 + j) := by
              push_cast
              rw [← zpow_natCast, ← zpow_add₀ (by norm_num)]
              congr 1
          _ ≤ 2 ^ F.scale a := zpow_le_zpow_right₀ (by norm_num) (by omega)
      have h1 : 0 ≤ (k : ℚ) * 2 ^ j := mul_nonneg (Nat.cast_nonneg _) (two_zpow_pos _).le
      rcases hs with rfl | rfl <;> push_cast <;> linarith [two_zpow_pos (F.scale a)]
    have hm := (roundHalfEven_spec (quot_nonneg (F := F) ha) (2 ^ F.mant)).1
    have hm' := mul_le_mul_of_nonneg_right hm hup.le
    rw [← habs, ← habs] at hm'
    have hpe : (((2 ^ F.mant : ℤ)) : ℚ) * u = 2 ^ F.scale a := by
      push_cast
      rw [hu, ← zpow_natCast, ← zpow_add₀ (by norm_num)]
      congr 1
      ring
    rw [hpe, abs_of_nonpos (by linarith : (2 : ℚ) ^ F.scale a - a ≤ 0)] at hm'
    have hr : |(s : ℚ) * (k * 2 ^ j) - a| = a - s * (k * 2 ^ j) := by
      rw [abs_of_nonpos (by linarith)]; ring
    change |(F.sig a : ℚ) * u - a| ≤ _ at hm'
    rw [hr]
    exact ⟨by linarith, fun _ e => by linarith⟩

end

/-! ## Signs -/

theorem infBits_lt (F : Fmt) : F.infBits < 2 ^ (F.mant + F.exp) := by
  have hp : 0 < 2 ^ F.mant := Nat.pow_pos (by decide)
  have h2 : 2 ^ 2 ≤ 2 ^ F.exp := Nat.pow_le_pow_right (by decide) F.exp_ge
  rw [infBits, pow_add, Nat.mul_comm]
  exact Nat.mul_lt_mul_of_pos_left (by omega) hp

theorem withSign_fields (neg : Bool) {p : ℕ} (hp : p < 2 ^ (F.mant + F.exp)) :
    F.Valid (F.withSign neg p) ∧ F.signField (F.withSign neg p) = (if neg then 1 else 0) ∧
    F.expField (F.withSign neg p) = F.expField p ∧
    F.mantField (F.withSign neg p) = F.mantField p ∧ F.withSign neg p % 2 = p % 2 := by
  have h0 : 0 < 2 ^ (F.mant + F.exp) := Nat.pow_pos (by decide)
  have hv : 2 ^ (1 + F.mant + F.exp) = 2 * 2 ^ (F.mant + F.exp) := by
    rw [show 1 + F.mant + F.exp = (F.mant + F.exp) + 1 by omega, pow_succ, Nat.mul_comm]
  obtain ⟨n, hn⟩ : ∃ n, F.mant = n + 1 := ⟨F.mant - 1, by have := F.mant_pos; omega⟩
  cases neg
  · refine ⟨?_, ?_, rfl, rfl, rfl⟩
    · show p < _; omega
    · show p / _ % 2 = 0
      rw [Nat.div_eq_of_lt hp]
  · have hq : 0 < 2 ^ F.mant := Nat.pow_pos (by decide)
    refine ⟨?_, ?_, ?_, ?_, ?_⟩
    · show _ + p < _; omega
    · show (_ + p) / _ % 2 = 1
      rw [Nat.add_div_left _ h0, Nat.div_eq_of_lt hp]
    · show (_ + p) / _ % _ = p / _ % _
      rw [pow_add, Nat.mul_comm, Nat.add_comm, Nat.add_mul_div_right _ _ hq, Nat.add_mod_right]
    · show (_ + p) % _ = p % _
      rw [pow_add, Nat.mul_add_mod]
    · show (_ + p) % 2 = p % 2
      rw [hn, show n + 1 + F.exp = (n + F.exp) + 1 by omega, pow_succ, Nat.mul_comm,
        Nat.mul_add_mod]

theorem expField_lt_of {p : ℕ} (hp : p < F.infBits) : F.expField p < 2 ^ F.exp - 1 := by
  rw [expField]
  refine (Nat.mod_le _ _).trans_lt ?_
  exact (Nat.div_lt_iff_lt_mul (Nat.pow_pos (by decide))).2 hp

theorem inf_infBits (F : Fmt) : F.Inf F.infBits := by
  have h2 : 2 ^ 2 ≤ 2 ^ F.exp := Nat.pow_le_pow_right (by decide) F.exp_ge
  exact fields_of (F := F) (2 ^ F.exp - 1) (r := 0) (Nat.pow_pos (by decide)) (by omega)

theorem value_withSign (neg : Bool) {p : ℕ} (hp : p < 2 ^ (F.mant + F.exp)) :
    F.value (F.withSign neg p) = (if neg then -1 else 1) * F.magnitude p := by
  obtain ⟨-, h1, h2, h3, -⟩ := withSign_fields neg hp
  rw [value, sgn, magnitude, magnitude, h1, h2, h3]
  cases neg <;> rfl

theorem value_grid (F : Fmt) (c : ℕ) : ∃ (k : ℕ) (j : ℤ) (s : ℤ), k < 2 ^ (F.mant + 1) ∧
    1 - F.bias - F.mant ≤ j ∧ (s = 1 ∨ s = -1) ∧ F.value c = s * (k * 2 ^ j) := by
  obtain ⟨k, j, h1, h2, h3⟩ := magnitude_grid F c
  refine ⟨k, j, if F.signField c = 0 then 1 else -1, h1, h2, ?_, ?_⟩
  · split <;> simp
  · rw [value, sgn, h3]
    split <;> simp

/-- Rounding the magnitude and attaching the sign is correct rounding. -/
theorem rounded_withSign (x : ℚ) : F.Rounded x (F.withSign (decide (x < 0)) (F.roundAbs |x|)) := by
  have ha := abs_nonneg x
  have hle : F.roundAbs |x| ≤ F.infBits := by rw [roundAbs_eq]; exact min_le_right _ _
  have hlt := lt_of_le_of_lt hle (infBits_lt F)
  obtain ⟨h1, h2, h3, h4, h5⟩ := withSign_fields (decide (x < 0)) hlt
  set s : ℤ := if x < 0 then -1 else 1 with hs
  have hs2 : ((s : ℚ)) * s = 1 := by rw [hs]; split <;> norm_num
  have hsa : |(s : ℚ)| = 1 := by rw [hs]; split <;> norm_num
  have hx : x = s * |x| := by
    rw [hs]
    split
    · rw [abs_of_neg ‹_›]; push_cast; ring
    · rw [abs_of_nonneg (not_lt.1 ‹_›)]; push_cast; ring
  have hv : F.value (F.withSign (decide (x < 0)) (F.roundAbs |x|)) =
      s * F.magnitude (F.roundAbs |x|) := by
    rw [value_withSign _ hlt, hs]
    by_cases h : x < 0 <;> simp [h]
  have key : |x| < F.overflowBound → ∀ c,
      |F.value (F.withSign (decide (x < 0)) (F.roundAbs |x|)) - x| ≤ |F.value c - x| ∧
      (F.value c ≠ F.value (F.withSign (decide (x < 0)) (F.roundAbs |x|)) →
        |F.value c - x| = |F.value (F.withSign (decide (x < 0)) (F.roundAbs |x|)) - x| →
        F.withSign (decide (x < 0)) (F.roundAbs |x|) % 2 = 0) := by
    intro hb c
    obtain ⟨r1, r2, r3⟩ := roundAbs_magnitude ha hb
    obtain ⟨k, j, t, k1, k2, k3, k4⟩ := value_grid F c
    have hst : s * t = 1 ∨ s * t = -1 := by
      rw [hs]; rcases k3 with rfl | rfl <;> split <;> simp
    obtain ⟨n1, n2⟩ := sig_nearest (F := F) ha k1 k2 hst
    have e1 : |F.value (F.withSign (decide (x < 0)) (F.roundAbs |x|)) - x| =
        |(F.sig (|x|) : ℚ) * 2 ^ (F.scale (|x|) - F.mant) - (|x|)| := by
      rw [hv, r2]
      conv_lhs => rw [hx, ← mul_sub, abs_mul, hsa, one_mul]
      rw [← hx]
    have e2 : |F.value c - x| = |((s * t : ℤ) : ℚ) * (k * 2 ^ j) - (|x|)| := by
      have : F.value c - x = s * (((s * t : ℤ) : ℚ) * (k * 2 ^ j) - |x|) := by
        rw [mul_sub, ← hx, k4]
        push_cast
        rw [← mul_assoc (s : ℚ), ← mul_assoc (s : ℚ) s, hs2, one_mul]
      rw [this, abs_mul, hsa, one_mul]
    rw [e1, e2, h5, r3]
    refine ⟨n1, fun hne he => n2 (fun hc => hne ?_) he⟩
    rw [hv, r2, ← hc, k4]
    push_cast
    rw [← mul_assoc (s : ℚ), ← mul_assoc (s : ℚ) s, hs2, one_mul]
  refine ⟨h1, ?_, ?_, ?_, fun h c _ => (key h c).1, fun h c _ => (key h c).2⟩
  · rw [h2]
    by_cases h : x < 0 <;> simp [h]
  · intro h
    have : F.roundAbs |x| = F.infBits := by
      rw [roundAbs_eq]
      exact min_eq_right (not_lt.1 fun hf => absurd ((finite_iff ha).1 hf) (not_lt.2 h))
    obtain ⟨i1, i2⟩ := inf_infBits F
    refine ⟨?_, ?_⟩
    · rw [h3, this, i1]
    · rw [h4, this, i2]
  · intro h
    refine ⟨h1, ?_⟩
    rw [h3]
    exact expField_lt_of (roundAbs_magnitude ha h).1

/-- Values of finite patterns are below the overflow bound. -/
theorem magnitude_lt_overflow {c : ℕ} (hc : F.expField c < 2 ^ F.exp - 1) :
    F.magnitude c < F.overflowBound := by
  have hb := two_bias F
  have hb1 := bias_pos F
  have hm : F.mantField c < 2 ^ F.mant := Nat.mod_lt _ (Nat.pow_pos (by decide))
  have hq : (0 : ℚ) < 2 ^ F.mant := by positivity
  have hm' : (F.mantField c : ℚ) + 1 ≤ 2 ^ F.mant := by exact_mod_cast hm
  have hM : F.magnitude c ≤ (2 - 1 / 2 ^ F.mant) * 2 ^ F.bias := by
    have hd : (F.mantField c : ℚ) / 2 ^ F.mant ≤ 1 - 1 / 2 ^ F.mant := by
      rw [le_sub_iff_add_le, ← add_div, div_le_one hq]
      exact hm'
    have hd0 : (0 : ℚ) ≤ (F.mantField c : ℚ) / 2 ^ F.mant := by positivity
    rw [magnitude]
    split
    · refine mul_le_mul (by linarith) (zpow_le_zpow_right₀ (by norm_num) (by omega))
        (two_zpow_pos _).le (by linarith)
    · refine mul_le_mul (by linarith) (zpow_le_zpow_right₀ (by norm_num) (by omega))
        (two_zpow_pos _).le (by linarith)
  refine hM.trans_lt ?_
  rw [overflowBound, zpow_add_one₀ (by norm_num), sub_sub, zpow_sub₀ (by norm_num),
    zpow_add_one₀ (by norm_num), zpow_natCast]
  have hz := two_zpow_pos F.bias
  have : (2 - 1 / 2 ^ F.mant) * (2 : ℚ) ^ F.bias =
      2 ^ F.bias * 2 - 2 * (2 ^ F.bias / (2 ^ F.mant * 2)) := by
    field_simp
  rw [this]
  have : 0 < (2 : ℚ) ^ F.bias / (2 ^ F.mant * 2) := by positivity
  linarith

theorem abs_value (F : Fmt) (c : ℕ) : |F.value c| = F.magnitude c := by
  rw [value, sgn, abs_mul, abs_of_nonneg (magnitude_nonneg F c)]
  split <;> simp

theorem Representable.lt {x : ℚ} (h : F.Representable x) : |x| < F.overflowBound := by
  obtain ⟨c, ⟨-, h1⟩, rfl⟩ := h
  rw [abs_value]
  exact magnitude_lt_overflow h1

/-- Rounding a representable number is exact. -/
theorem Rounded.exact {x : ℚ} {b : ℕ} (h : F.Rounded x b) (hx : F.Representable x) :
    F.value b = x := by
  have hlt := hx.lt
  obtain ⟨c, hc, rfl⟩ := hx
  have := h.nearest hlt c hc
  rw [sub_self, abs_zero] at this
  exact sub_eq_zero.1 (abs_eq_zero.1 (le_antisymm this (abs_nonneg _)))

theorem rounded_ofInt (n : ℤ) : F.Rounded n (F.ofInt n) := by
  have := rounded_withSign (F := F) (n : ℚ)
  rw [ofInt]
  convert this using 3
  · exact Int.cast_lt_zero.symm
  · rw [← Int.cast_abs, ← Int.natCast_natAbs, Int.cast_natCast]

/-- Division of two finite numbers is correctly rounded. -/
theorem rounded_div {x y : ℕ} (hx : F.Finite x) (hy : F.Finite y) (hy0 : F.value y ≠ 0)
    (hz : F.value x = 0 → F.signField x = F.signField y) :
    F.Rounded (F.value x / F.value y) (F.div x y) := by
  have n1 : ¬ F.NaN x := fun h => by have := h.1; have := hx.2; omega
  have n2 : ¬ F.NaN y := fun h => by have := h.1; have := hy.2; omega
  have n3 : ¬ F.Inf x := fun h => by have := h.1; have := hx.2; omega
  have n4 : ¬ F.Inf y := fun h => by have := h.1; have := hy.2; omega
  have hm : F.magnitude y ≠ 0 := fun h => hy0 (by rw [value, h, mul_zero])
  have hmp := lt_of_le_of_ne (magnitude_nonneg F y) (Ne.symm hm)
  simp only [div, n1, n2, n3, n4, hm, or_self, and_self, if_false]
  have := rounded_withSign (F := F) (F.value x / F.value y)
  rw [abs_div, abs_value, abs_value] at this
  convert this using 2
  rcases eq_or_ne (F.magnitude x) 0 with h0 | h0
  · have hvx : F.value x = 0 := by rw [value, h0, mul_zero]
    rw [hvx, hz hvx]
    simp
  · have hxp := lt_of_le_of_ne (magnitude_nonneg F x) (Ne.symm h0)
    have sx : F.signField x = 0 ∨ F.signField x = 1 := by rw [signField]; omega
    have sy : F.signField y = 0 ∨ F.signField y = 1 := by rw [signField]; omega
    have hq := div_pos hxp hmp
    rw [value, value, sgn, sgn]
    rcases sx with e | e <;> rcases sy with e' | e' <;> rw [e, e'] <;>
      simp [neg_div, div_neg] <;> first | exact hq | exact hq.le

/-- Exact quotients of integers are correctly rounded. -/
theorem rounded_quotient {n d : ℤ} (hn : F.Representable n) (hd : F.Representable d)
    (h0 : 0 < d) : F.Rounded (n / d) (F.div (F.ofInt n) (F.ofInt d)) := by
  have r1 := rounded_ofInt (F := F) n
  have r2 := rounded_ofInt (F := F) d
  have e1 := r1.exact hn
  have e2 := r2.exact hd
  have hdq : (0 : ℚ) < d := by exact_mod_cast h0
  have := rounded_div (r1.finite hn.lt) (r2.finite hd.lt) (by rw [e2]; exact hdq.ne') (by
    intro h
    rw [e1] at h
    rw [r1.sign, r2.sign, h, if_neg (lt_irrefl _), if_neg (not_lt.2 hdq.le)])
  rwa [e1, e2] at this

/-- Small integers times powers of two are representable. -/
theorem representable_grid {k : ℕ} {j : ℤ} (neg : Bool) (hk : k < 2 ^ (F.mant + 1))
    (hj : 1 - F.bias - F.mant ≤ j) (hlt : (k : ℚ) * 2 ^ j < F.overflowBound) :
    F.Representable ((if neg then -1 else 1) * (k * 2 ^ j)) := by
  have ha : 0 ≤ (k : ℚ) * 2 ^ j := mul_nonneg (Nat.cast_nonneg _) (two_zpow_pos _).le
  obtain ⟨q1, q2, -⟩ := roundAbs_magnitude ha hlt
  have h := (sig_nearest ha hk hj (s := 1) (.inl rfl)).1
  rw [Int.cast_one, one_mul, sub_self, abs_zero] at h
  have he := sub_eq_zero.1 (abs_eq_zero.1 (le_antisymm h (abs_nonneg _)))
  have hp := q1.trans (infBits_lt F)
  obtain ⟨f1, -, f3, -⟩ := withSign_fields neg hp
  refine ⟨F.withSign neg (F.roundAbs (k * 2 ^ j)), ⟨f1, ?_⟩, ?_⟩
  · rw [f3]; exact expField_lt_of q1
  · rw [value_withSign _ hp, q2, he]

/-- Integers of up to `mant + 1` bits are representable if the exponent range allows. -/
theorem representable_int {n : ℤ} (h : n.natAbs ≤ 2 ^ (F.mant + 1)) (hb : (F.mant : ℤ) < F.bias) :
    F.Representable n := by
  have hlt : (n.natAbs : ℚ) < F.overflowBound := by
    have h1 : (n.natAbs : ℚ) ≤ 2 ^ ((F.mant : ℤ) + 1) := by exact_mod_cast h
    refine h1.trans_lt ?_
    rw [overflowBound, zpow_add_one₀ (by norm_num) F.bias]
    have h2 : (2 : ℚ) ^ ((F.mant : ℤ) + 1) ≤ 2 ^ F.bias :=
      zpow_le_zpow_right₀ (by norm_num) (by omega)
    have h3 : (2 : ℚ) ^ (F.bias - F.mant - 1) < 2 ^ F.bias :=
      zpow_lt_zpow_right₀ (by norm_num) (by omega)
    linarith
  have hn : (n : ℚ) = (if decide (n < 0) then -1 else 1) * (n.natAbs : ℚ) := by
    by_cases h0 : n < 0
    · obtain ⟨k, rfl⟩ := Int.eq_negSucc_of_lt_zero h0
      rw [if_pos (by simp), Int.natAbs_negSucc, Int.cast_negSucc, neg_one_mul]
    · obtain ⟨k, rfl⟩ := Int.eq_ofNat_of_zero_le (not_lt.1 h0)
      simp
  rcases h.lt_or_eq with h' | h'
  · have := representable_grid (F := F) (k := n.natAbs) (j := 0) (decide (n < 0)) h'
      (by have := bias_pos F; omega) (by rwa [zpow_zero, mul_one])
    rwa [zpow_zero, mul_one, ← hn] at this
  · have e : ((1 : ℕ) : ℚ) * 2 ^ ((F.mant : ℤ) + 1) = n.natAbs := by
      rw [h', Nat.cast_one, one_mul]
      exact_mod_cast rfl
    have := representable_grid (F := F) (k := 1) (j := F.mant + 1) (decide (n < 0))
      (Nat.one_lt_two_pow (by omega)) (by have := bias_pos F; omega) (by rwa [e])
    rwa [e, ← hn] at this

/-- One and minus one are representable. -/
theorem representable_one (neg : Bool) : F.Representable (if neg then -1 else 1) := by
  have hlt : ((1 : ℕ) : ℚ) * 2 ^ (0 : ℤ) < F.overflowBound := by
    have h0 := bias_pos F
    rw [overflowBound, zpow_add_one₀ (by norm_num) F.bias]
    have h2 : (2 : ℚ) ^ (0 : ℤ) ≤ 2 ^ F.bias := zpow_le_zpow_right₀ (by norm_num) (by omega)
    have h3 : (2 : ℚ) ^ (F.bias - F.mant - 1) < 2 ^ F.bias :=
      zpow_lt_zpow_right₀ (by norm_num) (by omega)
    rw [zpow_zero] at h2 ⊢
    push_cast
    linarith
  have := representable_grid (F := F) (k := 1) (j := 0) neg (Nat.one_lt_two_pow (by omega))
    (by have := bias_pos F; omega) hlt
  simpa using this

/-- Rounding to a finite number does not go below one. -/
theorem Rounded.one_le_abs {x : ℚ} {b : ℕ} (h : F.Rounded x b) (hb : F.Finite b) (hx : 1 ≤ |x|) :
    1 ≤ |F.value b| := by
  have hlt : |x| < F.overflowBound := by
    by_contra hc
    have := (h.overflow (not_lt.1 hc)).1
    have := hb.2
    omega
  rcases le_total 0 x with h0 | h0
  · obtain ⟨c, hc, e⟩ := representable_one (F := F) false
    have := h.nearest hlt c hc
    rw [abs_of_nonneg h0] at hx
    rw [e, if_neg (by simp), abs_of_nonpos (a := 1 - x) (by linarith)] at this
    have := neg_abs_le (F.value b - x)
    have := le_abs_self (F.value b)
    linarith
  · obtain ⟨c, hc, e⟩ := representable_one (F := F) true
    have := h.nearest hlt c hc
    rw [abs_of_nonpos h0] at hx
    rw [e, if_pos rfl, abs_of_nonneg (a := -1 - x) (by linarith)] at this
    have := le_abs_self (F.value b - x)
    have := neg_abs_le (F.value b)
    linarith

/-! ## Order and uniqueness of patterns -/

theorem magnitude_lt_succ {p : ℕ} (h : p + 1 < F.infBits) :
    F.magnitude p < F.magnitude (p + 1) := by
  have hp : 0 < 2 ^ F.mant := Nat.pow_pos (by decide)
  have h2 : 2 ^ 2 ≤ 2 ^ F.exp := Nat.pow_le_pow_right (by decide) F.exp_ge
  have hz : ∀ k : ℤ, (0 : ℚ) < 2 ^ k := two_zpow_pos
  by_cases hs : p + 1 ≤ 2 ^ (F.mant + 1)
  · have e1 := magnitude_decode (F := F) (E := 0) (m := p) (by omega) (.inl rfl) (by omega)
    have e2 := magnitude_decode (F := F) (E := 0) (m := p + 1) hs (.inl rfl) (by omega)
    rw [zero_mul, zero_add] at e1 e2
    rw [e1, e2]
    push_cast
    exact mul_lt_mul_of_pos_right (by linarith) (hz _)
  · obtain ⟨E, r, hr, rfl⟩ : ∃ E r, r < 2 ^ F.mant ∧ p = E * 2 ^ F.mant + (2 ^ F.mant + r) := by
      refine ⟨p / 2 ^ F.mant - 1, p % 2 ^ F.mant, Nat.mod_lt _ hp, ?_⟩
      have h1 : 1 ≤ p / 2 ^ F.mant := (Nat.le_div_iff_mul_le hp).2 (by rw [pow_succ] at hs; omega)
      have h3 := Nat.div_add_mod p (2 ^ F.mant)
      obtain ⟨q, hq⟩ : ∃ q, p / 2 ^ F.mant = q + 1 := ⟨p / 2 ^ F.mant - 1, by omega⟩
      rw [hq] at h3 ⊢
      rw [Nat.add_sub_cancel]
      rw [Nat.mul_comm, Nat.add_mul] at h3
      omega
    rw [add_assoc] at h
    rw [add_assoc, magnitude_decode (by rw [pow_succ]; omega) (.inr (by omega)) (by omega),
      magnitude_decode (by rw [pow_succ]; omega) (.inr (by omega)) (by omega)]
    refine mul_lt_mul_of_pos_right ?_ (hz _)
    push_cast
    linarith

theorem magnitude_strictMono {p q : ℕ} (h : p < q) (hq : q < F.infBits) :
    F.magnitude p < F.magnitude q := by
  induction q, h using Nat.le_induction with
  | base => exact magnitude_lt_succ hq
  | succ n hn ih => exact (ih (by omega)).trans (magnitude_lt_succ hq)

/-- A pattern is its sign and the rest. -/
theorem eq_withSign {b : ℕ} (hv : F.Valid b) : ∃ p < 2 ^ (F.mant + F.exp),
    b = F.withSign (F.signField b == 1) p := by
  have h0 : 0 < 2 ^ (F.mant + F.exp) := Nat.pow_pos (by decide)
  refine ⟨b % 2 ^ (F.mant + F.exp), Nat.mod_lt _ h0, ?_⟩
  have h1 := Nat.div_add_mod b (2 ^ (F.mant + F.exp))
  have h2 : b / 2 ^ (F.mant + F.exp) < 2 := by
    rw [Nat.div_lt_iff_lt_mul h0]
    rw [Valid, show 1 + F.mant + F.exp = (F.mant + F.exp) + 1 by omega, pow_succ] at hv
    omega
  rw [signField, Nat.mod_eq_of_lt h2]
  rw [withSign]
  interval_cases b / 2 ^ (F.mant + F.exp) <;> simp <;> omega

theorem lt_infBits_of {p : ℕ} (hp : p < 2 ^ (F.mant + F.exp)) (h : F.expField p < 2 ^ F.exp - 1) :
    p < F.infBits := by
  have h0 : 0 < 2 ^ F.mant := Nat.pow_pos (by decide)
  rw [expField, Nat.mod_eq_of_lt] at h
  · exact (Nat.div_lt_iff_lt_mul h0).1 h
  · rw [Nat.div_lt_iff_lt_mul h0, Nat.mul_comm, ← pow_add]
    exact hp

/-- Finite patterns of one sign with the same value are the same. -/
theorem value_inj {b c : ℕ} (hb : F.Finite b) (hc : F.Finite c)
    (hs : F.signField b = F.signField c) (h : F.value b = F.value c) : b = c := by
  obtain ⟨p, hp, eb⟩ := eq_withSign hb.1
  obtain ⟨q, hq, ec⟩ := eq_withSign hc.1
  rw [← hs] at ec
  generalize (F.signField b == 1) = n at eb ec
  have h1 := hb.2
  have h2 := hc.2
  rw [eb, (withSign_fields n hp).2.2.1] at h1
  rw [ec, (withSign_fields n hq).2.2.1] at h2
  rw [eb, ec, value_withSign _ hp, value_withSign _ hq] at h
  have hm : F.magnitude p = F.magnitude q := by
    cases n <;> simpa using h
  have l1 := lt_infBits_of hp h1
  have l2 := lt_infBits_of hq h2
  rcases lt_trichotomy p q with h' | h' | h'
  · exact absurd hm (magnitude_strictMono h' l2).ne
  · rw [eb, ec, h']
  · exact absurd hm (magnitude_strictMono h' l1).ne'

theorem Rounded.unique_aux {x : ℚ} {b c : ℕ} (hb : F.Rounded x b) (hc : F.Rounded x c)
    (hx : |x| < F.overflowBound) (hlt : F.magnitude b < F.magnitude c) : False := by
  have hs : F.signField b = F.signField c := by rw [hb.sign, hc.sign]
  have fb := hb.finite hx
  have fc := hc.finite hx
  obtain ⟨p, hp, eb⟩ := eq_withSign fb.1
  obtain ⟨q, hq, ec⟩ := eq_withSign fc.1
  rw [← hs] at ec
  generalize (F.signField b == 1) = n at eb ec
  have h1 := fb.2
  have h2 := fc.2
  obtain ⟨-, -, u1, u2, u3⟩ := withSign_fields n hp
  obtain ⟨-, -, v1, v2, v3⟩ := withSign_fields n hq
  rw [eb, u1] at h1
  rw [ec, v1] at h2
  have l1 := lt_infBits_of hp h1
  have l2 := lt_infBits_of hq h2
  have mb : F.magnitude b = F.magnitude p := by rw [magnitude, magnitude, eb, u1, u2]
  have mc : F.magnitude c = F.magnitude q := by rw [magnitude, magnitude, ec, v1, v2]
  have hpq : p < q := by
    by_contra h
    rcases (not_lt.1 h).lt_or_eq with h' | h'
    · have := magnitude_strictMono h' l1
      rw [mb, mc] at hlt
      linarith
    · rw [mb, mc, h'] at hlt
      exact lt_irrefl _ hlt
  have eq : |F.value b - x| = |F.value c - x| :=
    le_antisymm (hb.nearest hx c fc) (hc.nearest hx b fb)
  have hne : F.value b ≠ F.value c := fun h => by
    rw [← abs_value, ← abs_value, h] at hlt
    exact lt_irrefl _ hlt
  have p1 := hb.tie hx c fc hne.symm eq.symm
  have p2 := hc.tie hx b fb hne eq
  rw [eb, u3] at p1
  rw [ec, v3] at p2
  -- the pattern after `p` lies strictly between
  have hr : p + 1 < q := by omega
  have hr' : p + 1 < 2 ^ (F.mant + F.exp) := by omega
  obtain ⟨w0, -, w1, -⟩ := withSign_fields n hr'
  have fr : F.Finite (F.withSign n (p + 1)) := ⟨w0, by rw [w1]; exact expField_lt_of (by omega)⟩
  have g1 := magnitude_strictMono (Nat.lt_succ_self p) (by omega : p + 1 < F.infBits)
  have g2 := magnitude_strictMono hr l2
  have near := hb.nearest hx _ fr
  have near2 := hc.nearest hx _ fr
  have vb : F.value b = (if n then -1 else 1) * F.magnitude p := by
    rw [eb]; exact value_withSign n hp
  have vc : F.value c = (if n then -1 else 1) * F.magnitude q := by
    rw [ec]; exact value_withSign n hq
  rw [vb, value_withSign n hr'] at near
  rw [vc, value_withSign n hr'] at near2
  rw [vb, vc] at eq
  generalize F.magnitude p = A at *
  generalize F.magnitude q = B at *
  generalize F.magnitude (p + 1) = C at *
  cases n
  · simp only [Bool.false_eq_true, if_false, one_mul] at near near2 eq
    rcases abs_cases (A - x) with ⟨a1, _⟩ | ⟨a1, _⟩ <;> rcases abs_cases (B - x) with ⟨a2, _⟩ | ⟨a2, _⟩ <;>
      rcases abs_cases (C - x) with ⟨a3, _⟩ | ⟨a3, _⟩ <;> rw [a1, a3] at near <;>
      rw [a2, a3] at near2 <;> rw [a1, a2] at eq <;> linarith
  · simp only [if_true, neg_mul, one_mul] at near near2 eq
    rcases abs_cases (-A - x) with ⟨a1, _⟩ | ⟨a1, _⟩ <;>
      rcases abs_cases (-B - x) with ⟨a2, _⟩ | ⟨a2, _⟩ <;>
      rcases abs_cases (-C - x) with ⟨a3, _⟩ | ⟨a3, _⟩ <;> rw [a1, a3] at near <;>
      rw [a2, a3] at near2 <;> rw [a1, a2] at eq <;> linarith

/-- There is only one correctly rounded pattern. -/
theorem Rounded.unique {x : ℚ} {b c : ℕ} (hb : F.Rounded x b) (hc : F.Rounded x c) : b = c := by
  have hs : F.signField b = F.signField c := by rw [hb.sign, hc.sign]
  rcases lt_or_ge |x| F.overflowBound with hx | hx
  · rcases lt_trichotomy (F.magnitude b) (F.magnitude c) with h | h | h
    · exact (hb.unique_aux hc hx h).elim
    · exact value_inj (hb.finite hx) (hc.finite hx) hs (by rw [value, value, sgn, sgn, hs, h])
    · exact (hc.unique_aux hb hx h).elim
  · obtain ⟨b1, b2⟩ := hb.overflow hx
    obtain ⟨c1, c2⟩ := hc.overflow hx
    obtain ⟨p, hp, eb⟩ := eq_withSign hb.valid
    obtain ⟨q, hq, ec⟩ := eq_withSign hc.valid
    rw [← hs] at ec
    obtain ⟨-, -, u1, u2, -⟩ := withSign_fields (F.signField b == 1) hp
    obtain ⟨-, -, v1, v2, -⟩ := withSign_fields (F.signField b == 1) hq
    rw [eb, u1] at b1
    rw [eb, u2] at b2
    rw [ec, v1] at c1
    rw [ec, v2] at c2
    have h0 : 0 < 2 ^ F.mant := Nat.pow_pos (by decide)
    have m1 : ∀ {p}, p < 2 ^ (F.mant + F.exp) → p / 2 ^ F.mant < 2 ^ F.exp := fun h => by
      rw [Nat.div_lt_iff_lt_mul h0, Nat.mul_comm, ← pow_add]; exact h
    rw [expField, Nat.mod_eq_of_lt (m1 hp)] at b1
    rw [expField, Nat.mod_eq_of_lt (m1 hq)] at c1
    have : p = q := by
      rw [← Nat.div_add_mod p (2 ^ F.mant), ← Nat.div_add_mod q (2 ^ F.mant), b1, c1]
      rw [mantField] at b2 c2
      rw [b2, c2]
    rw [eb, ec, this]

end Ieme.Fmt
