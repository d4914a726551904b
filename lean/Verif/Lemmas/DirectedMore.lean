import Verif.Lemmas.Directed
import Verif.Lemmas.FloatParts

/-!
# Uniqueness, order and relative error of rounding
-/

namespace Ieme
namespace Fmt

variable {F : Fmt} {a x y : ℚ} {b c : ℕ} {d : Direction}

/-! ## Uniqueness and order -/

theorem Inf.pattern (hv : F.Valid b) (h : F.Inf b) : b = F.withSign (F.signField b == 1) F.infBits := by
  obtain ⟨p, hp, eb⟩ := eq_withSign hv
  obtain ⟨-, -, u1, u2, -⟩ := withSign_fields (F.signField b == 1) hp
  obtain ⟨b1, b2⟩ := h
  rw [eb, u1] at b1
  rw [eb, u2] at b2
  have h0 : 0 < 2 ^ F.mant := Nat.pow_pos (by decide)
  have m1 : p / 2 ^ F.mant < 2 ^ F.exp := by
    rw [Nat.div_lt_iff_lt_mul h0, Nat.mul_comm, ← pow_add]; exact hp
  rw [expField, Nat.mod_eq_of_lt m1] at b1
  have : p = F.infBits := by
    rw [← Nat.div_add_mod p (2 ^ F.mant), b1]
    rw [mantField] at b2
    rw [b2, infBits, Nat.add_zero, Nat.mul_comm]
  rwa [this] at eb

theorem RoundedTo.unique (hb : F.RoundedTo d x b) (hc : F.RoundedTo d x c) : b = c := by
  obtain ⟨b1, b2, hb⟩ := hb
  obtain ⟨c1, c2, hc⟩ := hc
  have hs : F.signField b = F.signField c := by rw [b2, c2]
  cases d with
  | nearest => exact hb.unique hc
  | upward =>
    rcases hb with ⟨i1, i2, i3⟩ | ⟨i1, i2, i3⟩ <;> rcases hc with ⟨j1, j2, j3⟩ | ⟨j1, j2, j3⟩
    · rw [Inf.pattern b1 i1, Inf.pattern c1 j1, hs]
    · exact absurd j2 (not_le.2 (i3 c j1))
    · exact absurd i2 (not_le.2 (j3 b i1))
    · exact value_inj i1 j1 hs (le_antisymm (i3 c j1 j2) (j3 b i1 i2))
  | downward =>
    rcases hb with ⟨i1, i2, i3⟩ | ⟨i1, i2, i3⟩ <;> rcases hc with ⟨j1, j2, j3⟩ | ⟨j1, j2, j3⟩
    · rw [Inf.pattern b1 i1, Inf.pattern c1 j1, hs]
    · exact absurd j2 (not_le.2 (i3 c j1))
    · exact absurd i2 (not_le.2 (j3 b i1))
    · exact value_inj i1 j1 hs (le_antisymm (j3 b i1 i2) (i3 c j1 j2))
  | towardZero =>
    obtain ⟨i1, i2, i3⟩ := hb
    obtain ⟨j1, j2, j3⟩ := hc
    have e : |F.value b| = |F.value c| := le_antisymm (j3 b i1 i2) (i3 c j1 j2)
    rw [abs_value, abs_value] at e
    exact value_inj i1 j1 hs (by rw [value, value, sgn, sgn, hs, e])

theorem value_nonneg (h : F.signField b = 0) : F.value b = F.magnitude b := by
  rw [value, sgn, if_pos h, one_mul]

theorem value_nonpos (h : F.signField b = 1) : F.value b = -F.magnitude b := by
  rw [value, sgn, h, if_neg (by decide), neg_one_mul]

/-- Correct rounding keeps the order, in each direction. -/
theorem RoundedTo.mono (hb : F.RoundedTo d x b) (hc : F.RoundedTo d y c) (hxy : x ≤ y) :
    F.Le b c := by
  have nb := hb.not_nan
  have nc := hc.not_nan
  obtain ⟨b1, b2, hb⟩ := hb
  obtain ⟨c1, c2, hc⟩ := hc
  cases d with
  | nearest => exact hb.mono hc hxy
  | upward =>
    rcases hc with ⟨j1, j2, j3⟩ | ⟨j1, j2, j3⟩
    · exact .inr (.inl ⟨j1, by rw [c2, if_neg (not_lt.2 j2.le)], nb⟩)
    · rcases hb with ⟨i1, i2, i3⟩ | ⟨i1, i2, i3⟩
      · exact absurd (hxy.trans j2) (not_le.2 (i3 c j1))
      · exact .inr (.inr ⟨i1, j1, i3 c j1 (hxy.trans j2)⟩)
  | downward =>
    rcases hb with ⟨i1, i2, i3⟩ | ⟨i1, i2, i3⟩
    · exact .inl ⟨i1, by rw [b2, if_pos i2], nc⟩
    · rcases hc with ⟨j1, j2, j3⟩ | ⟨j1, j2, j3⟩
      · exact absurd (i2.trans hxy) (not_le.2 (j3 b i1))
      · exact .inr (.inr ⟨i1, j1, j3 b i1 (i2.trans hxy)⟩)
  | towardZero =>
    obtain ⟨i1, i2, i3⟩ := hb
    obtain ⟨j1, j2, j3⟩ := hc
    refine .inr (.inr ⟨i1, j1, ?_⟩)
    rcases lt_or_ge x 0 with hx | hx
    · rw [if_pos hx] at b2
      rcases lt_or_ge y 0 with hy | hy
      · rw [if_pos hy] at c2
        have := i3 c j1 (j2.trans (by rw [abs_of_neg hx, abs_of_neg hy]; linarith))
        rw [abs_value, abs_value] at this
        rw [value_nonpos b2, value_nonpos c2]
        linarith
      · rw [if_neg (not_lt.2 hy)] at c2
        have := magnitude_nonneg F b
        have := magnitude_nonneg F c
        rw [value_nonpos b2, value_nonneg c2]
        linarith
    · rw [if_neg (not_lt.2 hx)] at b2
      rw [if_neg (not_lt.2 (hx.trans hxy))] at c2
      have := j3 b i1 (i2.trans (by rw [abs_of_nonneg hx, abs_of_nonneg (hx.trans hxy)]; exact hxy))
      rwa [abs_value, abs_value, ← value_nonneg b2, ← value_nonneg c2] at this

/-! ## Relative error -/

theorem roundHalfEven_error {t : ℚ} (ht : 0 ≤ t) : |(roundHalfEven t : ℚ) - t| ≤ 1 / 2 := by
  have h1 := Nat.floor_le ht
  have h2 := Nat.lt_floor_add_one t
  have h3 := (roundHalfEven_spec ht ⌊t⌋₊).1
  have h4 := (roundHalfEven_spec ht (⌊t⌋₊ + 1)).1
  push_cast at h3 h4
  rw [abs_of_nonpos (a := (⌊t⌋₊ : ℚ) - t) (by linarith)] at h3
  rw [abs_of_nonneg (a := (⌊t⌋₊ : ℚ) + 1 - t) (by linarith)] at h4
  linarith

theorem magnitude_scaled (F : Fmt) (a : ℚ) {m : ℕ} (h1 : m ≤ 2 ^ (F.mant + 1))
    (h2 : F.scale a ≠ 1 - F.bias → 2 ^ F.mant ≤ m)
    (h3 : (F.scale a - (1 - F.bias)).toNat * 2 ^ F.mant + m < F.infBits) :
    F.magnitude ((F.scale a - (1 - F.bias)).toNat * 2 ^ F.mant + m) =
      m * 2 ^ (F.scale a - F.mant) := by
  have hge := scale_ge F a
  rw [magnitude_decode h1 ?_ h3]
  · congr 2
    omega
  · by_cases h0 : F.scale a = 1 - F.bias
    · left; omega
    · right; exact h2 h0

theorem roundTo_magnitude {neg : Bool} (ha : 0 ≤ a) (h1 : a < 2 ^ (F.bias + 1))
    (hf : F.roundTo d neg a < F.infBits) :
    ∃ m : ℕ, F.magnitude (F.roundTo d neg a) = m * 2 ^ (F.scale a - F.mant) ∧
      |(m : ℚ) - a / 2 ^ (F.scale a - F.mant)| ≤ F.unit d * 2 ^ F.mant := by
  have hm : (2 : ℚ) ^ F.mant ≠ 0 := by positivity
  have hq := quot_nonneg (F := F) ha
  rw [roundTo] at hf ⊢
  split_ifs at hf ⊢ with h h'
  · subst h
    rw [roundAbs_eq, min_lt_iff, or_iff_left (lt_irrefl _), finite_iff ha] at hf
    refine ⟨F.sig a, (roundAbs_magnitude ha hf).2.1, ?_⟩
    refine (roundHalfEven_error hq).trans (le_of_eq ?_)
    rw [unit, pow_succ]
    field_simp
  · have e : F.unit d * 2 ^ F.mant = 1 := by
      have : F.unit d = 1 / 2 ^ F.mant := by cases d <;> first | rfl | exact absurd rfl h
      rw [this]
      field_simp
    rw [min_lt_iff, or_iff_left (lt_irrefl _)] at hf
    rw [min_eq_left hf.le, e]
    have hup := Nat.le_ceil (a / 2 ^ (F.scale a - F.mant))
    refine ⟨_, magnitude_scaled F a (Nat.ceil_le.2 (quot_lt ha).le) (fun h0 => ?_) hf, ?_⟩
    · exact_mod_cast (le_quot ha h0).trans hup
    · have := Nat.ceil_lt_add_one hq
      rw [abs_of_nonneg (by linarith)]
      linarith
  · have e : F.unit d * 2 ^ F.mant = 1 := by
      have : F.unit d = 1 / 2 ^ F.mant := by cases d <;> first | rfl | exact absurd rfl h
      rw [this]
      field_simp
    have hb := two_bias F
    have hb1 := bias_pos F
    have hge := scale_ge F a
    have hfl : ⌊a / 2 ^ (F.scale a - F.mant)⌋₊ < 2 ^ (F.mant + 1) :=
      (Nat.floor_lt hq).2 (quot_lt ha)
    have hs : F.scale a ≤ F.bias := by
      by_contra hc
      refine absurd h1 (not_lt.2 ?_)
      exact (zpow_le_zpow_right₀ (by norm_num) (by omega)).trans (scale_le (F := F) ha (by omega))
    have hlt : (F.scale a - (1 - F.bias)).toNat * 2 ^ F.mant +
        ⌊a / 2 ^ (F.scale a - F.mant)⌋₊ < F.infBits := by
      have h2 : (F.scale a - (1 - F.bias)).toNat + 2 ≤ 2 ^ F.exp - 1 := by omega
      have h3 : ((F.scale a - (1 - F.bias)).toNat + 2) * 2 ^ F.mant ≤ F.infBits :=
        Nat.mul_le_mul_right _ h2
      rw [Nat.add_mul] at h3
      rw [pow_succ] at hfl
      omega
    rw [min_eq_left (by omega), e]
    refine ⟨_, magnitude_scaled F a hfl.le (fun h0 => Nat.le_floor (le_quot ha h0)) hlt, ?_⟩
    have h2 := Nat.floor_le hq
    have h3 := Nat.lt_floor_add_one (a / 2 ^ (F.scale a - F.mant))
    rw [abs_of_nonpos (by linarith)]
    linarith

theorem unit_pos (F : Fmt) (d : Direction) : 0 < F.unit d := by
  cases d <;> (rw [unit]; positivity)

theorem unit_le (F : Fmt) (d : Direction) : F.unit d ≤ 1 / 2 := by
  have h1 : (2 : ℚ) ≤ 2 ^ F.mant := by
    have := pow_le_pow_right₀ (a := (2 : ℚ)) (by norm_num) F.mant_pos
    linarith
  have h2 : (2 : ℚ) ≤ 2 ^ (F.mant + 1) := by
    have := pow_le_pow_right₀ (a := (2 : ℚ)) (by norm_num) (show 1 ≤ F.mant + 1 by omega)
    linarith
  cases d <;> (rw [unit]; exact one_div_le_one_div_of_le (by norm_num) ‹_›)

/-- In the normal range the relative error of rounding is at most the unit. -/
theorem RoundedTo.error (h : F.RoundedTo d x b) (hb : F.Finite b) (h0 : 2 ^ (1 - F.bias) ≤ |x|)
    (h1 : |x| < 2 ^ (F.bias + 1)) : |F.value b - x| ≤ F.unit d * |x| := by
  have e := h.unique (roundedTo_withSign (F := F) d x)
  have hx : x ≠ 0 := by
    rintro rfl
    rw [abs_zero] at h0
    exact absurd h0 (not_le.2 (two_zpow_pos _))
  have hle := roundTo_le F d (decide (x < 0)) |x|
  have hlt := hle.trans_lt (infBits_lt F)
  have hf : F.roundTo d (decide (x < 0)) |x| < F.infBits := by
    refine lt_of_le_of_ne hle fun hc => ?_
    rw [e, hc] at hb
    have := (inf_withSign (F := F) (decide (x < 0))).1
    have := hb.2
    omega
  obtain ⟨m, m1, m2⟩ := roundTo_magnitude (abs_nonneg x) h1 hf
  have hz := two_zpow_pos (F.scale |x| - F.mant)
  have hsc : (2 : ℚ) ^ F.scale |x| ≤ |x| := by
    by_cases hs : F.scale |x| = 1 - F.bias
    · rw [hs]; exact h0
    · exact scale_le (abs_nonneg x) hs
  have key : |F.magnitude (F.roundTo d (decide (x < 0)) |x|) - (|x|)| ≤ F.unit d * |x| := by
    have e1 : F.magnitude (F.roundTo d (decide (x < 0)) |x|) - |x| =
        ((m : ℚ) - |x| / 2 ^ (F.scale |x| - F.mant)) * 2 ^ (F.scale |x| - F.mant) := by
      rw [m1, sub_mul, div_mul_cancel₀ _ hz.ne']
    rw [e1, abs_mul, abs_of_pos hz]
    refine (mul_le_mul_of_nonneg_right m2 hz.le).trans ?_
    rw [mul_assoc, ← zpow_natCast, ← zpow_add₀ (by norm_num), show (F.mant : ℤ) +
      (F.scale |x| - F.mant) = F.scale |x| by ring]
    exact mul_le_mul_of_nonneg_left hsc (unit_pos F d).le
  refine le_trans (le_of_eq ?_) key
  rw [e, value_withSign _ hlt]
  rcases lt_or_gt_of_ne hx with hn | hp
  · rw [decide_eq_true hn, if_pos rfl, abs_of_neg hn, ← abs_neg]
    congr 1
    ring
  · rw [decide_eq_false (not_lt.2 hp.le), if_neg (by decide), abs_of_pos hp, one_mul]

/-! ## Error of a quotient of rounded integers -/

theorem representable_two_pow {m : ℕ} (neg : Bool) (hm : (m : ℤ) ≤ F.bias) :
    F.Representable ((if neg then -1 else 1) * 2 ^ m) := by
  have hlt : ((1 : ℕ) : ℚ) * 2 ^ (m : ℤ) < F.overflowBound := by
    have := representable_of_small (F := F) (n := 2 ^ m) le_rfl hm
    rw [Nat.cast_one, one_mul, zpow_natCast]
    exact_mod_cast this
  have := representable_grid (F := F) (k := 1) (j := m) neg (Nat.one_lt_two_pow (by omega))
    (by have := bias_pos F; omega) hlt
  rwa [Nat.cast_one, one_mul, zpow_natCast] at this

/-- A rounded integer stays between one and the power of two above. -/
theorem RoundedTo.bounds {n : ℤ} {m : ℕ} (h : F.RoundedTo d n b) (hm : (m : ℤ) ≤ F.bias)
    (h1 : n ≠ 0) (h2 : n.natAbs ≤ 2 ^ m) :
    F.Finite b ∧ 1 ≤ |F.value b| ∧ |F.value b| ≤ 2 ^ m := by
  have key : ∀ (k : ℕ) (neg : Bool), F.RoundedTo d ((if neg then -1 else 1) * 2 ^ k)
      (F.withSign (decide ((if neg then -1 else 1) * 2 ^ k < (0 : ℚ)))
        (F.roundTo d (decide ((if neg then -1 else 1) * 2 ^ k < (0 : ℚ)))
          |(if neg then -1 else 1) * 2 ^ k|)) := fun k neg => roundedTo_withSign d _
  have le_of : ∀ {b c}, F.Finite b → F.Finite c → F.Le b c → F.value b ≤ F.value c := by
    intro b c hb hc h
    rcases h with ⟨h, -⟩ | ⟨h, -⟩ | ⟨-, -, h⟩
    · have := h.1; have := hb.2; omega
    · have := h.1; have := hc.2; omega
    · exact h
  have fin : ∀ {b' c}, F.Le b' b → F.Le b c → F.Finite b' → F.Finite c → F.Finite b := by
    intro b' c h1 h2 hb hc
    rcases h1 with ⟨h, -⟩ | ⟨h, h', -⟩ | ⟨-, h, -⟩
    · have := h.1; have := hb.2; omega
    · rcases h2 with ⟨-, h2, -⟩ | ⟨h2, -⟩ | ⟨h, -, -⟩
      · rw [h2] at h'; cases h'
      · have := h2.1; have := hc.2; omega
      · exact h
    · exact h
  have habs : ((n.natAbs : ℕ) : ℚ) = |(n : ℚ)| := by
    rw [← Int.cast_abs, ← Int.natCast_natAbs, Int.cast_natCast]
  have h2' : |(n : ℚ)| ≤ 2 ^ m := by rw [← habs]; exact_mod_cast h2
  have h1' : (1 : ℚ) ≤ |(n : ℚ)| := by
    rw [← habs]; exact_mod_cast Int.natAbs_pos.2 h1
  rcases lt_or_gt_of_ne h1 with hn | hp
  · have hn' : (n : ℚ) < 0 := by exact_mod_cast hn
    rw [abs_of_neg hn'] at h1' h2'
    have k1 := key m true
    have k2 := key 0 true
    obtain ⟨f1, e1⟩ := k1.exact (representable_two_pow true hm)
    obtain ⟨f2, e2⟩ := k2.exact (representable_two_pow true (by have := bias_pos F; omega))
    have m1 := k1.mono h (by rw [if_pos rfl]; linarith)
    have m2 := h.mono k2 (by rw [if_pos rfl, pow_zero]; linarith)
    have fb := fin m1 m2 f1 f2
    have l1 := le_of f1 fb m1
    have l2 := le_of fb f2 m2
    rw [e1, if_pos rfl] at l1
    rw [e2, if_pos rfl, pow_zero] at l2
    rw [abs_of_neg (by linarith)]
    exact ⟨fb, by linarith, by linarith⟩
  · have hp' : (0 : ℚ) < n := by exact_mod_cast hp
    rw [abs_of_pos hp'] at h1' h2'
    have k1 := key m false
    have k2 := key 0 false
    obtain ⟨f1, e1⟩ := k1.exact (representable_two_pow false hm)
    obtain ⟨f2, e2⟩ := k2.exact (representable_two_pow false (by have := bias_pos F; omega))
    have m1 := h.mono k1 (by rw [if_neg (by decide)]; linarith)
    have m2 := k2.mono h (by rw [if_neg (by decide), pow_zero]; linarith)
    have fb := fin m2 m1 f2 f1
    have l1 := le_of fb f1 m1
    have l2 := le_of f2 fb m2
    rw [e1, if_neg (by decide)] at l1
    rw [e2, if_neg (by decide), pow_zero] at l2
    rw [abs_of_pos (by linarith)]
    exact ⟨fb, by linarith, by linarith⟩

/-- Between two finite numbers there are only finite ones. -/
theorem RoundedTo.finite_of_le {m : ℕ} (h : F.RoundedTo d x b) (hm : (m : ℤ) ≤ F.bias)
    (hx : |x| ≤ 2 ^ m) : F.Finite b := by
  have key : ∀ (neg : Bool), F.RoundedTo d ((if neg then -1 else 1) * 2 ^ m)
      (F.withSign (decide ((if neg then -1 else 1) * 2 ^ m < (0 : ℚ)))
        (F.roundTo d (decide ((if neg then -1 else 1) * 2 ^ m < (0 : ℚ)))
          |(if neg then -1 else 1) * 2 ^ m|)) := fun neg => roundedTo_withSign d _
  obtain ⟨hx1, hx2⟩ := abs_le.1 hx
  have k1 := key true
  have k2 := key false
  obtain ⟨f1, -⟩ := k1.exact (representable_two_pow true hm)
  obtain ⟨f2, -⟩ := k2.exact (representable_two_pow false hm)
  have m1 := k1.mono h (by rw [if_pos rfl]; linarith)
  have m2 := h.mono k2 (by rw [if_neg (by decide)]; linarith)
  rcases m1 with ⟨h, -⟩ | ⟨h, h', -⟩ | ⟨-, h, -⟩
  · have := h.1; have := f1.2; omega
  · rcases m2 with ⟨-, h2, -⟩ | ⟨h2, -⟩ | ⟨h, -, -⟩
    · rw [h2] at h'; cases h'
    · have := h2.1; have := f2.2; omega
    · exact h
  · exact h

theorem quotient_error {n m : ℤ} {q : ℚ} {w : ℕ} (hw : (w : ℤ) < F.bias) (hn : n ≠ 0) (hm : 0 < m)
    (hn' : n.natAbs ≤ 2 ^ w) (hm' : m.natAbs ≤ 2 ^ w) (hq : (n : ℚ) / m = q) :
    F.Finite (F.divTo d (F.ofIntTo d n) (F.ofIntTo d m)) ∧
    |F.value (F.divTo d (F.ofIntTo d n) (F.ofIntTo d m)) - q| ≤
      ((1 + F.unit d) ^ 2 / (1 - F.unit d) - 1) * |q| := by
  have r1 := roundedTo_ofInt (F := F) d n
  have r2 := roundedTo_ofInt (F := F) d m
  obtain ⟨f1, l1, u1⟩ := r1.bounds hw.le hn hn'
  obtain ⟨f2, l2, u2⟩ := r2.bounds hw.le hm.ne' hm'
  have hb1 := bias_pos F
  have hp : (0 : ℚ) < 2 ^ w := by positivity
  have lo : (2 : ℚ) ^ (1 - F.bias) ≤ 1 := by
    have := zpow_le_zpow_right₀ (a := (2 : ℚ)) (by norm_num) (show 1 - F.bias ≤ 0 by omega)
    rwa [zpow_zero] at this
  have hi : (2 : ℚ) ^ w < 2 ^ (F.bias + 1) := by
    rw [← zpow_natCast]
    exact zpow_lt_zpow_right₀ (by norm_num) (by omega)
  have ab : ∀ k : ℤ, ((k.natAbs : ℕ) : ℚ) = |(k : ℚ)| := fun k => by
    rw [← Int.cast_abs, ← Int.natCast_natAbs, Int.cast_natCast]
  have one : ∀ k : ℤ, k ≠ 0 → (1 : ℚ) ≤ |(k : ℚ)| := fun k hk => by
    rw [← ab]; exact_mod_cast Int.natAbs_pos.2 hk
  have top : ∀ k : ℤ, k.natAbs ≤ 2 ^ w → |(k : ℚ)| ≤ 2 ^ w := fun k hk => by
    rw [← ab]; exact_mod_cast hk
  have e1 := r1.error f1 (lo.trans (one n hn)) ((top n hn').trans_lt hi)
  have e2 := r2.error f2 (lo.trans (one m hm.ne')) ((top m hm').trans_lt hi)
  set N := F.value (F.ofIntTo d n) with hN
  set M := F.value (F.ofIntTo d m) with hM
  have hM0 : M ≠ 0 := fun h => by rw [h, abs_zero] at l2; linarith
  have hN0 : N ≠ 0 := fun h => by rw [h, abs_zero] at l1; linarith
  have r3 := roundedTo_div (F := F) d f1 f2 hM0 (fun h => absurd h hN0)
  rw [← hN, ← hM] at r3
  have b1 : |N / M| ≤ 2 ^ w := by
    rw [abs_div, div_le_iff₀ (by linarith)]
    calc |N| ≤ 2 ^ w * 1 := by linarith
      _ ≤ 2 ^ w * |M| := mul_le_mul_of_nonneg_left l2 hp.le
  have b2 : 2 ^ (1 - F.bias) ≤ |N / M| := by
    rw [abs_div, le_div_iff₀ (by linarith)]
    have h3 : (2 : ℚ) ^ (1 - F.bias) * 2 ^ w ≤ 1 := by
      rw [← zpow_natCast, ← zpow_add₀ (by norm_num)]
      have := zpow_le_zpow_right₀ (a := (2 : ℚ)) (by norm_num) (show 1 - F.bias + w ≤ 0 by omega)
      rwa [zpow_zero] at this
    calc (2 : ℚ) ^ (1 - F.bias) * |M| ≤ 2 ^ (1 - F.bias) * 2 ^ w :=
          mul_le_mul_of_nonneg_left u2 (two_zpow_pos _).le
      _ ≤ |N| := h3.trans l1
  have f3 := r3.finite_of_le hw.le b1
  refine ⟨f3, ?_⟩
  have e3 := r3.error f3 b2 (b1.trans_lt hi)
  set B := F.value (F.divTo d (F.ofIntTo d n) (F.ofIntTo d m))
  have u0 := unit_pos F d
  have uh := unit_le F d
  set u := F.unit d
  have hnq : (n : ℚ) ≠ 0 := by exact_mod_cast hn
  have hmq : (0 : ℚ) < m := by exact_mod_cast hm
  -- relative errors
  obtain ⟨δ, hδ, eδ⟩ : ∃ δ : ℚ, |δ| ≤ u ∧ N = n * (1 + δ) := by
    refine ⟨(N - n) / n, ?_, by field_simp; ring⟩
    rw [abs_div, div_le_iff₀ (abs_pos.2 hnq)]
    exact e1
  obtain ⟨ε, hε, eε⟩ : ∃ ε : ℚ, |ε| ≤ u ∧ M = m * (1 + ε) := by
    refine ⟨(M - m) / m, ?_, by field_simp; ring⟩
    rw [abs_div, div_le_iff₀ (abs_pos.2 hmq.ne')]
    exact e2
  have hx0 : N / M ≠ 0 := div_ne_zero hN0 hM0
  obtain ⟨η, hη, eη⟩ : ∃ η : ℚ, |η| ≤ u ∧ B = N / M * (1 + η) := by
    refine ⟨(B - N / M) / (N / M), ?_, by field_simp; ring⟩
    rw [abs_div, div_le_iff₀ (abs_pos.2 hx0)]
    exact e3
  obtain ⟨δ1, δ2⟩ := abs_le.1 hδ
  obtain ⟨ε1, ε2⟩ := abs_le.1 hε
  obtain ⟨η1, η2⟩ := abs_le.1 hη
  have hε0 : 0 < 1 + ε := by linarith
  have eB : B - q = q * ((1 + δ) * (1 + η) / (1 + ε) - 1) := by
    rw [eη, eδ, eε, ← hq]
    field_simp
  rw [eB, abs_mul, mul_comm]
  refine mul_le_mul_of_nonneg_right ?_ (abs_nonneg _)
  have hu1 : 0 < 1 - u := by linarith
  rw [abs_le]
  constructor
  · -- the product is smallest when both factors are
    have h5 : (1 - u) ^ 2 / (1 + u) ≤ (1 + δ) * (1 + η) / (1 + ε) := by
      apply div_le_div₀
      · exact mul_nonneg (by linarith) (by linarith)
      · rw [pow_two]; exact mul_le_mul (by linarith) (by linarith) (by linarith) (by linarith)
      · linarith
      · linarith
    have h6 : 2 - (1 + u) ^ 2 / (1 - u) ≤ (1 - u) ^ 2 / (1 + u) := by
      rw [← sub_nonneg]
      have : (1 - u) ^ 2 / (1 + u) - (2 - (1 + u) ^ 2 / (1 - u)) =
          ((1 - u) ^ 3 + (1 + u) ^ 3 - 2 * (1 - u) * (1 + u)) / ((1 + u) * (1 - u)) := by
        have : 1 + u ≠ 0 := by linarith
        field_simp
        ring
      rw [this]
      refine div_nonneg ?_ (mul_nonneg (by linarith) hu1.le)
      nlinarith
    linarith
  · have h5 : (1 + δ) * (1 + η) / (1 + ε) ≤ (1 + u) ^ 2 / (1 - u) := by
      apply div_le_div₀
      · positivity
      · rw [pow_two]; exact mul_le_mul (by linarith) (by linarith) (by linarith) (by linarith)
      · linarith
      · linarith
    linarith

end Fmt
end Ieme
