import Verif.Model.Duration
import Verif.Props.Chrono
import Verif.Props.Laws

/-!
# Lemmas on arithmetic of durations
-/

namespace Ieme

open Res IntTy Chrono

namespace Chrono

variable {T : IntTy} {o : Ops} {p q c : Period} {l r : Count}

theorem commonPeriod_parts (h : commonPeriod p q = some c) :
    c.num = (Int.gcd p.num q.num : ℕ) ∧ c.den = (Int.lcm p.den q.den : ℕ) := by
  simp only [commonPeriod, Option.ite_none_right_eq_some, Option.some.injEq] at h
  obtain ⟨-, rfl⟩ := h
  exact ⟨rfl, rfl⟩

/-- Each period is a whole number of times the one with the gcd of the numerators over the lcm
of the denominators. -/
theorem whole_factor {p : Period} {g L : ℤ} (hg : 0 < g) (hL : 0 < L) (h1 : g ∣ p.num)
    (h2 : p.den ∣ L) : ∃ k : ℕ, p.seconds = k * ((g : ℚ) / L) := by
  obtain ⟨a, ha⟩ := h1
  obtain ⟨b, hb⟩ := h2
  have ap : 0 < a := pos_of_mul_pos_right (ha ▸ p.num_pos) hg.le
  have bp : 0 < b := pos_of_mul_pos_right (hb ▸ hL) p.den_pos.le
  refine ⟨(a * b).toNat, ?_⟩
  have e : (((a * b).toNat : ℕ) : ℚ) = ((a * b : ℤ) : ℚ) := by
    exact_mod_cast Int.toNat_of_nonneg (mul_pos ap bp).le
  have h3 : (p.den : ℚ) ≠ 0 := by exact_mod_cast p.den_pos.ne'
  have h4 : (b : ℚ) ≠ 0 := by exact_mod_cast bp.ne'
  rw [e, Period.seconds, ha, hb]
  push_cast
  field_simp

theorem commonPeriod_measure (h : commonPeriod p q = some c) : CommonMeasure p q c.seconds := by
  obtain ⟨e1, e2⟩ := commonPeriod_parts h
  have hg := c.num_pos
  have hL := c.den_pos
  obtain ⟨k, hk⟩ := whole_factor (p := p) hg hL (by rw [e1]; exact Int.gcd_dvd_left ..)
    (by rw [e2]; exact Int.dvd_lcm_left ..)
  obtain ⟨m, hm⟩ := whole_factor (p := q) hg hL (by rw [e1]; exact Int.gcd_dvd_right ..)
    (by rw [e2]; exact Int.dvd_lcm_right ..)
  exact ⟨c.seconds_pos, k, m, hk, hm⟩

/-- A common measure divides the period the code computes. -/
theorem measure_le {s : ℚ} (hs : CommonMeasure p q s) :
    s ≤ (Int.gcd p.num q.num : ℚ) / (Int.lcm p.den q.den : ℚ) := by
  obtain ⟨s0, k, m, hk, hm⟩ := hs
  have n0 : 0 < s.num := Rat.num_pos.2 s0
  have d0 : (s.den : ℚ) ≠ 0 := by exact_mod_cast s.den_nz
  have sd : s = (s.num : ℚ) / s.den := (Rat.num_div_den s).symm
  -- from `p = k s`: `s.num ∣ p.num` and `p.den ∣ s.den`
  have key : ∀ {p : Period} {k : ℕ}, p.seconds = k * s → s.num ∣ p.num ∧ p.den ∣ (s.den : ℤ) := by
    intro p k hk
    have pd : (p.den : ℚ) ≠ 0 := by exact_mod_cast p.den_pos.ne'
    have e : p.num * s.den = p.den * k * s.num := by
      rw [sd, Period.seconds] at hk
      field_simp at hk
      exact_mod_cast hk
    constructor
    · have h : s.num ∣ p.num * s.den := ⟨k * p.den, by rw [e]; ring⟩
      exact Int.dvd_of_dvd_mul_left_of_gcd_one h (by simpa [Int.gcd] using s.reduced)
    · have h : p.den ∣ p.num * s.den := ⟨k * s.num, by rw [e]; ring⟩
      refine Int.dvd_of_dvd_mul_right_of_gcd_one h ?_
      rw [Int.gcd_comm]; exact p.coprime
  obtain ⟨a1, b1⟩ := key hk
  obtain ⟨a2, b2⟩ := key hm
  have hg : s.num ∣ (Int.gcd p.num q.num : ℤ) := Int.dvd_coe_gcd a1 a2
  have hL : (Int.lcm p.den q.den : ℤ) ∣ s.den := Int.coe_lcm_dvd b1 b2
  have g0 : 0 < (Int.gcd p.num q.num : ℤ) := by
    exact_mod_cast Int.gcd_pos_of_ne_zero_left _ p.num_pos.ne'
  have L0 : 0 < (Int.lcm p.den q.den : ℤ) := by
    exact_mod_cast Int.lcm_pos p.den_pos.ne' q.den_pos.ne'
  have i1 : s.num ≤ Int.gcd p.num q.num := Int.le_of_dvd g0 hg
  have i2 : (Int.lcm p.den q.den : ℤ) ≤ s.den := Int.le_of_dvd (by exact_mod_cast s.den_pos) hL
  rw [sd]
  have j1 : (s.num : ℚ) ≤ (Int.gcd p.num q.num : ℚ) := by exact_mod_cast i1
  have j2 : (Int.lcm p.den q.den : ℚ) ≤ s.den := by exact_mod_cast i2
  have j3 : (0 : ℚ) < (Int.lcm p.den q.den : ℚ) := by exact_mod_cast L0
  have j4 : (0 : ℚ) ≤ (Int.gcd p.num q.num : ℚ) := by exact_mod_cast g0.le
  exact div_le_div₀ j4 j1 j3 j2

theorem common_eq (hc : commonPeriod p q = some c) : common T o p q l r =
    (convert T o p c l >>= fun x => convert T o q c r >>= fun y => pure (x, y)) ∨
    common T o p q l r = .fault .illFormed := by
  unfold common
  simp only [hc]
  split
  · exact Or.inr rfl
  · exact Or.inl rfl

theorem common_eq_of_fits (hc : commonPeriod p q = some c)
    (hp : FitsParts i64 (conversionFactor p c)) (hq : FitsParts i64 (conversionFactor q c)) :
    common T o p q l r =
      (convert T o p c l >>= fun x => convert T o q c r >>= fun y => pure (x, y)) := by
  have h1 := (ratioDivide_eq (p := p) (q := c)).trans (if_pos hp)
  have h2 := (ratioDivide_eq (p := q) (q := c)).trans (if_pos hq)
  unfold common
  simp only [hc, h1, h2, Option.isNone_some, Bool.false_eq_true, or_self, if_false]

theorem common_illFormed (hc : commonPeriod p q = some c)
    (hn : ¬ (FitsParts i64 (conversionFactor p c) ∧ FitsParts i64 (conversionFactor q c))) :
    common T o p q l r = .fault .illFormed := by
  unfold common
  simp only [hc]
  refine if_pos ?_
  by_cases h : FitsParts i64 (conversionFactor p c)
  · right
    rw [ratioDivide_eq.trans (if_neg fun h' => hn ⟨h, h'⟩)]
    rfl
  · left
    rw [ratioDivide_eq.trans (if_neg h)]
    rfl

theorem common_clean {x y : Raw} (hc : commonPeriod p q = some c)
    (h : common T o p q l r ⇓ (x, y)) : convert T o p c l ⇓ x ∧ convert T o q c r ⇓ y := by
  rcases common_eq (T := T) (o := o) (l := l) (r := r) hc with e | e
  swap
  · rw [e] at h; cases h
  rw [e] at h
  obtain ⟨x', h1, h2⟩ := bind_eq_clean.1 h
  obtain ⟨y', h3, h4⟩ := bind_eq_clean.1 h2
  have e := (pure_eq_ok.1 h4).1
  simp only [Prod.mk.injEq] at e
  obtain ⟨rfl, rfl⟩ := e
  exact ⟨h1, h3⟩

/-- A well-formed conversion does not become ill-formed. -/
theorem convert_noThrow (h : FitsParts i64 (conversionFactor p q)) :
    (convert T o p q l).NoThrow := by
  rw [convert_eq, durationCast, ratioDivide_eq.trans (if_pos h)]
  refine cast_noThrow.bind fun _ => ?_
  repeat' first
    | exact NoThrow.pure _
    | exact Fraction.arith_noThrow _ _ _ _ _
    | exact factor_noThrow _
    | (refine NoThrow.bind ?_ fun _ => ?_)
    | split

/-- What the two converted counts are. -/
theorem common_denotes {x y : Raw} {t u : ℚ} (hc : commonPeriod p q = some c) (hl : Lasts p l t)
    (hr : Lasts q r u) (h : common T o p q l r ⇓ (x, y)) :
    Denotes x (t / c.seconds) ∧ Denotes y (u / c.seconds) := by
  obtain ⟨h1, h3⟩ := common_clean hc h
  have d1 := C67_duration_cast_exact hl h1
  have d2 := C67_duration_cast_exact hr h3
  rw [div_mul_cancel₀ _ p.seconds_pos.ne'] at d1
  rw [div_mul_cancel₀ _ q.seconds_pos.ne'] at d2
  exact ⟨d1, d2⟩

/-- Converting to a period of which the source is a whole multiple multiplies both parts at
most by that number. -/
theorem convert_whole_progress {k K B : ℕ} (hs : T.signed = true)
    (hk : p.seconds = k * c.seconds) (hkr : i64.InRange k) (hl : l.AbsLe K) (hK : 1 ≤ K)
    (hB : K * k ≤ B) (hm : (B : ℤ) ≤ T.max) :
    ∃ x, convert T o p c l ⇓ x ∧ x.AbsLe B ∧ x.den ≠ 0 := by
  have k0 : 0 < k := by
    rcases Nat.eq_zero_or_pos k with h | h
    · rw [h, Nat.cast_zero, zero_mul] at hk
      exact absurd hk p.seconds_pos.ne'
    · exact h
  have hf : conversionFactor p c = ((k : ℤ) : ℚ) := by
    rw [conversionFactor, hk, mul_div_cancel_right₀ _ c.seconds_pos.ne', Int.cast_natCast]
  have hr : ratioDivide p c = some ((k : ℤ), 1) := by
    rw [ratioDivide_eq, hf]
    simp only [Rat.num_intCast, Rat.den_intCast]
    exact if_pos ⟨hkr, by decide⟩
  have smin : T.min = -T.max - 1 := min_signed hs
  have hKk : K * 1 ≤ K * k := Nat.mul_le_mul_left _ k0
  have hkK : 1 * k ≤ K * k := Nat.mul_le_mul_right _ hK
  obtain ⟨f, h1, h2, h3⟩ : ∃ f, l.cast T ⇓ f ∧ f.AbsLe K ∧ f.den ≠ 0 := by
    cases l with
    | frac f => exact ⟨f, rfl, hl⟩
    | int m =>
      have hm : m.natAbs ≤ K := hl
      have : T.InRange m := by constructor <;> omega
      refine ⟨⟨m, 1⟩, ?_, ⟨hm, hK⟩, one_ne_zero⟩
      rw [Count.cast, conv_clean.2 ⟨this, rfl⟩, ok_bind_false]
      rfl
  rw [convert_eq, durationCast, hr]
  simp only [h1, ok_bind_false]
  split
  · exact ⟨f, rfl, ⟨h2.1.trans (by omega), h2.2.trans (by omega)⟩, h3⟩
  rw [if_pos trivial]
  have hfac : factor T k ⇓ ⟨k, 1⟩ := by
    have : T.InRange k := by constructor <;> omega
    rw [factor, conv_clean.2 ⟨this, rfl⟩, ok_bind_false]
    rfl
  simp only [hfac, ok_bind_false]
  obtain ⟨r, h, ha⟩ := Ops.mul_progress (o := o) (f := f) (g := ⟨k, 1⟩) (K₁ := K)
    (K₂ := k) hs (by omega) (by omega) (by omega) h2
    ⟨by simp, by simp only [Int.natAbs_one]; exact k0⟩
  refine ⟨r, by rw [Fraction.arith_self, h], ⟨ha.1.trans hB, ha.2.trans hB⟩, ?_⟩
  exact (Ops.arith_exact (a := .ff f ⟨k, 1⟩) (op := .multiplies)
    ⟨denotes_self h3, denotes_self (f := ⟨k, 1⟩) one_ne_zero⟩ h).1

theorem commonPeriod_comm (p q : Period) : commonPeriod p q = commonPeriod q p := by
  have e1 := Int.gcd_comm p.num q.num
  have e2 := Int.lcm_comm p.den q.den
  unfold commonPeriod
  congr 1
  · rw [e2]
  · congr 2
    · rw [e1]
    · rw [e2]

/-- Both operands can be converted to the common period, and their parts are small, if the
counts expressed in that period are small. -/
theorem common_progress {K L k m B : ℕ} (hs : T.signed = true)
    (hc : commonPeriod p q = some c) (hk : p.seconds = k * c.seconds)
    (hm : q.seconds = m * c.seconds) (hkr : i64.InRange k) (hmr : i64.InRange m)
    (hl : l.AbsLe K) (hr : r.AbsLe L) (hK : 1 ≤ K) (hL : 1 ≤ L) (hKB : K * k ≤ B)
    (hLB : L * m ≤ B) (hB : (B : ℤ) ≤ T.max) :
    ∃ x y, common T o p q l r ⇓ (x, y) ∧ (x.AbsLe B ∧ x.InRange T ∧ x.den ≠ 0) ∧
      y.AbsLe B ∧ y.InRange T ∧ y.den ≠ 0 := by
  obtain ⟨x, h1, ax, x0⟩ := convert_whole_progress (o := o) hs hk hkr hl hK hKB hB
  obtain ⟨y, h2, ay, y0⟩ := convert_whole_progress (o := o) hs hm hmr hr hL hLB hB
  have smin : T.min = -T.max - 1 := min_signed hs
  have inr : ∀ {g : Raw}, g.AbsLe B → g.InRange T := fun hg => by
    obtain ⟨a, b⟩ := hg
    constructor <;> constructor <;> omega
  have fp : ∀ {p : Period} {k : ℕ}, p.seconds = k * c.seconds → i64.InRange k →
      FitsParts i64 (conversionFactor p c) := fun {p k} hk hkr => by
    have e : conversionFactor p c = ((k : ℤ) : ℚ) := by
      rw [conversionFactor, hk, mul_div_cancel_right₀ _ c.seconds_pos.ne', Int.cast_natCast]
    rw [e]
    exact ⟨hkr, by rw [Rat.den_intCast]; decide⟩
  refine ⟨x, y, ?_, ⟨ax, inr ax, x0⟩, ay, inr ay, y0⟩
  rw [common_eq_of_fits hc (fp hk hkr) (fp hm hmr)]
  simp only [h1, h2, ok_bind_false, pure_def]

/-- Conversions keep denominators positive. -/
theorem convert_posDen {x : ℚ} {f : Raw} (hl : l.PosDen) (hx : l.Is x)
    (h : convert T o p q l ⇓ f) : 0 < f.den := by
  rw [convert_eq, durationCast] at h
  split at h
  · cases h
  rename_i n d hr
  obtain ⟨n0, d0, -⟩ := ratioDivide_factor hr
  obtain ⟨g, h1, h2⟩ := bind_eq_clean.1 h
  have hg : 0 < g.den := by
    cases l with
    | int m =>
      obtain ⟨m', h3, h4⟩ := bind_eq_clean.1 h1
      obtain rfl := (pure_eq_ok.1 h4).1
      exact one_pos
    | frac g' =>
      obtain rfl := (pure_eq_ok.1 h1).1
      exact hl
  have fac : ∀ {m : ℤ} {e : Raw}, factor T m ⇓ e → e = ⟨m, 1⟩ := fun h => by
    obtain ⟨m', h3, h4⟩ := bind_eq_clean.1 h
    obtain ⟨-, rfl⟩ := conv_clean.1 h3
    exact (pure_eq_ok.1 h4).1.symm
  have hgx := cast_denotes hx h1
  have mul : ∀ {e g' : Raw}, factor T n ⇓ e → Fraction.arith T T o .multiplies (.ff g e) ⇓ g' →
      0 < g'.den := fun he hm => by
    obtain rfl := fac he
    rw [Fraction.arith_self] at hm
    exact C72_positive_denominator_partial (a := .ff g ⟨n, 1⟩) ⟨hg, one_pos⟩
      ⟨hgx, denotes_self one_ne_zero⟩ (fun h => by cases h) hm
  have div : ∀ {e g g' : Raw}, 0 < g.den → factor T d ⇓ e →
      Fraction.arith T T o .divides (.ff g e) ⇓ g' → 0 < g'.den := fun hg he hm => by
    obtain rfl := fac he
    rw [Fraction.arith_self] at hm
    refine C72_positive_denominator_partial (a := .ff _ ⟨d, 1⟩) ⟨hg, one_pos⟩
      ⟨denotes_self hg.ne', denotes_self one_ne_zero⟩ (fun _ => ?_) hm
    simpa using d0
  split at h2
  · obtain rfl := (pure_eq_ok.1 h2).1
    exact hg
  split at h2
  · obtain ⟨e, h3, h4⟩ := bind_eq_clean.1 h2
    exact mul h3 h4
  split at h2
  · obtain ⟨e, h3, h4⟩ := bind_eq_clean.1 h2
    exact div hg h3 h4
  · obtain ⟨e, h3, h4⟩ := bind_eq_clean.1 h2
    obtain ⟨y, h5, h6⟩ := bind_eq_clean.1 h4
    obtain ⟨e', h7, h8⟩ := bind_eq_clean.1 h6
    exact div (mul h3 h5) h7 h8

end Chrono
end Ieme
