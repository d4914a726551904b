import Verif.Model.Stopwatch
import Verif.Spec.Stopwatch
import Verif.Lemmas.CommonDen
import Verif.Lemmas.TimeExpr
import Verif.Lemmas.Duration

/-!
# Lemmas on code that measures time
-/

namespace Ieme

open Res IntTy Chrono

variable {T : IntTy} {D E : ℤ} {o : Ops}

theorem Raw.On.unit {f : Raw} (h : f.On T 1) :
    (f.den = 1 ∧ f.over 1 = f.num) ∨ (f.den = -1 ∧ f.over 1 = -f.num) := by
  rcases Int.isUnit_iff.1 (isUnit_of_dvd_one h.dvd) with e | e
  · exact Or.inl ⟨e, by simp [Raw.over, e]⟩
  · exact Or.inr ⟨e, by simp [Raw.over, e]⟩

/-- A whole number as a fraction. -/
theorem on_one {n : ℤ} (h : |n| ≤ T.max) : (⟨n, 1⟩ : Raw).On T 1 ∧ (⟨n, 1⟩ : Raw).over 1 = n :=
  ⟨⟨one_ne_zero, dvd_rfl, by simpa [Raw.over] using h⟩, by simp [Raw.over]⟩

theorem Raw.On.lift {f : Raw} (h : f.On T D) (hD : 0 < D) (hE : D ∣ E)
    (hf : |f.over D * (E / D)| ≤ T.max) : f.On T E ∧ f.over E = f.over D * (E / D) := by
  have e : f.over E = f.over D * (E / D) := by
    obtain ⟨c, rfl⟩ := hE
    obtain ⟨d, hd⟩ := h.dvd
    simp only [Raw.over]
    rw [Int.mul_ediv_cancel_left _ hD.ne', hd, mul_assoc, Int.mul_ediv_cancel_left _ h.defined,
      Int.mul_ediv_cancel_left _ h.defined, mul_assoc]
  exact ⟨⟨h.defined, h.dvd.trans hE, e ▸ hf⟩, e⟩

theorem arith_noCommon {op : ArithOp} {a : Args} (hop : ¬ op.UsesCommon) (ho : o = .safe ∨ o = .fast)
    (hi : a.InRange T) (hr : (op.crossParts a.left a.right).InRange T) :
    o.arith T op a ⇓ op.crossParts a.left a.right := by
  have hf : Ops.fast.arith T op a ⇓ op.crossParts a.left a.right :=
    (C85_fast_iff hi).2 ⟨rfl, hr, fun h => absurd h hop, fun h => absurd (h ▸ trivial) hop⟩
  rcases ho with rfl | rfl
  · rw [C85_safe_eq_fast (Or.inl hop)]; exact hf
  · exact hf

theorem mul_on_one_base {l r : Raw} (hs : T.signed = true) (hl : l.On T 1) (hr : r.On T 1)
    (hf : |l.over 1 * r.over 1| ≤ T.max) (ho : o = .safe ∨ o = .fast) :
    ∃ f, o.arith T .multiplies (.ff l r) ⇓ f ∧ f.On T 1 ∧ f.over 1 = l.over 1 * r.over 1 := by
  have one : (1 : ℤ) ≤ T.max := by have := T.max_ge; omega
  have key : (⟨l.num * r.num, l.den * r.den⟩ : Raw).On T 1 ∧
      (⟨l.num * r.num, l.den * r.den⟩ : Raw).over 1 = l.over 1 * r.over 1 := by
    have e : (⟨l.num * r.num, l.den * r.den⟩ : Raw).over 1 = l.over 1 * r.over 1 := by
      rcases hl.unit with ⟨a, b⟩ | ⟨a, b⟩ <;> rcases hr.unit with ⟨c, d⟩ | ⟨c, d⟩ <;>
        rw [b, d] <;> simp [Raw.over, a, c]
    refine ⟨⟨mul_ne_zero hl.defined hr.defined, ?_, e ▸ hf⟩, e⟩
    simpa using mul_dvd_mul hl.dvd hr.dvd
  exact ⟨_, arith_noCommon (op := .multiplies) (a := .ff l r) (by simp [ArithOp.UsesCommon]) ho
    ⟨hl.inRange hs one_pos one, hr.inRange hs one_pos one⟩ (key.1.inRange hs one_pos one), key⟩

/-- The product of two whole numbers, under any policy. -/
theorem Ops.mul_on_one {l r : Raw} (hs : T.signed = true) (hl : l.On T 1) (hr : r.On T 1)
    (hf : |l.over 1 * r.over 1| ≤ T.max) : ∃ f, o.arith T .multiplies (.ff l r) ⇓ f ∧ f.On T 1 ∧
      f.over 1 = l.over 1 * r.over 1 := by
  have one : (1 : ℤ) ≤ T.max := by have := T.max_ge; omega
  induction o generalizing l r with
  | safe => exact mul_on_one_base hs hl hr hf (Or.inl rfl)
  | fast => exact mul_on_one_base hs hl hr hf (Or.inr rfl)
  | reducedInput o mode ih =>
    obtain ⟨l', hl', ol, el⟩ := hl.reduce hs one_pos one mode
    obtain ⟨r', hr', or', er⟩ := hr.reduce hs one_pos one mode
    rw [← el, ← er] at hf ⊢
    obtain ⟨f, h, g⟩ := ih ol or' hf
    exact ⟨f, by simp only [Ops.arith, Args.reduce, hl', hr', ok_bind_false, pure_def, h], g⟩
  | reducedOutput o mode ih =>
    obtain ⟨f, h, g, e⟩ := ih hl hr hf
    obtain ⟨s, h', g', e'⟩ := g.reduce hs one_pos one mode
    exact ⟨s, by simp only [Ops.arith, h, ok_bind_false, h'], g', e'.trans e⟩

theorem div_on_one_base {l r : Raw} (hs : T.signed = true) (hl : l.On T 1) (hr : r.On T 1)
    (h0 : 0 < r.over 1) (ho : o = .safe ∨ o = .fast) :
    ∃ f, o.arith T .divides (.ff l r) ⇓ f ∧ f.On T (r.over 1) ∧ f.over (r.over 1) = l.over 1 := by
  have one : (1 : ℤ) ≤ T.max := by have := T.max_ge; omega
  have hm : r.over 1 ≤ T.max := (le_abs_self _).trans hr.fits
  have hrn : r.num ≠ 0 := by rintro e; simp [Raw.over, e] at h0
  have key : (⟨l.num * r.den, l.den * r.num⟩ : Raw).On T (r.over 1) ∧
      (⟨l.num * r.den, l.den * r.num⟩ : Raw).over (r.over 1) = l.over 1 := by
    have e : (⟨l.num * r.den, l.den * r.num⟩ : Raw).over (r.over 1) = l.over 1 := by
      rcases hl.unit with ⟨a, b⟩ | ⟨a, b⟩ <;> rcases hr.unit with ⟨c, d⟩ | ⟨c, d⟩ <;>
        rw [b, d] <;> simp [Raw.over, a, c, Int.ediv_self hrn, Int.neg_ediv_of_dvd]
    refine ⟨⟨mul_ne_zero hl.defined hrn, ?_, e ▸ hl.fits⟩, e⟩
    rcases hl.unit with ⟨a, b⟩ | ⟨a, b⟩ <;> rcases hr.unit with ⟨c, d⟩ | ⟨c, d⟩ <;> rw [d] <;>
      simp [a]
  exact ⟨_, arith_noCommon (op := .divides) (a := .ff l r) (by simp [ArithOp.UsesCommon]) ho
    ⟨hl.inRange hs one_pos one, hr.inRange hs one_pos one⟩ (key.1.inRange hs h0 hm), key⟩

/-- A whole number divided by a positive one, under any policy. -/
theorem Ops.div_on_one {l r : Raw} (hs : T.signed = true) (hl : l.On T 1) (hr : r.On T 1)
    (h0 : 0 < r.over 1) : ∃ f, o.arith T .divides (.ff l r) ⇓ f ∧ f.On T (r.over 1) ∧
      f.over (r.over 1) = l.over 1 := by
  have one : (1 : ℤ) ≤ T.max := by have := T.max_ge; omega
  have hm : r.over 1 ≤ T.max := (le_abs_self _).trans hr.fits
  induction o generalizing l r with
  | safe => exact div_on_one_base hs hl hr h0 (Or.inl rfl)
  | fast => exact div_on_one_base hs hl hr h0 (Or.inr rfl)
  | reducedInput o mode ih =>
    obtain ⟨l', hl', ol, el⟩ := hl.reduce hs one_pos one mode
    obtain ⟨r', hr', or', er⟩ := hr.reduce hs one_pos one mode
    rw [← er] at h0 hm ⊢
    rw [← el]
    obtain ⟨f, h, g⟩ := ih ol or' h0 hm
    exact ⟨f, by simp only [Ops.arith, Args.reduce, hl', hr', ok_bind_false, pure_def, h], g⟩
  | reducedOutput o mode ih =>
    obtain ⟨f, h, g, e⟩ := ih hl hr h0 hm
    obtain ⟨s, h', g', e'⟩ := g.reduce hs h0 hm mode
    exact ⟨s, by simp only [Ops.arith, h, ok_bind_false, h'], g', e'.trans e⟩

theorem holdsInt_mul {op : CmpOp} {p q c : ℤ} (hc : 0 < c) :
    op.HoldsInt (p * c) (q * c) ↔ op.HoldsInt p q := by
  cases op <;> simp only [CmpOp.HoldsInt]
  · exact mul_left_inj' hc.ne'
  · exact not_congr (mul_left_inj' hc.ne')
  · exact mul_lt_mul_iff_left₀ hc
  · exact mul_le_mul_iff_left₀ hc
  · exact mul_lt_mul_iff_left₀ hc
  · exact mul_le_mul_iff_left₀ hc

/-- Comparing over a common denominator. -/
theorem Ops.cmp_on {op : CmpOp} {l r : Raw} (ho : o.BasedOnSafe) (hs : T.signed = true)
    (hD : 0 < D) (hDm : D ≤ T.max) (hl : l.On T D) (hr : r.On T D) :
    ∃ b, o.cmp T op (.ff l r) ⇓ b ∧ (b = true ↔ op.HoldsInt (l.over D) (r.over D)) := by
  classical
  induction o generalizing l r with
  | fast => exact ho.elim
  | safe =>
    obtain ⟨L, k, m, hL, hpos, hk, hm, -, -, -, -⟩ := lcm_split hl.defined hr.defined
    have hLD : L ∣ D := by rw [← hL]; exact Int.coe_lcm_dvd hl.dvd hr.dvd
    have e1 := Raw.over_of_mul hl.defined hLD hk hpos.ne'
    have e2 := Raw.over_of_mul hr.defined hLD hm hpos.ne'
    have hc : 0 < D / L := Int.ediv_pos_of_pos_of_dvd hD hpos.le hLD
    have shrink : ∀ {p : ℤ}, |p * (D / L)| ≤ T.max → T.InRange p := by
      intro p h
      rw [abs_mul, abs_of_pos hc] at h
      exact inRange_of_abs_max hs (by nlinarith [abs_nonneg p])
    refine ⟨decide (op.HoldsInt (l.over D) (r.over D)),
      (C85_safe_cmp_iff (hl.inRange hs hD hDm) (hr.inRange hs hD hDm)).2
      (Or.inr ⟨hl.defined, hr.defined, ?_, l.num * k, r.num * m, ?_, ?_, ?_, ?_, ?_⟩),
      decide_eq_true_iff⟩
    · rw [hL]
      have := T.min_le_zero
      exact ⟨by omega, (Int.le_of_dvd hD hLD).trans hDm⟩
    · rw [hL, hk]; ring
    · rw [hL, hm]; ring
    · exact shrink (e1 ▸ hl.fits)
    · exact shrink (e2 ▸ hr.fits)
    · rw [decide_eq_true_eq, e1, e2, holdsInt_mul hc]
  | reducedInput o mode ih =>
    obtain ⟨l', hl', ol, el⟩ := hl.reduce hs hD hDm mode
    obtain ⟨r', hr', or', er⟩ := hr.reduce hs hD hDm mode
    rw [← el, ← er]
    simpa only [Ops.cmp, Args.reduce, hl', hr', ok_bind_false, pure_def] using ih ho ol or'
  | reducedOutput o mode ih => exact ih ho hl hr

namespace Chrono

variable {p q : Period} {n : ℤ} {a b : Raw} {t u : ℚ}

theorem commonPeriod_same (hq : i64.InRange q.den) : commonPeriod q q = some q := by
  obtain ⟨n, d, hn, hd, hc⟩ := q
  have h1 : ((Int.gcd n n : ℕ) : ℤ) = n := by rw [Int.gcd_self]; omega
  have h2 : ((Int.lcm d d : ℕ) : ℤ) = d := by rw [Int.lcm_self]; omega
  simp only at hq
  simp only [commonPeriod, h1, h2, if_pos hq]

theorem convert_same_frac : convert T o q q (.frac a) ⇓ a := by
  rw [convert_eq, durationCast, ratioDivide_eq.trans (if_pos same_fits)]
  have e : conversionFactor q q = 1 := div_self q.seconds_pos.ne'
  simp only [e, Count.cast, pure_def, ok_bind_false, Rat.num_one, Rat.den_one, Nat.cast_one,
    and_self, if_true]

theorem common_same (hq : i64.InRange q.den) : common T o q q (.frac a) (.frac b) ⇓ (a, b) := by
  rw [common_eq_of_fits (commonPeriod_same hq) same_fits same_fits]
  simp only [convert_same_frac, ok_bind_false, pure_def]

theorem arith_same {op : ArithOp} (hq : i64.InRange q.den) :
    arith T o op q q (.frac a) (.frac b) = o.arith T op (.ff a b) := by
  simp only [arith, common_same hq, ok_bind_false, Fraction.arith_self]

theorem assign_same {op : ArithOp} : assign T o op q q a (.frac b) = o.arith T op (.ff a b) := by
  simp only [assign, convert_same_frac, ok_bind_false, Fraction.assignF, if_true,
    Fraction.arith_self]

theorem cmp_same_on {op : CmpOp} (hq : i64.InRange q.den) (ho : o.BasedOnSafe)
    (hs : T.signed = true) (hD : 0 < D) (hDm : D ≤ T.max) (ha : a.On T D) (hb : b.On T D) :
    ∃ v, cmp T o op q q (.frac a) (.frac b) ⇓ v ∧ (v = true ↔ op.HoldsInt (a.over D) (b.over D)) := by
  obtain ⟨x, hx, ex⟩ := Ops.cmp_on (op := .equalTo) ho hs hD hDm ha hb
  obtain ⟨y, hy, ey⟩ := Ops.cmp_on (op := .less) ho hs hD hDm ha hb
  obtain ⟨z, hz, ez⟩ := Ops.cmp_on (op := .less) ho hs hD hDm hb ha
  simp only [CmpOp.HoldsInt] at ex ey ez
  cases op <;> simp only [cmp, common_same hq, ok_bind_false, Fraction.cmp_self, hx, hy, hz, pure_def,
    CmpOp.HoldsInt, Res.ok.injEq, and_true, exists_eq_left', Bool.not_eq_true', ex, ey, ez, gt_iff_lt,
    ne_eq, ge_iff_le, ← not_lt, ← Bool.not_eq_true]

/-- A reading of the wrapped clock. -/
theorem now_on (hs : T.signed = true) (g : Grid T p q E) (hn : |reading p q E n| ≤ T.max) :
    ∃ r, now T o p q n ⇓ r ∧ r.On T E ∧ r.over E = reading p q E n := by
  obtain ⟨hc, hq, hdv, hE, hEm, hNm⟩ := g
  have k0 : 0 < conversionFactor p q := div_pos p.seconds_pos q.seconds_pos
  rw [now, convert_eq, durationCast, ratioDivide_eq.trans (if_pos hc)]
  unfold reading at *
  generalize conversionFactor p q = k at *
  have n0 : 0 < k.num := Rat.num_pos.2 k0
  have d0 : 0 < (k.den : ℤ) := by exact_mod_cast k.den_pos
  have hdE : (k.den : ℤ) ≤ E := Int.le_of_dvd hE hdv
  have hc0 : 0 < E / (k.den : ℤ) := Int.ediv_pos_of_pos_of_dvd hE d0.le hdv
  have hnN : |n * k.num| ≤ T.max := by
    rw [abs_mul, abs_of_pos hc0] at hn
    nlinarith [abs_nonneg (n * k.num)]
  have hnn : |n| ≤ T.max := by
    rw [abs_mul, abs_of_pos n0] at hnN
    nlinarith [abs_nonneg n]
  have inr := inRange_of_abs_max hs hnn
  simp only [Count.cast, conv_clean.2 ⟨inr, rfl⟩, ok_bind_false, Fraction.mk, pure_def]
  have fac : ∀ {m : ℤ}, |m| ≤ T.max → factor T m ⇓ ⟨m, 1⟩ := fun {m} h => by
    simp only [factor, conv_clean.2 ⟨inRange_of_abs_max hs h, rfl⟩, ok_bind_false, Fraction.mk,
      pure_def]
  obtain ⟨on, en⟩ := on_one hnn
  have dm : |(k.den : ℤ)| ≤ T.max := by rw [abs_of_pos d0]; omega
  obtain ⟨od, ed⟩ := on_one dm
  suffices h : ∃ r : Raw, (if k.num = 1 ∧ (k.den : ℤ) = 1 then (Res.ok ⟨n, 1⟩ false : Res Raw)
      else if (k.den : ℤ) = 1 then do
        let n' ← factor T k.num
        Fraction.arith T T o .multiplies (.ff ⟨n, 1⟩ n')
      else if k.num = 1 then do
        let d' ← factor T k.den
        Fraction.arith T T o .divides (.ff ⟨n, 1⟩ d')
      else do
        let n' ← factor T k.num
        let y ← Fraction.arith T T o .multiplies (.ff ⟨n, 1⟩ n')
        let d' ← factor T k.den
        Fraction.arith T T o .divides (.ff y d')) ⇓ r ∧ r.On T k.den ∧ r.over k.den = n * k.num by
    obtain ⟨r, hr, h1, h2⟩ := h
    obtain ⟨h3, h4⟩ := h1.lift d0 hdv (by rw [h2]; exact hn)
    exact ⟨r, hr, h3, by rw [h4, h2]⟩
  by_cases c1 : k.num = 1 ∧ (k.den : ℤ) = 1
  · rw [if_pos c1, c1.1, c1.2]
    exact ⟨_, rfl, on, by simpa using en⟩
  rw [if_neg c1]
  by_cases c3 : k.num = 1
  · have c2 : (k.den : ℤ) ≠ 1 := fun h => c1 ⟨c3, h⟩
    rw [if_neg c2, if_pos c3, fac dm]
    simp only [ok_bind_false, Fraction.arith_self]
    obtain ⟨r, hr, h1, h2⟩ := Ops.div_on_one (o := o) hs on od (by rw [ed]; exact d0)
    rw [ed] at h1 h2
    exact ⟨r, hr, h1, by rw [h2, en, c3, mul_one]⟩
  have nm : |k.num| ≤ T.max := by rw [abs_of_pos n0]; exact hNm
  obtain ⟨oN, eN⟩ := on_one nm
  obtain ⟨y, hy, oy, ey⟩ := Ops.mul_on_one (o := o) hs on oN (by rw [en, eN]; exact hnN)
  rw [en, eN] at ey
  by_cases c2 : (k.den : ℤ) = 1
  · rw [if_pos c2, fac nm]
    simp only [ok_bind_false, Fraction.arith_self, hy]
    exact ⟨y, rfl, by rw [c2]; exact oy, by rw [c2]; exact ey⟩
  rw [if_neg c2, if_neg c3, fac nm, fac dm]
  simp only [ok_bind_false, Fraction.arith_self, hy]
  obtain ⟨r, hr, h1, h2⟩ := Ops.div_on_one (o := o) hs oy od (by rw [ed]; exact d0)
  rw [ed] at h1 h2
  exact ⟨r, hr, h1, by rw [h2, ey]⟩

theorem lasts_of_over (hE : 0 < E) (ha : a.On T E) (h : (a.over E : ℚ) = E * (t / q.seconds)) :
    Lasts q (.frac a) t := by
  have hd : (a.den : ℚ) ≠ 0 := by exact_mod_cast ha.defined
  have e := Raw.over_eq (D := E) (f := a) (x := (a.num : ℚ) / a.den) ⟨ha.defined, rfl⟩ ha.dvd
  have hE' : (E : ℚ) ≠ 0 := by exact_mod_cast hE.ne'
  rw [h] at e
  exact ⟨ha.defined, (mul_left_cancel₀ hE' e).symm⟩

theorem over_lasts (hd : a.den ∣ E) (h : Lasts q (.frac a) t) :
    (a.over E : ℚ) = E * (t / q.seconds) := Raw.over_eq h hd

theorem reading_eq (g : Grid T p q E) :
    (reading p q E n : ℚ) = E * (n * p.seconds / q.seconds) := by
  obtain ⟨c, hc⟩ := g.divides
  have d0 : ((conversionFactor p q).den : ℤ) ≠ 0 := by exact_mod_cast (conversionFactor p q).den_nz
  have e : n * p.seconds / q.seconds = n * ((conversionFactor p q).num / (conversionFactor p q).den : ℚ) := by
    rw [Rat.num_div_den, conversionFactor, mul_div_assoc]
  have d1 : ((conversionFactor p q).den : ℚ) ≠ 0 := by exact_mod_cast d0
  rw [e, reading, hc, Int.mul_ediv_cancel_left _ d0]
  push_cast
  field_simp

theorem reading_sub (m n : ℤ) : reading p q E (n - m) = reading p q E n - reading p q E m := by
  simp only [reading]; ring

/-- Readings over a denominator are in the order of the readings. -/
theorem reading_lt (g : Grid T p q E) : ∃ c : ℤ, 0 < c ∧ ∀ n, reading p q E n = n * c := by
  have k0 : 0 < conversionFactor p q := div_pos p.seconds_pos q.seconds_pos
  have d0 : 0 < ((conversionFactor p q).den : ℤ) := by exact_mod_cast (conversionFactor p q).den_pos
  exact ⟨_, mul_pos (Rat.num_pos.2 k0) (Int.ediv_pos_of_pos_of_dvd g.pos d0.le g.divides),
    fun n => mul_assoc _ _ _⟩

/-- Summing up laps. -/
theorem laps_on (ho : o.BasedOnSafe) (hs : T.signed = true) (g : Grid T p q E) {m : ℤ}
    {ns : List ℤ} (hns : ∀ n ∈ ns, 0 ≤ n ∧ reading p q E n ≤ T.max) {last total : Raw} {s : ℤ}
    (hs0 : 0 ≤ s ∧ reading p q E s ≤ T.max) (hm : 0 ≤ m ∧ reading p q E m ≤ T.max)
    (hl : last.On T E) (el : last.over E = reading p q E m)
    (ht : total.On T E) (et : total.over E = reading p q E (m - s)) :
    ∃ r, laps T o p q last total ns ⇓ r ∧ r.On T E ∧
      r.over E = reading p q E (((m :: ns).getLast (List.cons_ne_nil _ _)) - s) := by
  obtain ⟨c, c0, hc⟩ := reading_lt g
  have fit : ∀ {a b : ℤ}, 0 ≤ a ∧ reading p q E a ≤ T.max → 0 ≤ b ∧ reading p q E b ≤ T.max →
      |reading p q E (a - b)| ≤ T.max := by
    intro a b ha hb
    rw [hc] at *
    rw [abs_le]
    have := mul_nonneg ha.1 c0.le
    have := mul_nonneg hb.1 c0.le
    constructor <;> nlinarith
  induction ns generalizing m last total with
  | nil => exact ⟨total, rfl, ht, by simpa using et⟩
  | cons n ns ih =>
    have hn := hns n (by simp)
    have hn' : |reading p q E n| ≤ T.max := by
      have := fit hn (b := 0) ⟨le_rfl, by rw [hc]; simpa using g.pos.le.trans g.fits⟩
      simpa using this
    obtain ⟨t, h1, ot, et'⟩ := now_on (o := o) hs g hn'
    obtain ⟨d, h2, od, ed⟩ := Ops.arith_on (op := .minus) (a := .ff t last) ho hs (Or.inr rfl) g.pos
      g.fits ⟨ot, hl⟩ (by
        simp only [Args.left, Args.right, ArithOp.overCommon, et', el, ← reading_sub]
        exact fit hn hm)
    simp only [Args.left, Args.right, ArithOp.overCommon, et', el, ← reading_sub] at ed
    have sum : reading p q E (m - s) + reading p q E (n - m) = reading p q E (n - s) := by
      simp only [reading_sub]; ring
    obtain ⟨total', h3, ot', et''⟩ := Ops.arith_on (op := .plus) (a := .ff total d) ho hs (Or.inl rfl)
      g.pos g.fits ⟨ht, od⟩ (by
        simp only [Args.left, Args.right, ArithOp.overCommon, et, ed, sum]
        exact fit hn hs0)
    simp only [Args.left, Args.right, ArithOp.overCommon, et, ed, sum] at et''
    obtain ⟨r, h4, or', er⟩ := ih (fun x hx => hns x (by simp [hx])) hn ot et' ot' et''
    refine ⟨r, ?_, or', by rw [er, List.getLast_cons (List.cons_ne_nil n ns)]⟩
    simp only [laps, h1, ok_bind_false, arith_same g.period, h2, assign_same, h3, h4]

/-- Adding an interval repeatedly. -/
theorem advance_on (ho : o.BasedOnSafe) (hs : T.signed = true) (hE : 0 < E) (hEm : E ≤ T.max)
    (hi : b.On T E) {k : ℕ} (ha : a.On T E) (hf : |a.over E| + k * |b.over E| ≤ T.max) :
    ∃ r, advance T o q b k a ⇓ r ∧ r.On T E ∧ r.over E = a.over E + k * b.over E := by
  induction k generalizing a with
  | zero => exact ⟨a, rfl, ha, by simp⟩
  | succ k ih =>
    push_cast at hf
    have h0 := abs_add_le (a.over E) (b.over E)
    have h1 := abs_nonneg (b.over E)
    have h2 : (0 : ℤ) ≤ k * |b.over E| := by positivity
    obtain ⟨f, hf1, of, ef⟩ := Ops.arith_on (op := .plus) (a := .ff a b) ho hs (Or.inl rfl) hE hEm
      ⟨ha, hi⟩ (by simp only [Args.left, Args.right, ArithOp.overCommon]; linarith)
    simp only [Args.left, Args.right, ArithOp.overCommon] at ef
    obtain ⟨r, h3, or', er⟩ := ih of (by rw [ef]; linarith)
    refine ⟨r, by simp only [advance, assign_same, hf1, ok_bind_false, h3], or', ?_⟩
    rw [er, ef]; push_cast; ring

theorem poll_on (ho : o.BasedOnSafe) (hs : T.signed = true) (g : Grid T p q E) {ns : List ℤ}
    (hns : ∀ n ∈ ns, |reading p q E n| ≤ T.max) (ha : a.On T E) (hl : Lasts q (.frac a) t) :
    poll T o p q a ns ⇓ ns.findIdx? fun n : ℤ => decide (t ≤ n * p.seconds) := by
  induction ns with
  | nil => rfl
  | cons n ns ih =>
    obtain ⟨r, h1, or', er⟩ := now_on (o := o) hs g (hns n (by simp))
    obtain ⟨v, h2, hv⟩ := cmp_same_on (op := .less) g.period ho hs g.pos g.fits or' ha
    have key : v = true ↔ n * p.seconds < t := by
      rw [hv, CmpOp.HoldsInt, er, ← Int.cast_lt (R := ℚ), reading_eq g, over_lasts ha.dvd hl,
        mul_lt_mul_iff_right₀ (by exact_mod_cast g.pos), div_lt_div_iff_of_pos_right q.seconds_pos]
    have ih' := ih fun x hx => hns x (by simp [hx])
    simp only [poll, h1, h2, ok_bind_false, List.findIdx?_cons]
    cases v with
    | true =>
      have : ¬ t ≤ n * p.seconds := not_le.2 (key.1 rfl)
      simp only [if_true, ih', ok_bind_false, this, decide_false, pure_def, Bool.false_eq_true,
        if_false]
    | false =>
      have : t ≤ n * p.seconds := by
        by_contra h
        exact absurd (key.2 (not_le.1 h)) (by simp)
      simp only [Bool.false_eq_true, if_false, this, decide_true, if_true, pure_def]

theorem nano_second : conversionFactor nano second = 1 / 1000000000 := by
  simp [conversionFactor, Period.seconds, nano, second]

theorem nano_parts : (conversionFactor nano second).num = 1 ∧
    (conversionFactor nano second).den = 1000000000 := by
  rw [nano_second]; decide +kernel

theorem nano_grid (k : ℕ) (hk : 0 < k) (hm : (k : ℤ) * 1000000000 ≤ i64.max) :
    Grid i64 nano second (k * 1000000000) := by
  obtain ⟨e1, e2⟩ := nano_parts
  refine ⟨?_, by decide, ?_, by positivity, hm, ?_⟩
  · rw [FitsParts, e1, e2]; decide
  · rw [e2]; exact ⟨k, by push_cast; ring⟩
  · rw [e1]; decide

theorem nano_reading : reading nano second 1000000000 n = n := by
  rw [reading, nano_parts.1, nano_parts.2]
  norm_num

theorem nano_fast (hn : i64.InRange n) : now i64 .fast nano second n ⇓ ⟨n, 1000000000⟩ := by
  have hf : FitsParts i64 (conversionFactor nano second) :=
    (nano_grid 1 one_pos (by decide)).compiles
  rw [now, convert_eq, durationCast, ratioDivide_eq.trans (if_pos hf), nano_parts.1, nano_parts.2]
  have c : i64.conv 1000000000 ⇓ 1000000000 := by decide
  have one : i64.InRange 1 := by decide
  have big : i64.InRange 1000000000 := by decide
  have h1 : ¬ ((1 : ℤ) = 1 ∧ ((1000000000 : ℕ) : ℤ) = 1) := by decide
  have h2 : ¬ (((1000000000 : ℕ) : ℤ) = 1) := by decide
  dsimp only [Count.cast]
  rw [conv_clean.2 ⟨hn, rfl⟩, ok_bind_false, pure_def, ok_bind_false, if_neg h1, if_neg h2]
  simp only [ok_bind_false, pure_def, Fraction.mk, if_true, factor, Nat.cast_ofNat, c, Fraction.arith_self]
  exact (C85_fast_iff (op := .divides) (a := .ff ⟨n, 1⟩ ⟨1000000000, 1⟩)
    ⟨⟨hn, one⟩, by decide⟩).2 ⟨by simp [ArithOp.crossParts, Args.left, Args.right],
      ⟨hn, big⟩, by simp [ArithOp.UsesCommon], by simp⟩

end Chrono
end Ieme
