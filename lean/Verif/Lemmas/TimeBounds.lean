import Verif.Spec.TimeBounds
import Verif.Lemmas.ProgramBounds
import Verif.Lemmas.TimeProgram
import Verif.Props.TimeProgram

/-!
# The static check of a program over durations bounds its run
-/

namespace Ieme.Chrono

open Res IntTy

variable {T : IntTy} {o : Ops} {A B : Bound} {K : ℤ} {p q c : Period} {l r v : Count} {f g : Raw}
  {x y z : ℚ} {op : ArithOp} {s t u : Shape} {Γ : ℕ → TimeTy} {σ : ℕ → Count} {ρ : ℕ → ℚ}
  {τ : TimeTy} {V : Bounds}

theorem Count.Within.fit (h : l.Within T A) : l.parts.FitB T A :=
  ⟨⟨h.1, fun hs => (h.2.2 hs).1⟩, h.2.1, fun hs => (h.2.2 hs).2⟩

theorem within_frac (h : f.FitB T A) : (Count.frac f).Within T A :=
  ⟨h.1.1, h.2.1, fun hs => ⟨h.1.2 hs, h.2.2 hs⟩⟩

theorem within_of_fit (h : l.parts.FitB T A) : l.Within T A :=
  ⟨h.1.1, h.2.1, fun hs => ⟨h.1.2 hs, h.2.2 hs⟩⟩

theorem parts_denotes (h : l.Is x) : Denotes l.parts x := by
  cases l with
  | frac f => exact h
  | int n => exact ⟨one_ne_zero, by rw [← show (n : ℚ) = x from h]; simp [Count.parts]⟩

theorem cast_within (h : l.Within T A) (hA : A.Le T.max) : l.cast T ⇓ l.parts := by
  cases l with
  | frac f => rfl
  | int n =>
    have : T.InRange n := (h.fit.inRange hA).1
    simp only [Count.cast, IntTy.conv_clean.2 ⟨this, rfl⟩, ok_bind_false, pure_def, Fraction.mk, Count.parts]

theorem factor_within {n : ℤ} (h0 : 0 < n) (h : n ≤ T.max) :
    factor T n ⇓ ⟨n, 1⟩ ∧ (⟨n, 1⟩ : Raw).FitB T ⟨n.natAbs, 1⟩ := by
  have := T.min_le_zero
  have hr : T.InRange n := ⟨by omega, h⟩
  refine ⟨by simp only [factor, IntTy.conv_clean.2 ⟨hr, rfl⟩, ok_bind_false, pure_def, Fraction.mk], ?_⟩
  exact ⟨⟨le_rfl, fun _ => h0.le⟩, ⟨le_rfl, fun _ => by norm_num⟩⟩

theorem scaled_one (A : Bound) : scaled A 1 = A := by simp [scaled]

theorem Scales.le (h : Scales A x K) (hx : 0 < x) : A.Le K := by
  obtain ⟨-, -, h3, h4⟩ := h
  have hn : 1 ≤ x.num.natAbs := by have := Rat.num_pos.2 hx; omega
  have hd : 1 ≤ x.den := x.den_pos
  have a : A.num ≤ A.num * x.num.natAbs := Nat.le_mul_of_pos_right _ hn
  have b : A.den ≤ A.den * x.den := Nat.le_mul_of_pos_right _ hd
  simp only [scaled] at h3 h4
  constructor <;> omega

theorem conversionFactor_pos (p q : Period) : 0 < conversionFactor p q :=
  div_pos p.seconds_pos q.seconds_pos

theorem convert_within (hf : FitsParts i64 (conversionFactor p q)) (hl : l.Is x)
    (hw : l.Within T A) (hk : Scales A (conversionFactor p q) T.max) :
    ∃ r, convert T o p q l ⇓ r ∧ r.FitB T (scaled A (conversionFactor p q)) := by
  have h0 := conversionFactor_pos p q
  have hA := hk.le h0
  rw [convert_eq, durationCast, ratioDivide_eq.trans (if_pos hf)]
  generalize conversionFactor p q = k at *
  have n0 : 0 < k.num := Rat.num_pos.2 h0
  have d0 : 0 < (k.den : ℤ) := by exact_mod_cast k.den_pos
  obtain ⟨kn, kd, k3, k4⟩ := hk
  have fit := hw.fit
  have den := parts_denotes hl
  obtain ⟨en, fn⟩ := factor_within n0 kn
  obtain ⟨ed, fd⟩ := factor_within d0 kd
  have dn : Denotes ⟨k.num, 1⟩ (k.num : ℚ) := ⟨one_ne_zero, by simp⟩
  have dd : Denotes ⟨(k.den : ℤ), 1⟩ (k.den : ℚ) := ⟨one_ne_zero, by simp⟩
  have one : (1 : ℤ) ≤ T.max := by omega
  have ln : (⟨k.num.natAbs, 1⟩ : Bound).Le T.max := ⟨by simp only; omega, by simpa using one⟩
  have ld : (⟨(k.den : ℤ).natAbs, 1⟩ : Bound).Le T.max := ⟨by simp only; omega, by simpa using one⟩
  simp only [scaled] at k3 k4 ⊢
  have kA : (A.den : ℤ) ≤ T.max := hA.2
  simp only [cast_within hw hA, ok_bind_false]
  by_cases h1 : k.num = 1 ∧ (k.den : ℤ) = 1
  · rw [if_pos h1]
    have e1 : k.num.natAbs = 1 := by omega
    have e2 : k.den = 1 := by omega
    refine ⟨_, rfl, ?_⟩
    rw [e1, e2, mul_one, mul_one]
    exact fit
  rw [if_neg h1]
  by_cases h2 : (k.den : ℤ) = 1
  · rw [if_pos h2]
    have e2 : k.den = 1 := by omega
    simp only [en, ok_bind_false, Fraction.arith_self]
    obtain ⟨r, hr, fr⟩ := Ops.arith_fitB (o := o) (op := .multiplies)
      (a := .ff l.parts ⟨k.num, 1⟩) ⟨den, dn⟩ ⟨fit, fn⟩ hA ln
      ⟨⟨by simpa only [ArithOp.bound] using k3, by simpa only [ArithOp.bound, mul_one] using kA⟩,
        by simp⟩ trivial
    refine ⟨r, hr, ?_⟩
    rw [e2]
    exact fr
  rw [if_neg h2]
  by_cases h3 : k.num = 1
  · rw [if_pos h3]
    have e1 : k.num.natAbs = 1 := by omega
    rw [e1, mul_one] at k3 ⊢
    simp only [ed, ok_bind_false, Fraction.arith_self]
    obtain ⟨r, hr, fr⟩ := Ops.arith_fitB (o := o) (op := .divides)
      (a := .ff l.parts ⟨(k.den : ℤ), 1⟩) ⟨den, dd⟩ ⟨fit, fd⟩ hA ld
      ⟨⟨by simpa only [ArithOp.bound, mul_one] using k3, by
        simpa only [ArithOp.bound, Int.natAbs_natCast] using k4⟩, by simp⟩ trivial
    refine ⟨r, hr, ?_⟩
    simpa only [ArithOp.bound, mul_one, Int.natAbs_natCast] using fr
  rw [if_neg h3]
  simp only [en, ed, ok_bind_false, Fraction.arith_self]
  obtain ⟨r, hr, fr⟩ := Ops.arith_fitB (o := o) (op := .multiplies)
    (a := .ff l.parts ⟨k.num, 1⟩) ⟨den, dn⟩ ⟨fit, fn⟩ hA ln
    ⟨⟨by simpa only [ArithOp.bound] using k3, by simpa only [ArithOp.bound, mul_one] using kA⟩,
      by simp⟩ trivial
  have dr := Ops.arith_exact (a := .ff l.parts ⟨k.num, 1⟩) (op := .multiplies) ⟨den, dn⟩ hr
  simp only [ArithOp.bound, mul_one] at fr
  obtain ⟨r', hr', fr'⟩ := Ops.arith_fitB (o := o) (op := .divides)
    (a := .ff r ⟨(k.den : ℤ), 1⟩) ⟨dr, dd⟩ ⟨fr, fd⟩ ⟨k3, kA⟩ ld
    ⟨⟨by simpa only [ArithOp.bound, mul_one] using k3, by
      simpa only [ArithOp.bound, Int.natAbs_natCast] using k4⟩, by simp⟩ trivial
  refine ⟨r', by simp only [hr, ok_bind_false, hr'], ?_⟩
  simpa only [ArithOp.bound, mul_one, Int.natAbs_natCast] using fr'

theorem commonSeconds_eq (h : commonPeriod p q = some c) : commonSeconds p q = c.seconds := by
  obtain ⟨e1, e2⟩ := commonPeriod_parts h
  rw [commonSeconds, Period.seconds, e1, e2, Int.cast_natCast, Int.cast_natCast]

/-- Two operands brought to the common period. -/
theorem common_within (hc : commonTy p q = some c) (hl : l.Is x) (hr : r.Is y)
    (wl : l.Within T A) (wr : r.Within T B)
    (kl : Scales A (p.seconds / commonSeconds p q) T.max)
    (kr : Scales B (q.seconds / commonSeconds p q) T.max) :
    ∃ a b, common T o p q l r ⇓ (a, b) ∧ a.FitB T (scaled A (p.seconds / commonSeconds p q)) ∧
      b.FitB T (scaled B (q.seconds / commonSeconds p q)) ∧
      Denotes a (x * p.seconds / c.seconds) ∧ Denotes b (y * q.seconds / c.seconds) := by
  obtain ⟨h1, h2, h3⟩ := commonTy_eq_some.1 hc
  rw [commonSeconds_eq h1] at *
  obtain ⟨a, ha, fa⟩ := convert_within (o := o) h2 hl wl kl
  obtain ⟨b, hb, fb⟩ := convert_within (o := o) h3 hr wr kr
  refine ⟨a, b, ?_, fa, fb, C67_duration_cast_exact hl ha, C67_duration_cast_exact hr hb⟩
  rw [common_eq_of_fits h1 h2 h3]
  simp only [ha, hb, ok_bind_false, pure_def]

theorem arith_within (hc : commonTy p q = some c) (hl : l.Is x) (hr : r.Is y)
    (wl : l.Within T A) (wr : r.Within T B)
    (kl : Scales A (p.seconds / commonSeconds p q) T.max)
    (kr : Scales B (q.seconds / commonSeconds p q) T.max)
    (hop : op.Bounded (scaled A (p.seconds / commonSeconds p q))
      (scaled B (q.seconds / commonSeconds p q)) T.max)
    (h0 : op = .modulus → y ≠ 0) (hs : op = .minus → T.signed = true) :
    ∃ f, Chrono.arith T o op p q l r ⇓ f ∧
      f.FitB T (op.bound (scaled A (p.seconds / commonSeconds p q))
        (scaled B (q.seconds / commonSeconds p q))) := by
  obtain ⟨a, b, h, fa, fb, da, db⟩ := common_within (o := o) hc hl hr wl wr kl kr
  have hal : op.Allowed T (y * q.seconds / c.seconds) := by
    cases op
    · trivial
    · exact hs rfl
    · trivial
    · trivial
    · exact div_ne_zero (mul_ne_zero (h0 rfl) q.seconds_pos.ne') c.seconds_pos.ne'
  obtain ⟨f, hf, ff⟩ := Ops.arith_fitB (o := o) (a := .ff a b) ⟨da, db⟩ ⟨fa, fb⟩ kl.2.2 kr.2.2 hop hal
  exact ⟨f, by simp only [Chrono.arith, h, ok_bind_false, Fraction.arith_self, hf], ff⟩

theorem same_factor (p : Period) : conversionFactor p p = 1 := div_self p.seconds_pos.ne'

theorem one_le_max (T : IntTy) : (1 : ℤ) ≤ T.max := by
  have := T.max_ge
  omega

theorem scales_one (h : A.Le T.max) : Scales A 1 T.max :=
  ⟨by simpa using one_le_max T, by simpa using one_le_max T, by rwa [scaled_one]⟩

theorem convert_same_within (hl : l.Is x) (hw : l.Within T A) (hA : A.Le T.max) :
    ∃ f, convert T o p p l ⇓ f ∧ f.FitB T A ∧ Denotes f x := by
  obtain ⟨f, h, ff⟩ := convert_within (o := o) (same_fits (p := p)) hl hw
    (by rw [same_factor]; exact scales_one hA)
  rw [same_factor, scaled_one] at ff
  exact ⟨f, h, ff, convert_same h hl⟩

theorem scaleCount_within (hl : l.Is x) (hr : r.Is y) (wl : l.Within T A) (wr : r.Within T B)
    (hA : A.Le T.max) (hB : B.Le T.max) (hop : op.Bounded A B T.max)
    (hal : op.Allowed T y) : ∃ f, scaleCount T o op p l r ⇓ f ∧ f.FitB T (op.bound A B) := by
  obtain ⟨a, h, fa, da⟩ := convert_same_within (o := o) (p := p) hl wl hA
  cases r with
  | frac g =>
    obtain ⟨f, hf, ff⟩ := Ops.arith_fitB (o := o) (a := .ff a g) ⟨da, hr⟩ ⟨fa, wr.fit⟩ hA hB hop hal
    exact ⟨f, by simp only [scaleCount, h, ok_bind_false, scaleFrac, Fraction.arith_self, hf], ff⟩
  | int n =>
    obtain ⟨f, hf, ff⟩ := Ops.arith_fitB (o := o) (a := .fr a n) ⟨da, hr⟩ ⟨fa, wr.fit⟩ hA hB hop hal
    exact ⟨f, by simp only [scaleCount, h, ok_bind_false, scaleInt, Fraction.arith_self, hf], ff⟩

theorem allowed_unit (h0 : op = .modulus → y ≠ 0) (hs : op = .minus → T.signed = true) (t : Shape) :
    op.Allowed T (y / t.unit) := by
  cases op
  · trivial
  · exact hs rfl
  · trivial
  · trivial
  · exact div_ne_zero (h0 rfl) (unit_pos t).ne'

theorem applyOp_within {a b : TimeTy} (h : TimeTy.result op a b = some τ) (hl : a.Has l)
    (hr : b.Has r) (sl : Stands a.shape l x) (sr : Stands b.shape r y)
    (h0 : op = .modulus → y ≠ 0) (hs : op = .minus → T.signed = true)
    (wl : l.Within T A) (wr : r.Within T B)
    (kl : Scales A (factors a.shape b.shape).1 T.max)
    (kr : Scales B (factors a.shape b.shape).2 T.max)
    (hop : op.Bounded (scaled A (factors a.shape b.shape).1)
      (scaled B (factors a.shape b.shape).2) T.max) :
    ∃ f, applyOp T o op a.shape b.shape l r ⇓ f ∧
      f.FitB T (op.bound (scaled A (factors a.shape b.shape).1)
        (scaled B (factors a.shape b.shape).2)) := by
  obtain ⟨a, s⟩ := a
  obtain ⟨b, t⟩ := b
  simp only [TimeTy.result, Option.ite_none_right_eq_some, Option.map_eq_some_iff] at h
  obtain ⟨hf, u, hu, -⟩ := h
  have hal := allowed_unit (T := T) h0 hs t
  have h1 : op = .modulus → y / t.unit ≠ 0 := fun e => div_ne_zero (h0 e) (unit_pos t).ne'
  simp only at sl sr kl kr hop ⊢
  cases s <;> cases t <;> simp only [factors, Shape.period?, scaled_one] at kl kr hop ⊢
  · have hA := kl.2.2; have hB := kr.2.2
    rw [scaled_one] at hA hB
    simp only [Stands, Shape.unit, div_one] at sl sr hal
    cases l <;> cases r <;> simp only [TimeTy.Has] at hl hr
    · simp only [hl, hr] at hf; simp at hf
    · rename_i n g
      simpa only [applyOp, Fraction.arith_self] using Ops.arith_fitB (o := o) (a := .rf n g)
        ⟨sl, sr⟩ ⟨wl.fit, wr.fit⟩ hA hB hop hal
    · rename_i g n
      simpa only [applyOp, Fraction.arith_self] using Ops.arith_fitB (o := o) (a := .fr g n)
        ⟨sl, sr⟩ ⟨wl.fit, wr.fit⟩ hA hB hop hal
    · simpa only [applyOp, Fraction.arith_self] using Ops.arith_fitB (o := o) (a := .ff _ _)
        ⟨sl, sr⟩ ⟨wl.fit, wr.fit⟩ hA hB hop hal
  · have hA := kl.2.2; have hB := kr.2.2
    rw [scaled_one] at hA hB
    cases op <;> simp only [Shape.result, reduceCtorEq] at hu
    rename_i q
    have e : ArithOp.bound .multiplies A B = ArithOp.bound .multiplies B A := by
      simp only [ArithOp.bound, mul_comm]
    rw [e]
    exact scaleCount_within sr sl wr wl hB hA ⟨e ▸ hop.1, by simp⟩ trivial
  · cases op <;> simp only [Shape.result, reduceCtorEq] at hu
  · have hA := kl.2.2; have hB := kr.2.2
    rw [scaled_one] at hA hB
    exact scaleCount_within sl sr wl wr hA hB hop hal
  · cases op <;> simp only [Shape.result, reduceCtorEq, Option.map_eq_some_iff] at hu <;>
      obtain ⟨c, hc, -⟩ := hu <;> exact arith_within hc sl sr wl wr kl kr hop h1 hs
  · cases op <;> simp only [Shape.result, reduceCtorEq, Option.map_eq_some_iff] at hu <;>
      obtain ⟨c, hc, -⟩ := hu <;> exact arith_within hc sl sr wl wr kl kr hop h1 hs
  · cases op <;> simp only [Shape.result, reduceCtorEq] at hu
  · cases op <;> simp only [Shape.result, reduceCtorEq, Option.map_eq_some_iff] at hu <;>
      obtain ⟨c, hc, -⟩ := hu <;> exact arith_within hc sl sr wl wr kl kr hop h1 hs
  · cases op <;> simp only [Shape.result, reduceCtorEq, Option.map_eq_some_iff] at hu <;>
      obtain ⟨c, hc, -⟩ := hu <;> exact arith_within hc sl sr wl wr kl kr hop h1 hs

theorem shape_of {e : TimeExpr} (h : e.ty Γ = some τ) : e.shape Γ = τ.shape := by
  simp only [TimeExpr.shape, h]

theorem bound_le {e : TimeExpr} (h : e.Bounded K Γ V) : (e.bound Γ V).Le K := by
  induction e with
  | var x => exact h
  | neg e ih => exact ih h
  | bin op e1 e2 _ _ => exact h.2.2.2.2.1
  | cast q e _ => exact h.2.2.2

/-- A checked expression runs without overflow, within its bound. -/
theorem run_within {e : TimeExpr} {w : ℚ} (hσ : Models Γ σ ρ) (hw : WithinAll T V σ)
    (ht : e.ty Γ = some τ) (hb : e.Bounded T.max Γ V) (hn : T.signed = true ∨ e.StaysNonneg)
    (hv : e.value Γ ρ = some w) : ∃ v, e.run T o Γ σ ⇓ v ∧ v.Within T (e.bound Γ V) := by
  induction e generalizing τ w with
  | var x => exact ⟨σ x, rfl, hw x⟩
  | neg e ih =>
    simp only [TimeExpr.value, Option.map_eq_some_iff] at hv
    obtain ⟨w', hv, rfl⟩ := hv
    simp only [TimeExpr.ty] at ht
    have ok : ∃ s, e.ty Γ = some ⟨true, s⟩ := by
      split at ht
      · exact ⟨_, ‹_›⟩
      · exact ⟨_, ‹_›⟩
      · cases ht
    obtain ⟨s, hs⟩ := ok
    have hsg : T.signed = true := hn.resolve_right id
    obtain ⟨v, h1, h2⟩ := ih hs hb (.inl hsg) hv
    have ht := C130_typed (fun x => (hσ x).1) hs h1
    cases v with
    | int n => cases ht
    | frac f =>
      obtain ⟨g, hg, fg⟩ := Ops.negate_fitB (o := o) hsg h2.fit (bound_le (e := e) hb)
      exact ⟨.frac g, by
        simp only [TimeExpr.run, h1, ok_bind_false, Chrono.neg, Fraction.neg]
        simp only [Count.parts] at hg
        simp only [hg, ok_bind_false, pure_def], within_frac fg⟩
  | bin op e1 e2 ih1 ih2 =>
    simp only [TimeExpr.ty] at ht
    simp only [TimeExpr.value, Option.bind_eq_some_iff] at hv
    obtain ⟨x', hx', y', hy', hv⟩ := hv
    split at ht
    swap
    · cases ht
    rename_i a b ha hb'
    simp only [TimeExpr.Bounded, shape_of ha, shape_of hb'] at hb
    simp only [TimeExpr.bound, shape_of ha, shape_of hb']
    obtain ⟨b1, b2, kl, kr, hop⟩ := hb
    obtain ⟨v1, r1, w1⟩ := ih1 ha b1 (hn.imp_right (·.2.1)) hx'
    obtain ⟨v2, r2, w2⟩ := ih2 hb' b2 (hn.imp_right (·.2.2)) hy'
    have t1 := C130_typed (fun x => (hσ x).1) ha r1
    have t2 := C130_typed (fun x => (hσ x).1) hb' r2
    have s1 := C130_exact hσ ha hx' r1
    have s2 := C130_exact hσ hb' hy' r2
    obtain ⟨f, hf, ff⟩ := applyOp_within (o := o) ht t1 t2 s1 s2 (fun e => by
      have := op_value_ne hv e
      rw [if_pos e] at this
      exact left_ne_zero_of_mul this)
      (fun e => hn.resolve_right fun h => h.1 e) w1 w2 kl kr hop
    exact ⟨.frac f, by simp only [TimeExpr.run, ha, hb', r1, r2, hf, ok_bind_false, pure_def],
      within_frac ff⟩
  | cast q e ih =>
    simp only [TimeExpr.ty] at ht
    simp only [TimeExpr.value] at hv
    split at ht
    all_goals first
      | (cases ht; done)
      | (rename_i p ha
         simp only [Option.ite_none_right_eq_some] at ht
         simp only [TimeExpr.Bounded, shape_of ha, Shape.unit] at hb
         simp only [TimeExpr.bound, shape_of ha, Shape.unit]
         obtain ⟨v, h1, h2⟩ := ih ha hb.1 hn hv
         have s1 := C130_exact hσ ha hv h1
         obtain ⟨f, hf, ff⟩ := convert_within (o := o) (ratioDivide_isSome.1 ht.1) s1 h2 hb.2
         exact ⟨.frac f, by simp only [TimeExpr.run, ha, h1, hf, ok_bind_false, pure_def],
           within_frac ff⟩)

theorem commonSeconds_comm (p q : Period) : commonSeconds p q = commonSeconds q p := by
  rw [commonSeconds, commonSeconds, Int.gcd_comm, Int.lcm_comm]

theorem bound_comparable_symm (h : A.Comparable B K) : B.Comparable A K :=
  ⟨h.2.1, h.1, by rw [mul_comm]; exact h.2.2⟩

theorem cmp_within (cop : CmpOp) (hc : commonTy p q = some c) (hl : l.Is x) (hr : r.Is y)
    (wl : l.Within T A) (wr : r.Within T B)
    (kl : Scales A (p.seconds / commonSeconds p q) T.max)
    (kr : Scales B (q.seconds / commonSeconds p q) T.max)
    (hcmp : (scaled A (p.seconds / commonSeconds p q)).Comparable
      (scaled B (q.seconds / commonSeconds p q)) T.max) :
    ∃ b, Chrono.cmp T o cop p q l r ⇓ b := by
  have key : ∀ {p q : Period} {l r : Count} {x y : ℚ} {A B : Bound} (op : CmpOp),
      commonTy p q = some c → l.Is x → r.Is y → l.Within T A → r.Within T B →
      Scales A (p.seconds / commonSeconds p q) T.max →
      Scales B (q.seconds / commonSeconds p q) T.max →
      (scaled A (p.seconds / commonSeconds p q)).Comparable
        (scaled B (q.seconds / commonSeconds p q)) T.max →
      ∃ b, (Chrono.common T o p q l r >>= fun z => match z with
        | (x, y) => Fraction.cmp T T o op (.ff x y)) ⇓ b := by
    intro p q l r x y A B op hc hl hr wl wr kl kr hcmp
    obtain ⟨a, b, h, fa, fb, da, db⟩ := common_within (o := o) hc hl hr wl wr kl kr
    obtain ⟨d, hd⟩ := Ops.cmp_fitB (o := o) (op := op) fa fb kl.2.2 kr.2.2 hcmp da.1 db.1
    exact ⟨d, by simp only [h, ok_bind_false, Fraction.cmp_self, hd]⟩
  obtain ⟨b1, k1⟩ := key .equalTo hc hl hr wl wr kl kr hcmp
  obtain ⟨b2, k2⟩ := key .less hc hl hr wl wr kl kr hcmp
  obtain ⟨b3, k3⟩ := key .less (commonTy_comm.1 hc) hr hl wr wl
    (by rw [commonSeconds_comm]; exact kr) (by rw [commonSeconds_comm]; exact kl)
    (by rw [commonSeconds_comm]; exact bound_comparable_symm hcmp)
  have no : ∀ {m : Res Bool} {b : Bool}, m ⇓ b →
      (m >>= fun v => (pure (!v) : Res Bool)) ⇓ (!b) := fun h => by
    rw [h, ok_bind_false]; rfl
  cases cop
  · exact ⟨b1, k1⟩
  · exact ⟨!b1, no k1⟩
  · exact ⟨b2, k2⟩
  · exact ⟨!b3, no k3⟩
  · exact ⟨b3, k3⟩
  · exact ⟨!b2, no k2⟩

theorem factors_eq (hs : (s = .dur p ∧ t = .dur q) ∨ (s = .tp p ∧ t = .tp q)) :
    factors s t = (p.seconds / commonSeconds p q, q.seconds / commonSeconds p q) := by
  rcases hs with ⟨rfl, rfl⟩ | ⟨rfl, rfl⟩ <;> rfl

theorem compare_within {e1 e2 : TimeExpr} {w u : ℚ} (cop : CmpOp) (hσ : Models Γ σ ρ)
    (hw : WithinAll T V σ) (hc : e1.comparable Γ e2 = true) (hb : e1.CondBounded T.max Γ V e2)
    (hn : T.signed = true ∨ e1.StaysNonneg ∧ e2.StaysNonneg)
    (h1 : e1.value Γ ρ = some w) (h2 : e2.value Γ ρ = some u) :
    ∃ b, TimeExpr.compare T o Γ σ cop e1 e2 ⇓ b := by
  obtain ⟨a, b, s, t, p, q, c, ha, hb', hf, hc, hs⟩ := comparable_iff.1 hc
  simp only [TimeExpr.CondBounded, shape_of ha, shape_of hb', factors_eq hs] at hb
  obtain ⟨b1, b2, kl, kr, hcmp⟩ := hb
  obtain ⟨v1, r1, w1⟩ := run_within (o := o) hσ hw ha b1 (hn.imp_right (·.1)) h1
  obtain ⟨v2, r2, w2⟩ := run_within (o := o) hσ hw hb' b2 (hn.imp_right (·.2)) h2
  have s1 := C130_exact hσ ha h1 r1
  have s2 := C130_exact hσ hb' h2 r2
  obtain ⟨d, hd⟩ := cmp_within (o := o) cop hc s1 s2 w1 w2 kl kr hcmp
  exact ⟨d, by rw [compare_eq ha hb' hf hc hs]; simp only [r1, r2, ok_bind_false, hd]⟩

theorem toFraction_parts (v : Count) : v.toFraction = v.parts := by
  cases v <;> rfl

theorem assignCount_within (hst : s.assignable t = true) (hs : Stands t v x) (hw : v.Within T A)
    (hk : Scales A (t.unit / s.unit) T.max) :
    ∃ f, assignCount T o s t v ⇓ f ∧ f.FitB T (scaled A (t.unit / s.unit)) := by
  rcases assignable_unit hst with ⟨rfl, rfl⟩ | ⟨p, q, hf, ⟨rfl, rfl⟩ | ⟨rfl, rfl⟩⟩
  · refine ⟨v.toFraction, rfl, ?_⟩
    rw [Shape.unit, div_one, scaled_one, toFraction_parts]
    exact hw.fit
  · exact convert_within hf hs hw hk
  · exact convert_within hf hs hw hk

theorem assign_within (hq : FitsParts i64 (conversionFactor q p)) (hf : Denotes f x)
    (hr : r.Is y) (wf : (Count.frac f).Within T A) (wr : r.Within T B) (hA : A.Le T.max)
    (hk : Scales B (conversionFactor q p) T.max)
    (hop : op.Bounded A (scaled B (conversionFactor q p)) T.max)
    (hal : ∀ z : ℚ, 0 < z → op.Allowed T (y * z)) :
    ∃ g, Chrono.assign T o op p q f r ⇓ g ∧
      g.FitB T (op.bound A (scaled B (conversionFactor q p))) := by
  obtain ⟨a, ha, fa⟩ := convert_within (o := o) hq hr wr hk
  have da := C67_duration_cast_exact hr ha
  rw [mul_div_assoc] at da
  obtain ⟨g, hg, fg⟩ := Ops.arith_fitB (o := o) (a := .ff f a) ⟨hf, da⟩ ⟨wf.fit, fa⟩ hA hk.2.2 hop
    (hal _ (div_pos q.seconds_pos p.seconds_pos))
  exact ⟨g, by simp only [Chrono.assign, ha, ok_bind_false, Fraction.assignF, if_true,
    Fraction.arith_self, hg], fg⟩

theorem updateCount_within (hst : s.updatable op t = true)
    (hl : Stands s (.frac f) x) (hr : Stands t v y) (h0 : op = .modulus → y ≠ 0)
    (hs : op = .minus → T.signed = true) (wf : (Count.frac f).Within T A) (wv : v.Within T B)
    (hA : A.Le T.max) (hk : Scales B (updateFactor s t) T.max)
    (hop : op.Bounded A (scaled B (updateFactor s t)) T.max) :
    ∃ g, updateCount T o op s t f v ⇓ g ∧ g.FitB T (op.bound A (scaled B (updateFactor s t))) := by
  have hal := allowed_unit (T := T) h0 hs t
  have hal' : ∀ z : ℚ, 0 < z → op.Allowed T (y / t.unit * z) := fun z hz => by
    cases op
    · trivial
    · exact hs rfl
    · trivial
    · trivial
    · exact mul_ne_zero (div_ne_zero (h0 rfl) (unit_pos t).ne') hz.ne'
  have two : ∀ {p q : Period}, (ratioDivide q p).isSome = true → Denotes f (x / p.seconds) →
      v.Is (y / q.seconds) → Scales B (conversionFactor q p) T.max →
      op.Bounded A (scaled B (conversionFactor q p)) T.max →
      (∀ z : ℚ, 0 < z → op.Allowed T (y / q.seconds * z)) →
      ∃ g, Chrono.assign T o op p q f v ⇓ g ∧
        g.FitB T (op.bound A (scaled B (conversionFactor q p))) :=
    fun h hl hr hk hop hal => assign_within (ratioDivide_isSome.1 h) hl hr wf wv hA hk hop hal
  cases t with
  | num =>
    simp only [updateFactor, scaled_one] at hk hop ⊢
    have hB := hk.2.2
    rw [scaled_one] at hB
    simp only [Stands, Shape.unit, div_one] at hr hal
    cases s with
    | num =>
      cases v with
      | frac k =>
        simpa only [updateCount, Fraction.assignF, if_true, Fraction.arith_self] using
          Ops.arith_fitB (o := o) (a := .ff f k) ⟨hl, hr⟩ ⟨wf.fit, wv.fit⟩ hA hB hop hal
      | int n =>
        simpa only [updateCount, Fraction.assignR, if_true, Fraction.arith_self] using
          Ops.arith_fitB (o := o) (a := .fr f n) ⟨hl, hr⟩ ⟨wf.fit, wv.fit⟩ hA hB hop hal
    | dur p =>
      have fv := wv.fit
      rw [← toFraction_parts] at fv
      simpa only [updateCount, Fraction.assignF, if_true, Fraction.arith_self] using
        Ops.arith_fitB (o := o) (a := .ff f v.toFraction) ⟨hl, toFraction_denotes hr⟩
          ⟨wf.fit, fv⟩ hA hB hop hal
    | tp p => simp only [Shape.updatable, Bool.false_eq_true] at hst
  | dur q =>
    cases s with
    | num => simp only [Shape.updatable, Bool.false_eq_true] at hst
    | dur p =>
      refine two ?_ hl hr hk hop hal'
      cases op <;> simp_all [Shape.updatable]
    | tp p =>
      refine two ?_ hl hr hk hop hal'
      cases op <;> simp_all [Shape.updatable]
  | tp q => cases s <;> simp only [Shape.updatable, Bool.false_eq_true] at hst

theorem withinAll_set {n : ℕ} (hw : WithinAll T V σ) (hf : f.FitB T A) :
    WithinAll T (fun y => if y = n then A else V y) (setCount σ n f) := by
  intro y
  by_cases e : y = n
  · simp only [setCount, e, if_true]
    exact within_frac hf
  · simp only [setCount, if_neg e]
    exact hw y

theorem WithinAll.mono {V W : Bounds} (h : WithinAll T V σ) (hle : ∀ x, (V x).LeB (W x)) :
    WithinAll T W σ := fun x =>
  ⟨(h x).1.trans (hle x).1, (h x).2.1.trans (hle x).2, (h x).2.2⟩

/-- The run completed within the bounds, if the outcome has any. -/
def Admits (T : IntTy) : Outcome → (ℕ → Count) → Prop
  | .unreached, _ => False
  | .within A, σ => WithinAll T A σ

theorem admits_left {a b : Outcome} (h : Admits T a σ) : Admits T (a.join b) σ := by
  cases a with
  | unreached => exact h.elim
  | within A =>
    cases b with
    | unreached => exact h
    | within B => exact WithinAll.mono h fun x => ⟨le_max_left _ _, le_max_left _ _⟩

theorem admits_right {a b : Outcome} (h : Admits T b σ) : Admits T (a.join b) σ := by
  cases b with
  | unreached => exact h.elim
  | within A =>
    cases a with
    | unreached => exact h
    | within B => exact WithinAll.mono h fun x => ⟨le_max_right _ _, le_max_right _ _⟩

private theorem order {cop : CmpOp} {P : Prop} (ho : o.SafeBased ∨ (¬ cop.IsOrder ∧ P)) :
    cop.IsOrder → o.SafeBased := fun hi => ho.elim id fun h => absurd hi h.1

/-- A checked program runs without overflow: it uses up its steps or completes within the
bounds. -/
theorem exec_within {c : TimeCmd} {ρ ρ' : ℕ → ℚ} {n : ℕ} {R : Outcome} (hr : TimeRuns Γ c ρ ρ')
    (hσ : Models Γ σ ρ) (hw : WithinAll T V σ) (hok : c.ok Γ = true)
    (ho : o.SafeBased ∨ c.OnlyEquality) (hn : T.signed = true ∨ c.StaysNonneg)
    (hk : c.check T.max Γ n V = some R) :
    c.exec T o Γ n σ ⇓ none ∨ ∃ σ', c.exec T o Γ n σ ⇓ some σ' ∧ Admits T R σ' := by
  induction hr generalizing σ n V R with
  | skip =>
    cases n with
    | zero => exact .inl rfl
    | succ n =>
      simp only [TimeCmd.check, Option.some.injEq] at hk
      subst hk
      exact .inr ⟨σ, rfl, hw⟩
  | @assign ρ x e t he =>
    cases n with
    | zero => exact .inl rfl
    | succ n =>
      simp only [TimeCmd.ok, Bool.and_eq_true] at hok
      obtain ⟨hx, hok⟩ := hok
      simp only [TimeCmd.check, Option.ite_none_right_eq_some, Option.some.injEq] at hk
      obtain ⟨⟨hb, hk⟩, rfl⟩ := hk
      cases ht : e.ty Γ with
      | none => rw [ht] at hok; cases hok
      | some τ =>
        rw [ht] at hok
        rw [shape_of ht] at hk ⊢
        obtain ⟨v, h1, w1⟩ := run_within (o := o) hσ hw ht hb hn he
        obtain ⟨f, h2, ff⟩ := assignCount_within (o := o) hok (C130_exact hσ ht he h1) w1 hk
        exact .inr ⟨setCount σ x f, by simp only [TimeCmd.exec, ht, h1, h2, ok_bind_false, pure_def],
          withinAll_set hw ff⟩
  | @update ρ op x e t he =>
    cases n with
    | zero => exact .inl rfl
    | succ n =>
      simp only [TimeCmd.ok, Bool.and_eq_true] at hok
      obtain ⟨hx, hok⟩ := hok
      simp only [TimeCmd.check, Option.ite_none_right_eq_some, Option.some.injEq] at hk
      obtain ⟨⟨hb, hk, hA, hop⟩, rfl⟩ := hk
      simp only [TimeExpr.value, Option.bind_some, Option.bind_eq_some_iff] at he
      obtain ⟨y, hy, hv⟩ := he
      have hσx := hσ x
      have hwx := hw x
      cases ht : e.ty Γ with
      | none => rw [ht] at hok; cases hok
      | some τ =>
        rw [ht] at hok
        rw [shape_of ht] at hk hop ⊢
        cases hf : σ x with
        | int k => rw [hf] at hσx; exact absurd (hσx.1.symm.trans hx) (by decide)
        | frac f =>
          rw [hf] at hσx hwx
          obtain ⟨v, h1, w1⟩ := run_within (o := o) hσ hw ht hb (hn.imp_right (·.2)) hy
          obtain ⟨g, h2, fg⟩ := updateCount_within (o := o) hok hσx.2 (C130_exact hσ ht hy h1)
            (fun e => by
              have := op_value_ne hv e
              rw [if_pos e] at this
              exact left_ne_zero_of_mul this)
            (fun e => hn.resolve_right fun h => h.1 e) hwx w1 hA hk hop
          exact .inr ⟨setCount σ x g, by
            simp only [TimeCmd.exec, ht, hf, h1, h2, ok_bind_false, pure_def], withinAll_set hw fg⟩
  | @seq c d ρ ρ1 ρ2 hc hd ihc ihd =>
    cases n with
    | zero => exact .inl rfl
    | succ n =>
      simp only [TimeCmd.ok, Bool.and_eq_true] at hok
      simp only [TimeCmd.check] at hk
      cases hk1 : c.check T.max Γ n V with
      | none => rw [hk1] at hk; cases hk
      | some R1 =>
        rw [hk1] at hk
        rcases ihc hσ hw hok.1 (ho.imp_right (·.1)) (hn.imp_right (·.1)) hk1 with
          h1 | ⟨σ1, h1, w1⟩
        · exact .inl (by simp only [TimeCmd.exec, h1, ok_bind_false, pure_def])
        · cases R1 with
          | unreached => exact w1.elim
          | within W =>
            rcases ihd (C131_exact hc hσ hok.1 (ho.imp_right (·.1)) h1) w1 hok.2
              (ho.imp_right (·.2)) (hn.imp_right (·.2)) hk with h2 | ⟨σ2, h2, w2⟩
            · exact .inl (by simp only [TimeCmd.exec, h1, ok_bind_false, h2])
            · exact .inr ⟨σ2, by simp only [TimeCmd.exec, h1, ok_bind_false, h2], w2⟩
  | @iteTrue op e1 e2 c d ρ ρ' p q h1 h2 hb hc ih =>
    cases n with
    | zero => exact .inl rfl
    | succ n =>
      simp only [TimeCmd.ok, Bool.and_eq_true] at hok
      simp only [TimeCmd.check, Option.ite_none_right_eq_some] at hk
      obtain ⟨hcb, hk⟩ := hk
      obtain ⟨b, ht⟩ := compare_within (o := o) op hσ hw hok.1.1 hcb
        (hn.imp_right fun h => ⟨h.1, h.2.1⟩) h1 h2
      have hbt := (C130_compare hσ (order ho) h1 h2 ht).2 hb
      subst hbt
      split at hk
      · rename_i o1 o2 k1 k2
        simp only [Option.some.injEq] at hk
        subst hk
        rcases ih hσ hw hok.1.2 (ho.imp_right fun h => h.2.1) (hn.imp_right fun h => h.2.2.1) k1
          with h3 | ⟨σ', h3, w3⟩
        · exact .inl (by simp only [TimeCmd.exec, ht, ok_bind_false, if_true, h3])
        · exact .inr ⟨σ', by simp only [TimeCmd.exec, ht, ok_bind_false, if_true, h3],
            admits_left w3⟩
      · cases hk
  | @iteFalse op e1 e2 c d ρ ρ' p q h1 h2 hb hd ih =>
    cases n with
    | zero => exact .inl rfl
    | succ n =>
      simp only [TimeCmd.ok, Bool.and_eq_true] at hok
      simp only [TimeCmd.check, Option.ite_none_right_eq_some] at hk
      obtain ⟨hcb, hk⟩ := hk
      obtain ⟨b, ht⟩ := compare_within (o := o) op hσ hw hok.1.1 hcb
        (hn.imp_right fun h => ⟨h.1, h.2.1⟩) h1 h2
      have hbt := mt (C130_compare hσ (order ho) h1 h2 ht).1 hb
      simp only [Bool.not_eq_true] at hbt
      subst hbt
      split at hk
      · rename_i o1 o2 k1 k2
        simp only [Option.some.injEq] at hk
        subst hk
        rcases ih hσ hw hok.2 (ho.imp_right fun h => h.2.2) (hn.imp_right fun h => h.2.2.2) k2
          with h3 | ⟨σ', h3, w3⟩
        · exact .inl (by
            simp only [TimeCmd.exec, ht, ok_bind_false, Bool.false_eq_true, if_false, h3])
        · exact .inr ⟨σ', by
            simp only [TimeCmd.exec, ht, ok_bind_false, Bool.false_eq_true, if_false, h3],
            admits_right w3⟩
      · cases hk
  | @loopTrue op e1 e2 c ρ ρ1 ρ2 p q h1 h2 hb hc hl ihc ihl =>
    cases n with
    | zero => exact .inl rfl
    | succ n =>
      have hok' := hok
      simp only [TimeCmd.ok, Bool.and_eq_true] at hok
      simp only [TimeCmd.check, Option.ite_none_right_eq_some] at hk
      obtain ⟨hcb, hk⟩ := hk
      obtain ⟨b, ht⟩ := compare_within (o := o) op hσ hw hok.1 hcb
        (hn.imp_right fun h => ⟨h.1, h.2.1⟩) h1 h2
      have hbt := (C130_compare hσ (order ho) h1 h2 ht).2 hb
      subst hbt
      cases hk1 : c.check T.max Γ n V with
      | none => rw [hk1] at hk; cases hk
      | some R1 =>
        rw [hk1] at hk
        rcases ihc hσ hw hok.2 (ho.imp_right (·.2)) (hn.imp_right (·.2.2)) hk1 with
          h3 | ⟨σ1, h3, w1⟩
        · exact .inl (by simp only [TimeCmd.exec, ht, ok_bind_false, if_true, h3, pure_def])
        · cases R1 with
          | unreached => exact w1.elim
          | within W =>
            simp only [Option.map_eq_some_iff] at hk
            obtain ⟨R2, hk2, rfl⟩ := hk
            rcases ihl (C131_exact hc hσ hok.2 (ho.imp_right (·.2)) h3) w1 hok' ho hn hk2 with
              h4 | ⟨σ2, h4, w2⟩
            · exact .inl (by simp only [TimeCmd.exec, ht, ok_bind_false, if_true, h3, h4])
            · exact .inr ⟨σ2, by simp only [TimeCmd.exec, ht, ok_bind_false, if_true, h3, h4],
                admits_right w2⟩
  | @loopFalse op e1 e2 c ρ p q h1 h2 hb =>
    cases n with
    | zero => exact .inl rfl
    | succ n =>
      simp only [TimeCmd.ok, Bool.and_eq_true] at hok
      simp only [TimeCmd.check, Option.ite_none_right_eq_some] at hk
      obtain ⟨hcb, hk⟩ := hk
      obtain ⟨b, ht⟩ := compare_within (o := o) op hσ hw hok.1 hcb
        (hn.imp_right fun h => ⟨h.1, h.2.1⟩) h1 h2
      have hbt := mt (C130_compare hσ (order ho) h1 h2 ht).1 hb
      simp only [Bool.not_eq_true] at hbt
      subst hbt
      refine .inr ⟨σ, by simp only [TimeCmd.exec, ht, ok_bind_false, Bool.false_eq_true, if_false,
        pure_def], ?_⟩
      cases hk1 : c.check T.max Γ n V with
      | none => rw [hk1] at hk; cases hk
      | some R1 =>
        rw [hk1] at hk
        cases R1 with
        | unreached => simp only [Option.some.injEq] at hk; subst hk; exact hw
        | within W =>
          simp only [Option.map_eq_some_iff] at hk
          obtain ⟨R2, -, rfl⟩ := hk
          exact admits_left (a := .within V) hw

/-- A program without loops completes within its depth. -/
theorem TimeCmd.LoopFree.completes {c : TimeCmd} (hl : c.LoopFree) {n : ℕ} (hn : c.depth ≤ n) :
    ¬ (c.exec T o Γ n σ ⇓ none) := by
  induction c generalizing n σ with
  | skip =>
    obtain ⟨n, rfl⟩ : ∃ k, n = k + 1 := ⟨n - 1, by simp only [TimeCmd.depth] at hn; omega⟩
    simp [TimeCmd.exec, pure_def]
  | assign x e =>
    obtain ⟨n, rfl⟩ : ∃ k, n = k + 1 := ⟨n - 1, by simp only [TimeCmd.depth] at hn; omega⟩
    intro h
    simp only [TimeCmd.exec] at h
    split at h
    · simp [bind_eq_clean, pure_eq_ok, -bind_pure_comp] at h
    · cases h
  | update op x e =>
    obtain ⟨n, rfl⟩ : ∃ k, n = k + 1 := ⟨n - 1, by simp only [TimeCmd.depth] at hn; omega⟩
    intro h
    simp only [TimeCmd.exec] at h
    split at h
    · simp [bind_eq_clean, pure_eq_ok, -bind_pure_comp] at h
    · cases h
  | seq c d ihc ihd =>
    obtain ⟨n, rfl⟩ : ∃ k, n = k + 1 := ⟨n - 1, by simp only [TimeCmd.depth] at hn; omega⟩
    simp only [TimeCmd.depth] at hn
    intro h
    simp only [TimeCmd.exec, bind_eq_clean] at h
    obtain ⟨r, h1, h2⟩ := h
    cases r with
    | none => exact ihc hl.1 (by omega) h1
    | some m1 => exact ihd hl.2 (by omega) h2
  | ite op e1 e2 c d ihc ihd =>
    obtain ⟨n, rfl⟩ : ∃ k, n = k + 1 := ⟨n - 1, by simp only [TimeCmd.depth] at hn; omega⟩
    simp only [TimeCmd.depth] at hn
    intro h
    simp only [TimeCmd.exec, bind_eq_clean] at h
    obtain ⟨b, -, h2⟩ := h
    cases b with
    | true => exact ihc hl.1 (by omega) h2
    | false => exact ihd hl.2 (by omega) h2
  | loop op e1 e2 c ih => exact hl.elim

end Ieme.Chrono
