import Verif.Spec.TimeProgram
import Verif.Props.TimeExpr
import Verif.Props.EnoughBits

/-!
# Lemmas on programs over durations and time points
-/

namespace Ieme.Chrono

open Res IntTy

variable {T : IntTy} {o : Ops} {p q c : Period} {l r v : Count} {f g : Raw} {x y z : ℚ}
  {op : ArithOp} {s t u : Shape} {Γ : ℕ → TimeTy} {σ : ℕ → Count} {ρ : ℕ → ℚ} {τ : TimeTy}

theorem arith_settles (o : Ops) (hc : commonTy p q = some c) (hl : l.Is x) (hr : r.Is y)
    (h0 : op = .modulus → y ≠ 0) : ∃ f, Settles (fun T => Chrono.arith T o op p q l r) f := by
  obtain ⟨h1, h2, h3⟩ := commonTy_eq_some.1 hc
  obtain ⟨a, ha, da⟩ := C122_durations (o := o) hl h2
  obtain ⟨b, hb, db⟩ := C122_durations (o := o) hr h3
  obtain ⟨f, hf, -⟩ := Settles.arith o op (a := .ff a b) ⟨da, db⟩ fun e =>
    div_ne_zero (mul_ne_zero (h0 e) q.seconds_pos.ne') c.seconds_pos.ne'
  refine ⟨f, ?_⟩
  simp only [Chrono.arith, common_eq_of_fits h1 h2 h3]
  exact Settles.bind (Settles.bind ha (Settles.bind hb (Settles.pure (a, b)))) hf

theorem scaleCount_settles (o : Ops) (hl : l.Is x) (hr : r.Is y) (h0 : op = .modulus → y ≠ 0) :
    ∃ f, Settles (fun T => scaleCount T o op p l r) f := by
  obtain ⟨a, ha, da⟩ := C122_durations (o := o) hl (same_fits (p := p))
  cases r with
  | frac g =>
    obtain ⟨f, hf, -⟩ := Settles.arith o op (a := .ff a g) ⟨da, hr⟩ h0
    exact ⟨f, Settles.bind ha hf⟩
  | int n =>
    obtain ⟨f, hf, -⟩ := Settles.arith o op (a := .fr a n) (y := (n : ℚ)) ⟨da, rfl⟩
      (by rw [show (n : ℚ) = y from hr]; exact h0)
    exact ⟨f, Settles.bind ha hf⟩

theorem op_value_ne (h : op.value x y = some z) (e : op = .modulus) : y ≠ 0 := by
  subst e
  simp only [ArithOp.value, Option.ite_none_left_eq_some] at h
  exact h.1

theorem applyOp_settles (o : Ops) {a b : TimeTy} (h : TimeTy.result op a b = some τ) (hl : a.Has l)
    (hr : b.Has r) (sl : Stands a.shape l x) (sr : Stands b.shape r y)
    (h0 : op = .modulus → y ≠ 0) :
    ∃ f, Settles (fun T => applyOp T o op a.shape b.shape l r) f := by
  obtain ⟨a, s⟩ := a
  obtain ⟨b, t⟩ := b
  simp only [TimeTy.result, Option.ite_none_right_eq_some, Option.map_eq_some_iff] at h
  obtain ⟨hf, u, hu, -⟩ := h
  have h1 : op = .modulus → y / t.unit ≠ 0 := fun e => div_ne_zero (h0 e) (unit_pos t).ne'
  have two : ∀ {k : Period → Shape} {p q : Period}, (commonTy p q).map k = some u →
      ∃ f, Settles (fun T => Chrono.arith T o op p q l r) f := by
    intro k p q h
    obtain ⟨c, hc, -⟩ := Option.map_eq_some_iff.1 h
    exact arith_settles o hc sl sr h1
  cases s <;> cases t
  · simp only [Stands, Shape.unit, div_one] at sl sr h1
    cases l <;> cases r <;> simp only [TimeTy.Has] at hl hr
    · simp only [hl, hr] at hf; simp at hf
    · rename_i n g
      obtain ⟨f, hf, -⟩ := Settles.arith o op (a := .rf n g) (x := (n : ℚ)) ⟨rfl, sr⟩ h1
      exact ⟨f, hf⟩
    · rename_i g n
      obtain ⟨f, hf, -⟩ := Settles.arith o op (a := .fr g n) (y := (n : ℚ)) ⟨sl, rfl⟩
        (by rw [show (n : ℚ) = y from sr]; exact h1)
      exact ⟨f, hf⟩
    · obtain ⟨f, hf, -⟩ := Settles.arith o op (a := .ff _ _) ⟨sl, sr⟩ h1
      exact ⟨f, hf⟩
  · cases op <;> simp only [Shape.result, reduceCtorEq] at hu
    exact scaleCount_settles o sr sl (by simp)
  · cases op <;> simp only [Shape.result, reduceCtorEq] at hu
  · exact scaleCount_settles o sl sr h1
  · cases op <;> simp only [Shape.result, reduceCtorEq] at hu <;> exact two hu
  · cases op <;> simp only [Shape.result, reduceCtorEq] at hu; exact two hu
  · cases op <;> simp only [Shape.result, reduceCtorEq] at hu
  · cases op <;> simp only [Shape.result, reduceCtorEq] at hu <;> exact two hu
  · cases op <;> simp only [Shape.result, reduceCtorEq] at hu; exact two hu

/-- What a settled run of an expression is: of its type, and exact. -/
theorem settled_facts {e : TimeExpr} {t : ℚ} (hσ : Models Γ σ ρ) (ht : e.ty Γ = some τ)
    (hv : e.value Γ ρ = some t) (h : Settles (fun T => e.run T o Γ σ) v) :
    τ.Has v ∧ Stands τ.shape v t := by
  obtain ⟨N, h⟩ := h
  have := h ⟨true, max N 32, le_max_right _ _⟩ rfl (le_max_left _ _)
  exact ⟨C130_typed (fun x => (hσ x).1) ht this, C130_exact hσ ht hv this⟩

theorem run_settles (o : Ops) {e : TimeExpr} {t : ℚ} (hσ : Models Γ σ ρ) (ht : e.ty Γ = some τ)
    (hv : e.value Γ ρ = some t) : ∃ v, Settles (fun T => e.run T o Γ σ) v := by
  induction e generalizing τ t with
  | var x => exact ⟨σ x, Settles.pure _⟩
  | neg e ih =>
    simp only [TimeExpr.value, Option.map_eq_some_iff] at hv
    obtain ⟨t', hv, rfl⟩ := hv
    simp only [TimeExpr.ty] at ht
    have ok : ∃ s, e.ty Γ = some ⟨true, s⟩ := by
      split at ht
      · exact ⟨_, ‹_›⟩
      · exact ⟨_, ‹_›⟩
      · cases ht
    obtain ⟨s, hs⟩ := ok
    obtain ⟨v, hv'⟩ := ih hs hv
    obtain ⟨h1, h2⟩ := settled_facts hσ hs hv hv'
    cases v with
    | int n => cases h1
    | frac f =>
      obtain ⟨g, hg, -⟩ := Settles.negate o (show Denotes f _ from h2)
      exact ⟨.frac g, Settles.bind hv' (Settles.bind hg (Settles.pure _))⟩
  | bin op e1 e2 ih1 ih2 =>
    simp only [TimeExpr.ty] at ht
    simp only [TimeExpr.value, Option.bind_eq_some_iff] at hv
    obtain ⟨x', hx', y', hy', hv⟩ := hv
    split at ht
    · rename_i a b ha hb
      obtain ⟨v1, h1⟩ := ih1 ha hx'
      obtain ⟨v2, h2⟩ := ih2 hb hy'
      obtain ⟨t1, s1⟩ := settled_facts hσ ha hx' h1
      obtain ⟨t2, s2⟩ := settled_facts hσ hb hy' h2
      obtain ⟨f, hf⟩ := applyOp_settles o ht t1 t2 s1 s2 fun e => by
        have := op_value_ne hv e
        rw [if_pos e] at this
        exact left_ne_zero_of_mul this
      refine ⟨.frac f, ?_⟩
      simp only [TimeExpr.run, ha, hb]
      exact Settles.bind h1 (Settles.bind h2 (Settles.bind hf (Settles.pure _)))
    · cases ht
  | cast q e ih =>
    simp only [TimeExpr.ty] at ht
    simp only [TimeExpr.value] at hv
    split at ht
    all_goals first
      | cases ht
        done
      | (rename_i p ha
         simp only [Option.ite_none_right_eq_some] at ht
         obtain ⟨v, hv'⟩ := ih ha hv
         obtain ⟨h1, h2⟩ := settled_facts hσ ha hv hv'
         obtain ⟨f, hf, -⟩ := C122_durations (o := o) h2 (ratioDivide_isSome.1 ht.1)
         refine ⟨.frac f, ?_⟩
         simp only [TimeExpr.run, ha]
         exact Settles.bind hv' (Settles.bind hf (Settles.pure _)))

theorem cmp_settles (o : Ops) (op : CmpOp) (hc : commonTy p q = some c) (hl : l.Is x)
    (hr : r.Is y) : ∃ b, Settles (fun T => Chrono.cmp T o op p q l r) b := by
  have key : ∀ {p q : Period} {l r : Count} {x y : ℚ} (op : CmpOp), commonTy p q = some c →
      l.Is x → r.Is y → ∃ b, Settles (fun T => Chrono.common T o p q l r >>= fun z => match z with
        | (x, y) => Fraction.cmp T T o op (.ff x y)) b := by
    intro p q l r x y op hc hl hr
    obtain ⟨h1, h2, h3⟩ := commonTy_eq_some.1 hc
    obtain ⟨a, ha, da⟩ := C122_durations (o := o) hl h2
    obtain ⟨b, hb, db⟩ := C122_durations (o := o) hr h3
    obtain ⟨d, hd, -⟩ := Settles.cmp o op (.ff a b)
    refine ⟨d, ?_⟩
    simp only [common_eq_of_fits h1 h2 h3]
    exact Settles.bind (Settles.bind ha (Settles.bind hb (Settles.pure (a, b)))) hd
  obtain ⟨b1, k1⟩ := key .equalTo hc hl hr
  obtain ⟨b2, k2⟩ := key .less hc hl hr
  obtain ⟨b3, k3⟩ := key .less (commonTy_comm.1 hc) hr hl
  cases op
  · exact ⟨b1, k1⟩
  · exact ⟨!b1, Settles.bind k1 (Settles.pure _)⟩
  · exact ⟨b2, k2⟩
  · exact ⟨!b3, Settles.bind k3 (Settles.pure _)⟩
  · exact ⟨b3, k3⟩
  · exact ⟨!b2, Settles.bind k2 (Settles.pure _)⟩

/-- What is needed of two expressions to be compared. -/
theorem comparable_iff {e1 e2 : TimeExpr} : e1.comparable Γ e2 = true ↔
    ∃ a b s t p q c, e1.ty Γ = some ⟨a, s⟩ ∧ e2.ty Γ = some ⟨b, t⟩ ∧ (a = true ∨ b = true) ∧
      commonTy p q = some c ∧ ((s = .dur p ∧ t = .dur q) ∨ (s = .tp p ∧ t = .tp q)) := by
  constructor
  · intro h
    unfold TimeExpr.comparable at h
    split at h
    · rename_i ha hb
      simp only [Bool.and_eq_true, Bool.or_eq_true, Option.isSome_iff_exists] at h
      obtain ⟨hf, c, hc⟩ := h
      exact ⟨_, _, _, _, _, _, c, ha, hb, hf, hc, .inl ⟨rfl, rfl⟩⟩
    · rename_i ha hb
      simp only [Bool.and_eq_true, Bool.or_eq_true, Option.isSome_iff_exists] at h
      obtain ⟨hf, c, hc⟩ := h
      exact ⟨_, _, _, _, _, _, c, ha, hb, hf, hc, .inr ⟨rfl, rfl⟩⟩
    · cases h
  · rintro ⟨a, b, s, t, p, q, c, ha, hb, hf, hc, ⟨rfl, rfl⟩ | ⟨rfl, rfl⟩⟩ <;>
      simp [TimeExpr.comparable, ha, hb, hc, hf]

theorem compare_eq {e1 e2 : TimeExpr} {a b : Bool} {cop : CmpOp} (ha : e1.ty Γ = some ⟨a, s⟩)
    (hb : e2.ty Γ = some ⟨b, t⟩) (hf : a = true ∨ b = true) (hc : commonTy p q = some c)
    (hs : (s = .dur p ∧ t = .dur q) ∨ (s = .tp p ∧ t = .tp q)) :
    TimeExpr.compare T o Γ σ cop e1 e2 = (e1.run T o Γ σ >>= fun x => e2.run T o Γ σ >>= fun y =>
      Chrono.cmp T o cop p q x y) := by
  rcases hs with ⟨rfl, rfl⟩ | ⟨rfl, rfl⟩ <;>
    simp [TimeExpr.compare, ha, hb, hc, hf]

theorem compare_settles (o : Ops) (cop : CmpOp) {e1 e2 : TimeExpr} {t u : ℚ} (hσ : Models Γ σ ρ)
    (hc : e1.comparable Γ e2 = true) (h1 : e1.value Γ ρ = some t) (h2 : e2.value Γ ρ = some u) :
    ∃ b, Settles (fun T => TimeExpr.compare T o Γ σ cop e1 e2) b := by
  obtain ⟨a, b, s, t, p, q, c, ha, hb, hf, hc, hs⟩ := comparable_iff.1 hc
  obtain ⟨v1, k1⟩ := run_settles o hσ ha h1
  obtain ⟨v2, k2⟩ := run_settles o hσ hb h2
  obtain ⟨t1, s1⟩ := settled_facts hσ ha h1 k1
  obtain ⟨t2, s2⟩ := settled_facts hσ hb h2 k2
  obtain ⟨d, hd⟩ := cmp_settles o cop hc s1 s2
  refine ⟨d, Settles.congr (fun T => (compare_eq ha hb hf hc hs).symm) ?_⟩
  exact Settles.bind k1 (Settles.bind k2 hd)

theorem toFraction_denotes (h : v.Is x) : Denotes v.toFraction x := by
  cases v with
  | frac f => exact h
  | int n => exact ⟨one_ne_zero, by rw [← show (n : ℚ) = x from h]; simp [Count.toFraction]⟩

theorem assignable_unit (h : s.assignable t = true) : (s = .num ∧ t = .num) ∨
    ∃ p q, FitsParts i64 (conversionFactor q p) ∧
      ((s = .dur p ∧ t = .dur q) ∨ (s = .tp p ∧ t = .tp q)) := by
  cases s <;> cases t <;> simp only [Shape.assignable, reduceCtorEq, Bool.false_eq_true] at h
  · exact .inl ⟨rfl, rfl⟩
  · exact .inr ⟨_, _, ratioDivide_isSome.1 h, .inl ⟨rfl, rfl⟩⟩
  · exact .inr ⟨_, _, ratioDivide_isSome.1 h, .inr ⟨rfl, rfl⟩⟩

theorem assignCount_exact (hs : Stands t v x) (h : assignCount T o s t v ⇓ f) :
    Stands s (.frac f) x := by
  cases s <;> cases t <;> simp only [assignCount, reduceCtorEq] at h
  · obtain rfl := (pure_eq_ok.1 h).1
    exact toFraction_denotes hs
  all_goals
    rename_i p q
    have := C67_duration_cast_exact hs h
    simp only [Shape.unit] at this
    rw [div_mul_cancel₀ _ q.seconds_pos.ne'] at this
    exact this

theorem assignCount_settles (o : Ops) (hst : s.assignable t = true) (hs : Stands t v x) :
    ∃ f, Settles (fun T => assignCount T o s t v) f := by
  rcases assignable_unit hst with ⟨rfl, rfl⟩ | ⟨p, q, hf, ⟨rfl, rfl⟩ | ⟨rfl, rfl⟩⟩
  · exact ⟨_, Settles.pure _⟩
  · obtain ⟨f, hf, -⟩ := C122_durations (o := o) hs hf
    exact ⟨f, hf⟩
  · obtain ⟨f, hf, -⟩ := C122_durations (o := o) hs hf
    exact ⟨f, hf⟩

theorem assign_exact' (hf : Denotes f (x / p.seconds)) (hr : r.Is (y / q.seconds))
    (h : Chrono.assign T o op p q f r ⇓ g) : op.Exact (x / p.seconds) (y / p.seconds) g := by
  obtain ⟨k, h1, h2⟩ := bind_eq_clean.1 h
  have dy := C67_duration_cast_exact hr h1
  rw [div_mul_cancel₀ _ q.seconds_pos.ne'] at dy
  rw [Fraction.assignF, if_pos rfl, Fraction.arith_self] at h2
  exact Ops.arith_exact (a := .ff f k) ⟨hf, dy⟩ h2

theorem assign_settles (o : Ops) (hq : FitsParts i64 (conversionFactor q p))
    (hf : Denotes f (x / p.seconds)) (hr : r.Is (y / q.seconds)) (h0 : op = .modulus → y ≠ 0) :
    ∃ g, Settles (fun T => Chrono.assign T o op p q f r) g := by
  obtain ⟨a, ha, da⟩ := C122_durations (o := o) hr hq
  rw [div_mul_cancel₀ _ q.seconds_pos.ne'] at da
  obtain ⟨g, hg, -⟩ := Settles.arith o op (a := .ff f a) ⟨hf, da⟩ fun e =>
    div_ne_zero (h0 e) p.seconds_pos.ne'
  refine ⟨g, ?_⟩
  simp only [Chrono.assign, Fraction.assignF, if_true]
  exact Settles.bind ha hg

theorem op_scaled {k : ℚ} (hk : k ≠ 0) (h : op.Exact (x / k) (y / k) g)
    (ho : op = .plus ∨ op = .minus ∨ op = .modulus) (hz : op.value x y = some z) :
    Denotes g (z / k) := by
  rcases ho with rfl | rfl | rfl <;>
    simp only [ArithOp.value, Option.some.injEq, Option.ite_none_left_eq_some] at hz
  · subst hz; rw [add_div]; exact h
  · subst hz; rw [sub_div]; exact h
  · obtain ⟨-, rfl⟩ := hz
    have := h.2
    rw [div_div_div_cancel_right₀ hk] at this
    rw [sub_div, mul_div_right_comm]
    exact this

theorem updateCount_exact {a b : Bool} (hst : s.updatable op t = true)
    (hl : Stands s (.frac f) x) (hr : Stands t v y) (h : updateCount T o op s t f v ⇓ g)
    (hz : op.value x (if op = .modulus then y * modUnit (some ⟨a, s⟩) (some ⟨b, t⟩) else y) =
      some z) : Stands s (.frac g) z := by
  cases s with
  | num =>
    cases t <;> simp only [Shape.updatable, Bool.false_eq_true] at hst
    simp only [Stands, Shape.unit, div_one] at hl hr ⊢
    simp only [modUnit, mul_one, ite_self] at hz
    cases v with
    | frac k =>
      simp only [updateCount, Fraction.assignF, if_true, Fraction.arith_self] at h
      exact op_value_exact (Ops.arith_exact (a := .ff f k) ⟨hl, hr⟩ h) hz
    | int n =>
      simp only [updateCount, Fraction.assignR, if_true, Fraction.arith_self] at h
      have := Ops.arith_exact (a := .fr f n) (x := x) (y := (n : ℚ)) ⟨hl, rfl⟩ h
      rw [show (n : ℚ) = y from hr] at this
      exact op_value_exact this hz
  | dur p =>
    have p0 := p.seconds_pos.ne'
    cases t with
    | num =>
      simp only [Stands, Shape.unit, div_one] at hl hr
      simp only [updateCount, Fraction.assignF, if_true, Fraction.arith_self] at h
      have k := Ops.arith_exact (a := .ff f v.toFraction) ⟨hl, toFraction_denotes hr⟩ h
      show Denotes g (z / p.seconds)
      cases op <;> simp only [Shape.updatable, Bool.false_eq_true] at hst <;>
        simp only [reduceCtorEq, if_false, if_true, modUnit, ArithOp.value,
          Option.ite_none_left_eq_some, Option.some.injEq] at hz
      · subst hz
        rw [mul_div_right_comm]
        exact k
      · obtain ⟨y0, rfl⟩ := hz
        rw [div_right_comm]
        exact k.1 y0
      · obtain ⟨-, rfl⟩ := hz
        have e : (x - y * p.seconds * ratTrunc (x / (y * p.seconds))) / p.seconds =
            x / p.seconds - y * ratTrunc (x / p.seconds / y) := by
          rw [div_div, mul_comm p.seconds y]
          field_simp
        rw [e]
        exact k.2
    | dur q =>
      refine op_scaled p0 (assign_exact' hl hr h) ?_ (z := z) ?_
      · cases op <;> simp_all [Shape.updatable]
      · simpa only [modUnit, mul_one, ite_self] using hz
    | tp q => cases op <;> simp only [Shape.updatable, Bool.false_eq_true] at hst
  | tp p =>
    have p0 := p.seconds_pos.ne'
    cases t with
    | num => cases op <;> simp only [Shape.updatable, Bool.false_eq_true] at hst
    | dur q =>
      refine op_scaled p0 (assign_exact' hl hr h) ?_ (z := z) ?_
      · cases op <;> simp_all [Shape.updatable]
      · simpa only [modUnit, mul_one, ite_self] using hz
    | tp q => cases op <;> simp only [Shape.updatable, Bool.false_eq_true] at hst

theorem updateCount_settles (o : Ops) (hst : s.updatable op t = true)
    (hl : Stands s (.frac f) x) (hr : Stands t v y) (h0 : op = .modulus → y ≠ 0) :
    ∃ g, Settles (fun T => updateCount T o op s t f v) g := by
  have h1 : op = .modulus → y / t.unit ≠ 0 := fun e => div_ne_zero (h0 e) (unit_pos t).ne'
  have two : ∀ {p q : Period}, (ratioDivide q p).isSome = true → Denotes f (x / p.seconds) →
      v.Is (y / q.seconds) → ∃ g, Settles (fun T => Chrono.assign T o op p q f v) g :=
    fun h hl hr => assign_settles o (ratioDivide_isSome.1 h) hl hr h0
  cases s with
  | num =>
    cases t <;> simp only [Shape.updatable, Bool.false_eq_true] at hst
    simp only [Shape.unit, div_one] at h1
    simp only [Stands, Shape.unit, div_one] at hl hr
    cases v with
    | frac k =>
      simp only [updateCount, Fraction.assignF, if_true]
      obtain ⟨g, hg, -⟩ := Settles.arith o op (a := .ff f k) ⟨hl, hr⟩ h1
      exact ⟨g, hg⟩
    | int n =>
      simp only [updateCount, Fraction.assignR, if_true]
      obtain ⟨g, hg, -⟩ := Settles.arith o op (a := .fr f n) (y := (n : ℚ)) ⟨hl, rfl⟩
        (by rw [show (n : ℚ) = y from hr]; exact h1)
      exact ⟨g, hg⟩
  | dur p =>
    cases t with
    | num =>
      simp only [updateCount, Fraction.assignF, if_true]
      obtain ⟨g, hg, -⟩ := Settles.arith o op (a := .ff f v.toFraction)
        ⟨hl, toFraction_denotes hr⟩ h1
      exact ⟨g, hg⟩
    | dur q =>
      refine two ?_ hl hr
      cases op <;> simp_all [Shape.updatable]
    | tp q => cases op <;> simp only [Shape.updatable, Bool.false_eq_true] at hst
  | tp p =>
    cases t with
    | num => cases op <;> simp only [Shape.updatable, Bool.false_eq_true] at hst
    | dur q =>
      refine two ?_ hl hr
      cases op <;> simp_all [Shape.updatable]
    | tp q => cases op <;> simp only [Shape.updatable, Bool.false_eq_true] at hst

theorem models_set {x : ℕ} {z : ℚ} (hσ : Models Γ σ ρ) (hx : (Γ x).frac = true)
    (h : Stands (Γ x).shape (.frac f) z) :
    Models Γ (setCount σ x f) (Function.update ρ x z) := by
  intro y
  by_cases e : y = x
  · subst e
    simp only [setCount, if_true, Function.update_self]
    exact ⟨hx, h⟩
  · simp only [setCount, if_neg e, Function.update_of_ne e]
    exact hσ y

theorem assignCount_noThrow (h : s.assignable t = true) : (assignCount T o s t v).NoThrow := by
  rcases assignable_unit h with ⟨rfl, rfl⟩ | ⟨p, q, hf, ⟨rfl, rfl⟩ | ⟨rfl, rfl⟩⟩
  · exact NoThrow.pure _
  · exact convert_noThrow hf
  · exact convert_noThrow hf

theorem assign_noThrow (h : (ratioDivide q p).isSome = true) :
    (Chrono.assign T o op p q f v).NoThrow := by
  refine NoThrow.bind (convert_noThrow (ratioDivide_isSome.1 h)) fun y => ?_
  rw [Fraction.assignF, if_pos rfl]
  exact Fraction.arith_noThrow _ _ _ _ _

theorem updateCount_noThrow (h : s.updatable op t = true) :
    (updateCount T o op s t f v).NoThrow := by
  cases s <;> cases t <;> cases v <;> simp only [Shape.updatable, Bool.false_eq_true] at h <;>
    simp only [updateCount, Fraction.assignF, Fraction.assignR, if_true] <;>
    first
    | exact Fraction.arith_noThrow _ _ _ _ _
    | (refine assign_noThrow ?_; cases op <;> simp_all; done)

theorem compare_noThrow {cop : CmpOp} {e1 e2 : TimeExpr} (hσ : ∀ x, (Γ x).Has (σ x))
    (hc : e1.comparable Γ e2 = true) : (TimeExpr.compare T o Γ σ cop e1 e2).NoThrow := by
  obtain ⟨a, b, s, t, p, q, c, ha, hb, hf, hc, hs⟩ := comparable_iff.1 hc
  rw [compare_eq ha hb hf hc hs]
  exact NoThrow.bind (run_noThrow hσ ha) fun _ => NoThrow.bind (run_noThrow hσ hb) fun _ =>
    cmp_fits_noThrow hc

theorem compare_sim {T' : IntTy} (h : T.Within T') (cop : CmpOp) (e1 e2 : TimeExpr) :
    (TimeExpr.compare T o Γ σ cop e1 e2).Sim (TimeExpr.compare T' o Γ σ cop e1 e2) := by
  unfold TimeExpr.compare
  split
  · split
    · exact .bind (run_sim h _) fun _ => .bind (run_sim h _) fun _ => cmp_sim h _ _ _ _ _ _
    · exact .refl _
  · split
    · exact .bind (run_sim h _) fun _ => .bind (run_sim h _) fun _ => cmp_sim h _ _ _ _ _ _
    · exact .refl _
  · exact .refl _

theorem assign_sim {T' : IntTy} (h : T.Within T') :
    (Chrono.assign T o op p q f v).Sim (Chrono.assign T' o op p q f v) := by
  refine .bind (convert_sim h _ _ _ _) fun y => ?_
  simp only [Fraction.assignF, if_true]
  exact Fraction.arith_self_sim h o op _

theorem exec_sim {T' : IntTy} (h : T.Within T') : ∀ (n : ℕ) (c : TimeCmd) (σ : ℕ → Count),
    (c.exec T o Γ n σ).Sim (c.exec T' o Γ n σ)
  | 0, _, _ => .refl _
  | n + 1, .skip, σ => .refl _
  | n + 1, .assign x e, σ => by
      simp only [TimeCmd.exec]
      split
      · rename_i τ _
        refine .bind (run_sim h _) fun v => .bind ?_ fun _ => .refl _
        cases (Γ x).shape <;> cases τ.shape <;>
          first | exact .refl _ | exact convert_sim h _ _ _ _
      · exact .refl _
  | n + 1, .update op x e, σ => by
      simp only [TimeCmd.exec]
      split
      · rename_i τ _ _ _
        refine .bind (run_sim h _) fun v => .bind ?_ fun _ => .refl _
        cases (Γ x).shape <;> cases τ.shape <;> cases v <;>
          simp only [updateCount, Fraction.assignF, Fraction.assignR, if_true] <;>
          first
          | exact .refl _
          | exact Fraction.arith_self_sim h o op _
          | exact assign_sim h
      · exact .refl _
  | n + 1, .seq c d, σ => .bind (exec_sim h n c σ) fun r => by
      cases r with
      | none => exact .refl _
      | some m' => exact exec_sim h n d m'
  | n + 1, .ite op e1 e2 c d, σ => .bind (compare_sim h op e1 e2) fun b => by
      split
      · exact exec_sim h n c σ
      · exact exec_sim h n d σ
  | n + 1, .loop op e1 e2 c, σ => .bind (compare_sim h op e1 e2) fun b => by
      split
      · refine .bind (exec_sim h n c σ) fun r => ?_
        cases r with
        | none => exact .refl _
        | some m' => exact exec_sim h n (.loop op e1 e2 c) m'
      · exact .refl _

theorem moved_update {x : ℕ} {z k : ℚ} : moved Γ (Function.update ρ x z) k =
    Function.update (moved Γ ρ k) x (match (Γ x).shape with
      | .tp _ => z + k
      | _ => z) := by
  funext y
  by_cases e : y = x
  · subst e
    simp only [moved, Function.update_self]
    cases (Γ y).shape <;> rfl
  · simp only [moved, Function.update_of_ne e]

/-- If two periods have a common type, each converts to the other. -/
theorem fits_of_commonTy (h : commonTy p q = some c) : (ratioDivide q p).isSome = true := by
  obtain ⟨h1, ⟨h2, -⟩, h3, -⟩ := commonTy_eq_some.1 h
  obtain ⟨c0, k, m, hk, hm⟩ := commonPeriod_measure h1
  rw [ratioDivide_isSome]
  have e1 : conversionFactor p c = k := by rw [conversionFactor, hk, mul_div_cancel_right₀ _ c0.ne']
  have e2 : conversionFactor q c = m := by rw [conversionFactor, hm, mul_div_cancel_right₀ _ c0.ne']
  rw [e1, Rat.num_natCast] at h2
  rw [e2, Rat.num_natCast] at h3
  have k0 : 0 < k := by
    rcases Nat.eq_zero_or_pos k with rfl | hk0
    · have := p.seconds_pos; rw [hk] at this; simp at this
    · exact hk0
  have m0 : 0 < m := by
    rcases Nat.eq_zero_or_pos m with rfl | hm0
    · have := q.seconds_pos; rw [hm] at this; simp at this
    · exact hm0
  have e : conversionFactor q p = ((m : ℤ) : ℚ) / ((k : ℤ) : ℚ) := by
    rw [conversionFactor, hk, hm, mul_div_mul_right _ _ c0.ne']
    push_cast; rfl
  have a1 := Int.le_of_dvd (by exact_mod_cast m0) (Rat.num_dvd (m : ℤ) (b := (k : ℤ)) (by omega))
  have a2 := Int.le_of_dvd (by exact_mod_cast k0) (Rat.den_dvd (m : ℤ) (k : ℤ))
  have a3 : 0 < (conversionFactor q p).num := Rat.num_pos.2 (div_pos q.seconds_pos p.seconds_pos)
  have a4 : 0 < (conversionFactor q p).den := Rat.den_pos _
  have e' : ((m : ℤ) : ℚ) / ((k : ℤ) : ℚ) = Rat.divInt m k := by rw [Rat.divInt_eq_div]
  rw [← e', ← e] at a1 a2
  have b2 := h2.2
  have b3 := h3.2
  have c1 : i64.min < 0 := by decide
  exact ⟨⟨by omega, by omega⟩, ⟨by omega, by omega⟩⟩

theorem updatable_of_result (h : Shape.result op s t = some u) (ha : s.assignable u = true) :
    s.updatable op t = true := by
  cases s <;> cases t <;> cases op <;>
    simp only [Shape.result, Option.some.injEq, reduceCtorEq, Option.map_eq_some_iff] at h <;>
    first
    | rfl
    | (obtain ⟨c, hc, rfl⟩ := h
       first
       | exact fits_of_commonTy hc
       | (simp only [Shape.assignable, Bool.false_eq_true] at ha))

end Ieme.Chrono
