import Verif.Lemmas.TimeExpr

/-!
# Expressions over durations and time points: property C130
-/

namespace Ieme

open Res IntTy Chrono

variable {T T' : IntTy} {o o' : Ops} {Γ : ℕ → TimeTy} {σ σ' : ℕ → Count} {ρ : ℕ → ℚ}
  {e e1 e2 : TimeExpr} {τ : TimeTy} {v v' : Count} {p q r c d : Period} {t u : ℚ}

/-- **C130** An expression that compiles returns an object of its static type. -/
theorem C130_typed {w : Bool} (hσ : ∀ x, (Γ x).Has (σ x)) (ht : e.ty Γ = some τ)
    (h : e.run T o Γ σ = .ok v w) : τ.Has v := by
  cases e with
  | var x =>
    obtain rfl : Γ x = τ := by simpa [TimeExpr.ty] using ht
    obtain rfl := (pure_eq_ok.1 h).1
    exact hσ x
  | neg e =>
    obtain ⟨a, w1, w2, h1, h2, -⟩ := bind_eq_ok.1 h
    cases a with
    | int n => cases h2
    | frac f =>
      obtain ⟨g, w3, w4, h3, h4, -⟩ := bind_eq_ok.1 h2
      obtain rfl := (pure_eq_ok.1 h4).1
      simp only [TimeExpr.ty] at ht
      split at ht <;> simp only [Option.some.injEq, reduceCtorEq] at ht <;> subst ht <;> rfl
  | bin op e1 e2 =>
    simp only [TimeExpr.run] at h
    simp only [TimeExpr.ty] at ht
    split at h
    · rename_i a b ha hb
      rw [ha, hb] at ht
      obtain ⟨x, w1, w2, -, h2, -⟩ := bind_eq_ok.1 h
      obtain ⟨y, w3, w4, -, h3, -⟩ := bind_eq_ok.1 h2
      obtain ⟨f, w5, w6, -, h4, -⟩ := bind_eq_ok.1 h3
      obtain rfl := (pure_eq_ok.1 h4).1
      exact (result_frac ht).1
    · cases h
  | cast q e =>
    simp only [TimeExpr.run] at h
    simp only [TimeExpr.ty] at ht
    split at h
    all_goals first
      | cases h
        done
      | (rename_i ha
         rw [ha] at ht
         simp only [Option.ite_none_right_eq_some, Option.some.injEq] at ht
         obtain ⟨-, rfl⟩ := ht
         obtain ⟨x, w1, w2, -, h2, -⟩ := bind_eq_ok.1 h
         obtain ⟨f, w5, w6, -, h4, -⟩ := bind_eq_ok.1 h2
         obtain rfl := (pure_eq_ok.1 h4).1
         rfl)

/-- **C130** An expression over durations, time points and numbers, of any periods and any
depth, that has a meaning over the rational numbers and runs without overflow returns an object
that stands for exactly that. -/
theorem C130_exact (hσ : Models Γ σ ρ) (ht : e.ty Γ = some τ) (hv : e.value Γ ρ = some t)
    (h : e.run T o Γ σ ⇓ v) : Stands τ.shape v t := by
  induction e generalizing τ v t with
  | var x =>
    obtain rfl : Γ x = τ := by simpa [TimeExpr.ty] using ht
    obtain rfl : ρ x = t := by simpa [TimeExpr.value] using hv
    obtain rfl := (pure_eq_ok.1 h).1
    exact (hσ x).2
  | neg e ih =>
    simp only [TimeExpr.value, Option.map_eq_some_iff] at hv
    obtain ⟨t', hv, rfl⟩ := hv
    obtain ⟨a, h1, h2⟩ := bind_eq_clean.1 h
    cases a with
    | int n => cases h2
    | frac f =>
      obtain ⟨g, h3, h4⟩ := bind_eq_clean.1 h2
      obtain rfl := (pure_eq_ok.1 h4).1
      simp only [TimeExpr.ty] at ht
      split at ht <;> simp only [Option.some.injEq, reduceCtorEq] at ht <;> subst ht
      all_goals
        rename_i he
        have := ih he hv h1
        show Denotes g (-t' / _)
        rw [neg_div]
        exact C06_neg_exact this h3
  | bin op e1 e2 ih1 ih2 =>
    simp only [TimeExpr.run] at h
    simp only [TimeExpr.ty] at ht
    simp only [TimeExpr.value, Option.bind_eq_some_iff] at hv
    obtain ⟨x', hx', y', hy', hv⟩ := hv
    split at h
    · rename_i a b ha hb
      rw [ha, hb] at ht hv
      obtain ⟨x, h1, h2⟩ := bind_eq_clean.1 h
      obtain ⟨y, h3, h4⟩ := bind_eq_clean.1 h2
      obtain ⟨f, h5, h6⟩ := bind_eq_clean.1 h4
      obtain rfl := (pure_eq_ok.1 h6).1
      exact applyOp_exact (result_frac ht).2 (ih1 ha hx' h1) (ih2 hb hy' h3) h5 hv
    · cases h
  | cast q e ih =>
    simp only [TimeExpr.run] at h
    simp only [TimeExpr.ty] at ht
    simp only [TimeExpr.value] at hv
    split at h
    all_goals first
      | cases h
        done
      | (rename_i p ha
         rw [ha] at ht
         simp only [Option.ite_none_right_eq_some, Option.some.injEq] at ht
         obtain ⟨-, rfl⟩ := ht
         obtain ⟨x, h1, h2⟩ := bind_eq_clean.1 h
         obtain ⟨f, h3, h4⟩ := bind_eq_clean.1 h2
         obtain rfl := (pure_eq_ok.1 h4).1
         have := C67_duration_cast_exact (ih ha hv h1) h3
         simp only [Shape.unit] at this
         rwa [div_mul_cancel₀ _ p.seconds_pos.ne'] at this)

/-- What compiles does not fail to compile. -/
theorem Chrono.run_noThrow (hσ : ∀ x, (Γ x).Has (σ x)) (h : e.ty Γ = some τ) :
    (e.run T o Γ σ).NoThrow := by
  revert τ
  induction e with
  | var x => exact fun _ => NoThrow.pure _
  | neg e ih =>
    intro τ ht
    simp only [TimeExpr.ty] at ht
    have ok : ∃ s, e.ty Γ = some ⟨true, s⟩ := by
      split at ht
      · exact ⟨_, ‹_›⟩
      · exact ⟨_, ‹_›⟩
      · cases ht
    obtain ⟨s, hs⟩ := ok
    refine noThrow_bind (ih hs) fun a w ha => ?_
    have := C130_typed hσ hs ha
    cases a with
    | int n => cases this
    | frac f => exact NoThrow.bind neg_noThrow fun _ => NoThrow.pure _
  | bin op e1 e2 ih1 ih2 =>
    intro τ ht
    simp only [TimeExpr.ty] at ht
    simp only [TimeExpr.run]
    split at ht
    · rename_i a b ha hb
      refine noThrow_bind (ih1 ha) fun x w hx => noThrow_bind (ih2 hb) fun y w' hy => ?_
      exact NoThrow.bind (applyOp_noThrow ht (C130_typed hσ ha hx) (C130_typed hσ hb hy))
        fun _ => NoThrow.pure _
    · cases ht
  | cast q e ih =>
    intro τ ht
    simp only [TimeExpr.ty] at ht
    simp only [TimeExpr.run]
    split at ht
    all_goals first
      | cases ht
        done
      | (rename_i ha
         simp only [Option.ite_none_right_eq_some] at ht
         exact NoThrow.bind (ih ha) fun _ => NoThrow.bind
           (convert_noThrow (ratioDivide_isSome.1 ht.1)) fun _ => NoThrow.pure _)

/-- **C130** The compiler rejects an expression exactly when an operator in it does not exist or
a conversion factor does not fit: nothing that depends on the counts. -/
theorem C130_rejected_iff (hσ : ∀ x, (Γ x).Has (σ x)) :
    e.eval T o Γ σ = .fault .illFormed ↔ e.ty Γ = none := by
  unfold TimeExpr.eval
  cases ht : e.ty Γ with
  | none => simp
  | some τ => simpa using fun he => ((run_noThrow hσ ht) _ he).2 rfl

/-- **C130** Which operators exist: an operation compiles exactly when one operand counts in
fractions, the operands have a common type, and the dimension of the result is that of a number,
a duration or a time point; and then the result is that. -/
theorem C130_operators {op : ArithOp} {a b : TimeTy} {s : Shape}
    (hs : dimension op a.shape b.shape = some (s.power, s.epochs)) :
    ((TimeTy.result op a b).isSome ↔ (a.frac = true ∨ b.frac = true) ∧
      Comparable a.shape b.shape) ∧
    ∀ τ, TimeTy.result op a b = some τ →
      τ.frac = true ∧ τ.shape.power = s.power ∧ τ.shape.epochs = s.epochs := by
  obtain ⟨a, sa⟩ := a
  obtain ⟨b, sb⟩ := b
  have key : ∀ {p q : Period} {g : Period → Shape}, ((commonTy p q).map g).isSome ↔
      ∃ c, commonPeriod p q = some c ∧ FitsParts i64 (conversionFactor p c) ∧
        FitsParts i64 (conversionFactor q c) := by
    intro p q g
    simp only [Option.isSome_map, Option.isSome_iff_exists, commonTy_eq_some]
  have fin : ∀ {x : Option Shape}, (x.isSome ↔ Comparable sa sb) →
      (∀ u, x = some u → u.power = s.power ∧ u.epochs = s.epochs) →
      Shape.result op sa sb = x →
      ((TimeTy.result op ⟨a, sa⟩ ⟨b, sb⟩).isSome ↔ (a = true ∨ b = true) ∧ Comparable sa sb) ∧
      ∀ τ, TimeTy.result op ⟨a, sa⟩ ⟨b, sb⟩ = some τ →
        τ.frac = true ∧ τ.shape.power = s.power ∧ τ.shape.epochs = s.epochs := by
    intro x h1 h2 h3
    refine ⟨?_, fun τ h => ?_⟩
    · rw [← h1, ← h3, TimeTy.result]
      split <;> simp_all
    · obtain ⟨h4, h5⟩ := result_frac h
      exact ⟨h4, h2 _ (h3 ▸ h5)⟩
  refine fin (x := Shape.result op sa sb) ?_ ?_ rfl
  · cases sa <;> cases sb <;> cases op <;>
      simp only [dimension, Shape.power, Shape.epochs, Shape.result, key, Comparable,
        Shape.period?, Option.some.injEq, reduceCtorEq, Option.isSome_some, Option.isSome_none,
        forall_eq', false_imp_iff, implies_true, Prod.mk.injEq] at hs ⊢ <;>
      first
      | (cases s <;> simp [Shape.power, Shape.epochs] at hs; done)
      | simp
  · intro u hu
    cases sa <;> cases sb <;> cases op <;>
      simp only [dimension, Shape.result, Option.map_eq_some_iff, Option.some.injEq,
        reduceCtorEq] at hs hu <;>
      first
      | (subst hu; simpa [Shape.power, Shape.epochs] using hs)
      | (obtain ⟨c, -, rfl⟩ := hu; simpa [Shape.power, Shape.epochs] using hs)

/-- **C130** Operations whose result has no such dimension do not compile. -/
theorem C130_no_operator {op : ArithOp} {a b : TimeTy}
    (hs : ∀ s : Shape, dimension op a.shape b.shape ≠ some (s.power, s.epochs)) :
    TimeTy.result op a b = none := by
  obtain ⟨a, sa⟩ := a
  obtain ⟨b, sb⟩ := b
  rw [Option.eq_none_iff_forall_ne_some]
  intro τ h
  obtain ⟨-, h⟩ := result_frac h
  have h0 := hs τ.shape
  revert h0
  cases sa <;> cases sb <;> cases op <;>
    simp only [Shape.result, Option.map_eq_some_iff, Option.some.injEq, reduceCtorEq] at h <;>
    first
    | (rw [← h]; simp [dimension, Shape.power, Shape.epochs])
    | (obtain ⟨c, -, h⟩ := h; rw [← h]; simp [dimension, Shape.power, Shape.epochs])

/-- **C130** Comparisons of two expressions compare what they stand for, `==` and `!=` for every
policy, the others for policies built on `safe`, the default among them. -/
theorem C130_compare {op : CmpOp} {b : Bool} (hσ : Models Γ σ ρ) (ho : op.IsOrder → o.SafeBased)
    (h1 : e1.value Γ ρ = some t) (h2 : e2.value Γ ρ = some u)
    (h : TimeExpr.compare T o Γ σ op e1 e2 ⇓ b) : b = true ↔ op.Holds t u := by
  have key : ∀ {s s' : Shape} {a a' : Bool} {p q : Period}, s.unit = p.seconds →
      s'.unit = q.seconds → e1.ty Γ = some ⟨a, s⟩ → e2.ty Γ = some ⟨a', s'⟩ →
      (e1.run T o Γ σ >>= fun x => e2.run T o Γ σ >>= fun y => cmp T o op p q x y) ⇓ b →
      (b = true ↔ op.Holds t u) := by
    intro s s' a a' p q hs hs' ha hb h
    obtain ⟨x, hx, h⟩ := bind_eq_clean.1 h
    obtain ⟨y, hy, h⟩ := bind_eq_clean.1 h
    have lx : Lasts p x t := by rw [Lasts, ← hs]; exact C130_exact hσ ha h1 hx
    have ly : Lasts q y u := by rw [Lasts, ← hs']; exact C130_exact hσ hb h2 hy
    by_cases hi : op.IsOrder
    · exact C88_compare_exact_partial lx ly (Or.inl (ho hi)) h
    · cases op
      · exact (C88_eq_exact lx ly).1 h
      · exact (C88_eq_exact lx ly).2 h
      all_goals exact absurd trivial hi
  unfold TimeExpr.compare at h
  split at h
  · rename_i ha hb
    split at h
    · exact key rfl rfl ha hb h
    · cases h
  · rename_i ha hb
    split at h
    · exact key rfl rfl ha hb h
    · cases h
  · cases h

/-- **C130** A comparison compiles exactly when both sides are durations or both are time points,
one of them counts in fractions, and they have a common type. -/
theorem C130_compare_rejected_iff {op : CmpOp} {a b : TimeTy} (hσ : ∀ x, (Γ x).Has (σ x))
    (h1 : e1.ty Γ = some a) (h2 : e2.ty Γ = some b) :
    TimeExpr.compare T o Γ σ op e1 e2 ≠ .fault .illFormed ↔ (a.frac = true ∨ b.frac = true) ∧
      a.shape.power = 1 ∧ b.shape.power = 1 ∧ a.shape.epochs = b.shape.epochs ∧
      Comparable a.shape b.shape := by
  obtain ⟨a, sa⟩ := a
  obtain ⟨b, sb⟩ := b
  have key : ∀ {p q : Period},
      (if (a = true ∨ b = true) ∧ (commonTy p q).isSome = true then do
        let x ← e1.run T o Γ σ
        let y ← e2.run T o Γ σ
        cmp T o op p q x y
      else .fault .illFormed) ≠ .fault .illFormed ↔ (a = true ∨ b = true) ∧
        ∃ c, commonPeriod p q = some c ∧ FitsParts i64 (conversionFactor p c) ∧
          FitsParts i64 (conversionFactor q c) := by
    intro p q
    have e : (commonTy p q).isSome = true ↔ ∃ c, commonPeriod p q = some c ∧
        FitsParts i64 (conversionFactor p c) ∧ FitsParts i64 (conversionFactor q c) := by
      simp only [Option.isSome_iff_exists, commonTy_eq_some]
    rw [← e]
    split
    · rename_i h
      refine ⟨fun _ => h, fun _ => ?_⟩
      obtain ⟨c, hc⟩ := Option.isSome_iff_exists.1 h.2
      exact fun e => ((NoThrow.bind (run_noThrow hσ h1) fun _ => NoThrow.bind (run_noThrow hσ h2)
        fun _ => cmp_fits_noThrow hc) _ e).2 rfl
    · rename_i h
      exact ⟨fun h' => absurd rfl h', fun h' => absurd h' h⟩
  unfold TimeExpr.compare
  rw [h1, h2]
  cases sa <;> cases sb <;> simp [Shape.power, Shape.epochs, Comparable, Shape.period?, key]

/-- **C130** The choice of the epoch does not matter: when all time points are moved by the same
time, durations and numbers computed from them are the same and time points are moved by it. -/
theorem C130_epoch (s : ℚ) (ht : e.ty Γ = some τ) : e.value Γ (moved Γ ρ s) =
    (e.value Γ ρ).map fun t => match τ.shape with
      | .tp _ => t + s
      | _ => t := by
  induction e generalizing τ with
  | var x =>
    obtain rfl : Γ x = τ := by simpa [TimeExpr.ty] using ht
    simp only [TimeExpr.value, moved, Option.map_some, Option.some.injEq]
    cases (Γ x).shape <;> rfl
  | neg e ih =>
    simp only [TimeExpr.ty] at ht
    split at ht <;> simp only [Option.some.injEq, reduceCtorEq] at ht <;> subst ht
    all_goals
      rename_i he
      simp only [TimeExpr.value, ih he, Option.map_map]
      rfl
  | cast q e ih =>
    simp only [TimeExpr.ty] at ht
    split at ht
    all_goals first
      | cases ht
        done
      | (rename_i ha
         simp only [Option.ite_none_right_eq_some, Option.some.injEq] at ht
         obtain ⟨-, rfl⟩ := ht
         simp only [TimeExpr.value, ih ha])
  | bin op e1 e2 ih1 ih2 =>
    simp only [TimeExpr.ty] at ht
    split at ht
    · rename_i a b ha hb
      obtain ⟨-, hs⟩ := result_frac ht
      simp only [TimeExpr.value, ih1 ha, ih2 hb, ha, hb]
      obtain ⟨a, sa⟩ := a
      obtain ⟨b, sb⟩ := b
      obtain ⟨f, st⟩ := τ
      simp only at hs
      cases e1.value Γ ρ with
      | none => rfl
      | some x =>
        cases e2.value Γ ρ with
        | none => rfl
        | some y =>
          cases sa <;> cases sb <;> cases op <;>
            simp only [Shape.result, Option.map_eq_some_iff, Option.some.injEq,
              reduceCtorEq] at hs <;>
            first
            | (obtain ⟨c, -, rfl⟩ := hs
               simp [ArithOp.value, modUnit]; try ring)
            | (subst hs
               simp [ArithOp.value, modUnit]; try ring)
    · cases ht

/-- **C130** Two runs of an expression with all time points moved by `s` seconds, under any two
policies and representations: durations and numbers stand for the same, time points differ by
`s`. -/
theorem C130_epoch_run {s : ℚ} (hσ : Models Γ σ ρ) (hσ' : Models Γ σ' (moved Γ ρ s))
    (ht : e.ty Γ = some τ) (hv : e.value Γ ρ = some t) (h : e.run T o Γ σ ⇓ v)
    (h' : e.run T' o' Γ σ' ⇓ v') : Stands τ.shape v t ∧ Stands τ.shape v' (match τ.shape with
      | .tp _ => t + s
      | _ => t) :=
  ⟨C130_exact hσ ht hv h, C130_exact hσ' ht ((C130_epoch s ht).trans (by rw [hv]; rfl)) h'⟩

/-- **C130** A wider representation never changes the result. -/
theorem C130_widen (hT : T.Within T') (h : e.run T o Γ σ ⇓ v) : e.run T' o Γ σ ⇓ v :=
  run_sim hT e v h

/-- **C130** The period of a sum of three durations does not depend on how they are grouped, if
both groupings compile. -/
theorem C130_grouping {c' d' : Period} (h1 : commonTy p q = some c) (h2 : commonTy c r = some d)
    (h3 : commonTy q r = some c') (h4 : commonTy p c' = some d') : d = d' := by
  obtain ⟨a1, b1⟩ := commonPeriod_parts (commonTy_eq_some.1 h1).1
  obtain ⟨a2, b2⟩ := commonPeriod_parts (commonTy_eq_some.1 h2).1
  obtain ⟨a3, b3⟩ := commonPeriod_parts (commonTy_eq_some.1 h3).1
  obtain ⟨a4, b4⟩ := commonPeriod_parts (commonTy_eq_some.1 h4).1
  refine period_ext ?_ ?_
  · rw [a2, a4, a1, a3]
    simp only [Int.gcd, Int.natAbs_natCast, Nat.gcd_assoc]
  · rw [b2, b4, b1, b3]
    simp only [Int.lcm, Int.natAbs_natCast, Nat.lcm_assoc]

private def big : Period := ⟨1000000000000000000, 1, by decide, by decide, by decide⟩
private def sec : Period := ⟨1, 1, by decide, by decide, by decide⟩
private def ms : Period := ⟨1, 1000, by decide, by decide, by decide⟩
private def atto : Period := ⟨1, 1000000000000000000, by decide, by decide, by decide⟩

private def three (x : ℕ) : TimeTy :=
  ⟨true, .dur (if x = 0 then big else if x = 1 then sec else atto)⟩

/-- **C130** (negation) Whether a sum of three durations compiles depends on how they are
grouped: of durations in 10^18 seconds, seconds and attoseconds the sum compiles when the first
two are added first but not when the last two are. -/
theorem C130_grouping_matters : ¬ ∀ (Γ : ℕ → TimeTy) (a b c : TimeExpr),
    ((TimeExpr.bin .plus (.bin .plus a b) c).ty Γ).isSome =
      ((TimeExpr.bin .plus a (.bin .plus b c)).ty Γ).isSome := by
  intro h
  have := h three (.var 0) (.var 1) (.var 2)
  revert this
  decide +kernel

private def frame : Period := ⟨1001, 30000, by decide, by decide, by decide⟩

/-- Variables for the examples: `x0` a fractional time point in milliseconds, `x1` one of the
standard library in seconds, `x2` a duration in frames, `x3` an integer. -/
private def ctx : ℕ → TimeTy
  | 0 => ⟨true, .tp ms⟩
  | 1 => ⟨false, .tp sec⟩
  | 2 => ⟨true, .dur frame⟩
  | _ => ⟨false, .num⟩

private def vals : ℕ → Count
  | 0 => .frac ⟨25025, 2⟩
  | 1 => .int 11
  | 2 => .frac ⟨5, 2⟩
  | _ => .int 3

private def means : ℕ → ℚ
  | 0 => 1001 / 80
  | 1 => 11
  | 2 => 1001 / 12000
  | _ => 3

private def vals_moved : ℕ → Count
  | 0 => .frac ⟨29025, 2⟩
  | 1 => .int 13
  | n => vals n

example : Models ctx vals means := fun
  | 0 => ⟨rfl, by norm_num [Stands, ctx, vals, means, Count.Is, Denotes, Shape.unit,
      Period.seconds, ms]⟩
  | 1 => ⟨rfl, by norm_num [Stands, ctx, vals, means, Count.Is, Shape.unit, Period.seconds, sec]⟩
  | 2 => ⟨rfl, by norm_num [Stands, ctx, vals, means, Count.Is, Denotes, Shape.unit,
      Period.seconds, frame]⟩
  | _ + 3 => ⟨rfl, show ((3 : ℤ) : ℚ) = 3 / 1 by norm_num⟩

example : Models ctx vals_moved (moved ctx means 2) := fun
  | 0 => ⟨rfl, by norm_num [Stands, ctx, vals_moved, moved, means, Count.Is, Denotes, Shape.unit,
      Period.seconds, ms]⟩
  | 1 => ⟨rfl, by norm_num [Stands, ctx, vals_moved, moved, means, Count.Is, Shape.unit,
      Period.seconds, sec]⟩
  | 2 => ⟨rfl, by norm_num [Stands, ctx, vals_moved, moved, vals, means, Count.Is, Denotes,
      Shape.unit, Period.seconds, frame]⟩
  | _ + 3 => ⟨rfl, show ((3 : ℤ) : ℚ) = 3 / 1 by norm_num⟩

/-- `(x0 - x1) / x2`, a number. -/
private def ratio : TimeExpr := .bin .divides (.bin .minus (.var 0) (.var 1)) (.var 2)
/-- `x0 - x2 * x3`, a time point. -/
private def back : TimeExpr := .bin .minus (.var 0) (.bin .multiplies (.var 2) (.var 3))
/-- `(x0 - x1) % x3`, the remainder of a number of milliseconds. -/
private def rest : TimeExpr := .bin .modulus (.bin .minus (.var 0) (.var 1)) (.var 3)

example : ratio.ty ctx = some ⟨true, .num⟩ ∧
    ratio.run i64 .defaults ctx vals ⇓ .frac ⟨1650, 91⟩ ∧
    ratio.run i64 .safe ctx vals_moved ⇓ .frac ⟨181500, 10010⟩ ∧
    ratio.value ctx means = some (1650 / 91) := by
  refine ⟨by rfl, by decide +kernel, by decide +kernel, ?_⟩
  simp only [ratio, TimeExpr.value, means, ArithOp.value, reduceCtorEq, if_false,
    Option.bind_some]
  norm_num

example : i32.Within i64 ∧ ratio.run i32 .defaults ctx vals ⇓ .frac ⟨1650, 91⟩ :=
  ⟨fun x h => ⟨by have := h.1; simp [IntTy.min, i32, i64] at *; omega,
    by have := h.2; simp [IntTy.max, i32, i64] at *; omega⟩, by decide +kernel⟩

example : (TimeExpr.cast sec back).ty ctx = some ⟨true, .tp sec⟩ ∧
    (TimeExpr.cast sec back).run i64 .defaults ctx vals ⇓ .frac ⟨49049, 4000⟩ ∧
    (TimeExpr.cast sec back).value ctx means = some (49049 / 4000) ∧
    TimeExpr.compare i64 .defaults ctx vals .less back (.var 1) ⇓ false := by
  refine ⟨by rfl, by decide +kernel, ?_, by decide +kernel⟩
  simp only [back, TimeExpr.value, means, ArithOp.value, reduceCtorEq, if_false,
    Option.bind_some]
  norm_num

example : rest.ty ctx = some ⟨true, .dur ms⟩ ∧
    rest.run i64 .defaults ctx vals ⇓ .frac ⟨1, 2⟩ ∧
    rest.value ctx means = some (1 / 2000) := by
  have e : ms.seconds = 1 / 1000 := by norm_num [Period.seconds, ms]
  refine ⟨by rfl, by decide +kernel, ?_⟩
  have : modUnit ((TimeExpr.bin .minus (.var 0) (.var 1)).ty ctx) ((TimeExpr.var 3).ty ctx) =
      ms.seconds := by rfl
  simp only [rest, TimeExpr.value, means, ArithOp.value, reduceCtorEq, if_false, if_true,
    Option.bind_some, this, e]
  norm_num [ratTrunc]

/-- What the compiler rejects: the sum of two time points, a time point times a number, and the
sum of an integer and a duration. -/
example : (TimeExpr.bin .plus (.var 0) (.var 1)).ty ctx = none ∧
    (TimeExpr.bin .multiplies (.var 0) (.var 3)).ty ctx = none ∧
    (TimeExpr.bin .plus (.var 3) (.var 2)).ty ctx = none := ⟨rfl, rfl, rfl⟩

/-- Three periods with both groupings. -/
example : (commonTy frame ms).bind (commonTy · sec) = commonTy frame ms ∧
    (commonTy frame ms).isSome ∧
    (commonTy ms sec).bind (commonTy frame) = commonTy frame ms := ⟨rfl, rfl, rfl⟩

end Ieme
