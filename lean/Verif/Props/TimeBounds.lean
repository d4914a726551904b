import Verif.Lemmas.TimeBounds

/-!
# A static check excludes overflow in programs over durations and time points: property C135
-/

namespace Ieme

open Res IntTy Chrono

variable {T : IntTy} {o : Ops} {Γ : ℕ → TimeTy} {σ : ℕ → Count} {ρ ρ' : ℕ → ℚ} {A : Bounds}
  {e e1 e2 : TimeExpr} {τ : TimeTy} {c : TimeCmd} {n : ℕ} {t u : ℚ}

/-- **C135** An expression over durations, time points and numbers that passes the static check
runs without overflow or wrap-around under every policy, from every contents of the variables
within the bounds: the result stands for the exact meaning, and its parts are within the bound
that the check computed from the types. -/
theorem C135_expressions (hσ : Models Γ σ ρ) (hw : WithinAll T A σ) (ht : e.ty Γ = some τ)
    (hb : e.Bounded T.max Γ A) (hn : T.signed = true ∨ e.StaysNonneg)
    (hv : e.value Γ ρ = some t) :
    ∃ v, e.eval T o Γ σ ⇓ v ∧ τ.Has v ∧ Stands τ.shape v t ∧ v.Within T (e.bound Γ A) := by
  obtain ⟨v, h, w⟩ := run_within (o := o) hσ hw ht hb hn hv
  exact ⟨v, by simpa only [TimeExpr.eval, ht] using h, C130_typed (fun x => (hσ x).1) ht h,
    C130_exact hσ ht hv h, w⟩

/-- **C135** A comparison that passes the check is decided without overflow, and correctly. -/
theorem C135_comparisons {op : CmpOp} (hσ : Models Γ σ ρ) (hw : WithinAll T A σ)
    (hc : e1.comparable Γ e2 = true) (hb : e1.CondBounded T.max Γ A e2)
    (hn : T.signed = true ∨ e1.StaysNonneg ∧ e2.StaysNonneg) (ho : op.IsOrder → o.SafeBased)
    (h1 : e1.value Γ ρ = some t) (h2 : e2.value Γ ρ = some u) :
    ∃ b, TimeExpr.compare T o Γ σ op e1 e2 ⇓ b ∧ (b = true ↔ op.Holds t u) := by
  obtain ⟨b, h⟩ := compare_within (o := o) op hσ hw hc hb hn h1 h2
  exact ⟨b, h, C130_compare hσ ho h1 h2 h⟩

/-- **C135** If a program that compiles terminates over the rational numbers and the static check
accepts it for `n` steps, then running it for `n` steps causes no overflow or wrap-around under
any policy built on `safe` (any policy at all if it only tests for equality): either it needs more
steps, or it ends with variables that stand for exactly the rational results, within the bounds
that the check computed. -/
theorem C135_checked_program {R : Outcome} (hr : TimeRuns Γ c ρ ρ') (hσ : Models Γ σ ρ)
    (hw : WithinAll T A σ) (hok : c.ok Γ = true) (ho : o.SafeBased ∨ c.OnlyEquality)
    (hn : T.signed = true ∨ c.StaysNonneg) (hk : c.check T.max Γ n A = some R) :
    c.exec T o Γ n σ ⇓ none ∨ ∃ σ' B, R = .within B ∧ c.exec T o Γ n σ ⇓ some σ' ∧
      Models Γ σ' ρ' ∧ WithinAll T B σ' := by
  rcases exec_within (o := o) hr hσ hw hok ho hn hk with h | ⟨σ', h1, h2⟩
  · exact .inl h
  · cases R with
    | unreached => exact h2.elim
    | within B => exact .inr ⟨σ', B, rfl, h1, C131_exact hr hσ hok ho h1, h2⟩

/-- **C135** From some number of steps on, whenever the check accepts that number, the program
completes with the exact results. -/
theorem C135_checked_completes (hr : TimeRuns Γ c ρ ρ') (hσ : Models Γ σ ρ)
    (hw : WithinAll T A σ) (hok : c.ok Γ = true) (ho : o.SafeBased ∨ c.OnlyEquality)
    (hn : T.signed = true ∨ c.StaysNonneg) :
    ∃ N, ∀ n ≥ N, c.check T.max Γ n A ≠ none →
      ∃ σ', c.main T o Γ n σ ⇓ some σ' ∧ Models Γ σ' ρ' := by
  obtain ⟨N, hN⟩ := C131_terminates hr hok
  refine ⟨N, fun n hge hk => ?_⟩
  obtain ⟨R, hR⟩ := Option.ne_none_iff_exists'.1 hk
  rcases C135_checked_program (o := o) hr hσ hw hok ho hn hR with h | ⟨σ', -, -, h1, h2, -⟩
  · exact absurd h (hN T o σ hσ ho n hge)
  · exact ⟨σ', by simpa only [TimeCmd.main, hok, if_true] using h1, h2⟩

/-- **C135** A program without loops that passes the check at its own depth completes, with the
exact results, within the bounds that the check computed. -/
theorem C135_loop_free {B : Bounds} (hl : c.LoopFree) (hr : TimeRuns Γ c ρ ρ')
    (hσ : Models Γ σ ρ) (hw : WithinAll T A σ) (hok : c.ok Γ = true)
    (ho : o.SafeBased ∨ c.OnlyEquality) (hn : T.signed = true ∨ c.StaysNonneg)
    (hk : c.check T.max Γ c.depth A = some (.within B)) :
    ∃ σ', c.main T o Γ c.depth σ ⇓ some σ' ∧ Models Γ σ' ρ' ∧ WithinAll T B σ' := by
  rcases C135_checked_program (o := o) hr hσ hw hok ho hn hk with h | ⟨σ', B', hB, h1, h2, h3⟩
  · exact absurd h (hl.completes le_rfl)
  · cases hB
    exact ⟨σ', by simpa only [TimeCmd.main, hok, if_true] using h1, h2, h3⟩

private def sec : Period := ⟨1, 1, by decide, by decide, by decide⟩
private def ms : Period := ⟨1, 1000, by decide, by decide, by decide⟩
private def frame : Period := ⟨1001, 30000, by decide, by decide, by decide⟩

/-- Variables for the example: `x0` a fractional time point in milliseconds, `x1` one of the
standard library in seconds, `x2` a duration in frames, `x3` an integer. -/
private def ctx : ℕ → TimeTy
  | 0 => ⟨true, .tp ms⟩
  | 1 => ⟨false, .tp sec⟩
  | 2 => ⟨true, .dur frame⟩
  | _ => ⟨false, .num⟩

private def vals : ℕ → Count
  | 0 => .frac ⟨25025, 2⟩
  | 1 => .int 13
  | 2 => .frac ⟨5, 2⟩
  | _ => .int 3

private def means : ℕ → ℚ
  | 0 => 1001 / 80
  | 1 => 13
  | 2 => 1001 / 12000
  | _ => 3

private theorem example_models : Models ctx vals means := fun
  | 0 => ⟨rfl, by norm_num [Stands, ctx, vals, means, Count.Is, Denotes, Shape.unit,
      Period.seconds, ms]⟩
  | 1 => ⟨rfl, by norm_num [Stands, ctx, vals, means, Count.Is, Shape.unit, Period.seconds, sec]⟩
  | 2 => ⟨rfl, by norm_num [Stands, ctx, vals, means, Count.Is, Denotes, Shape.unit,
      Period.seconds, frame]⟩
  | _ + 3 => ⟨rfl, show ((3 : ℤ) : ℚ) = 3 / 1 by norm_num⟩

/-- Initial bounds: denominators up to 2, up to 100 s, up to 25 frames, factors up to 3. -/
private def start : Bounds
  | 0 => ⟨100000, 2⟩
  | 1 => ⟨100, 1⟩
  | 2 => ⟨25, 2⟩
  | _ => ⟨3, 1⟩

private theorem example_within : WithinAll i32 start vals := fun
  | 0 => ⟨by decide, by decide, by decide⟩
  | 1 => ⟨by decide, by decide, by decide⟩
  | 2 => ⟨by decide, by decide, by decide⟩
  | _ + 3 => ⟨show 3 ≤ 3 by decide, show 1 ≤ 1 by decide, fun h => absurd h (by decide)⟩

/-- `if (x0 < x1) x0 += x2 * x3;` -/
private def once : TimeCmd :=
  .ite .less (.var 0) (.var 1) (.update .plus 0 (.bin .multiplies (.var 2) (.var 3))) .skip

private theorem once_checked :
    ∃ B, once.check i32.max ctx 2 start = some (.within B) ∧ B 0 = ⟨6150150, 120⟩ := by
  have h : (match once.check i32.max ctx 2 start with
      | some (.within B) => (B 0).num == 6150150 && (B 0).den == 120
      | _ => false) = true := by decide +kernel
  split at h
  · rename_i B hB
    simp only [Bool.and_eq_true, beq_iff_eq] at h
    refine ⟨B, hB, ?_⟩
    cases hb : B 0
    simp_all
  · cases h

private theorem once_runs :
    TimeRuns ctx once means (Function.update means 0 (1001 / 80 + 1001 / 4000)) :=
  .iteTrue (t := 1001 / 80) (u := 13) rfl rfl (by norm_num [CmpOp.Holds]) (.update (by
    simp only [TimeExpr.value, means, ArithOp.value, Option.bind_some, reduceCtorEq, if_false]
    norm_num))

/-- All hypotheses together.  The check accepts the program for 32 bits and computes that the
numerator of the count of `x0` stays below seven million; with numerators up to a hundred million
it accepts it for 64 bits only.  The run moves `x0` from 12.5125 s to 12.76275 s. -/
example : once.LoopFree ∧ once.depth = 2 ∧ once.ok ctx = true ∧ Models ctx vals means ∧
    WithinAll i32 start vals ∧
    TimeRuns ctx once means (Function.update means 0 (1001 / 80 + 1001 / 4000)) ∧
    (∃ B, once.check i32.max ctx 2 start = some (.within B) ∧ B 0 = ⟨6150150, 120⟩) ∧
    (once.check i32.max ctx 2 (fun x => if x = 0 then ⟨100000000, 2⟩ else start x)).isNone ∧
    (once.check i64.max ctx 2 (fun x => if x = 0 then ⟨100000000, 2⟩ else start x)).isSome ∧
    (once.main i32 .defaults ctx 2 vals).bind (fun r => pure (r.map fun σ => σ 0)) ⇓
      some (.frac ⟨51051, 4⟩) :=
  ⟨⟨trivial, trivial⟩, by decide, by decide +kernel, example_models, example_within, once_runs,
    once_checked, by decide +kernel, by decide +kernel, by decide +kernel⟩

/-- `while (x0 < x1) x0 += x2;` -/
private def timer : TimeCmd := .loop .less (.var 0) (.var 1) (.update .plus 0 (.var 2))

/-- The check follows a loop: three steps are accepted for 32 bits, four are not; for 64 bits
eight are accepted. -/
example : timer.ok ctx = true ∧ (timer.check i32.max ctx 3 start).isSome ∧
    (timer.check i32.max ctx 4 start).isNone ∧ (timer.check i64.max ctx 8 start).isSome := by
  decide +kernel

/-- Expressions and comparisons: `x0 - x1` in seconds, and `x0 < x1`. -/
example :
    let e : TimeExpr := .cast sec (.bin .minus (.var 0) (.var 1))
    (∃ τ, e.ty ctx = some τ) ∧ e.Bounded i32.max ctx start ∧ e.bound ctx start = ⟨300000, 2000⟩ ∧
    e.value ctx means = some (-39 / 80) ∧ e.eval i32 .defaults ctx vals ⇓ .frac ⟨-39, 80⟩ ∧
    (TimeExpr.var 0).CondBounded i32.max ctx start (.var 1) := by
  refine ⟨Option.isSome_iff_exists.1 (by decide +kernel), by decide +kernel, by decide +kernel, ?_,
    by decide +kernel, by decide +kernel⟩
  simp only [TimeExpr.value, means, ArithOp.value, Option.bind_some, reduceCtorEq, if_false]
  norm_num

end Ieme
