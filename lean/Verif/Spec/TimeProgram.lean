import Verif.Model.TimeProgram
import Verif.Spec.TimeExpr
import Verif.Spec.Program

/-!
# What programs over durations and time points mean

A big-step relation over the rational numbers, in seconds, without any bound on the number of
steps.
-/

namespace Ieme.Chrono

/-- `x op= e` means `x = x op e`, whatever the periods. -/
inductive TimeRuns (Γ : Nat → TimeTy) : TimeCmd → (ℕ → ℚ) → (ℕ → ℚ) → Prop
  | skip {ρ} : TimeRuns Γ .skip ρ ρ
  | assign {ρ x e t} (he : e.value Γ ρ = some t) :
      TimeRuns Γ (.assign x e) ρ (Function.update ρ x t)
  | update {ρ op x e t} (he : (TimeExpr.bin op (.var x) e).value Γ ρ = some t) :
      TimeRuns Γ (.update op x e) ρ (Function.update ρ x t)
  | seq {c d ρ ρ' ρ''} (hc : TimeRuns Γ c ρ ρ') (hd : TimeRuns Γ d ρ' ρ'') :
      TimeRuns Γ (.seq c d) ρ ρ''
  | iteTrue {op e1 e2 c d ρ ρ' t u} (h1 : e1.value Γ ρ = some t) (h2 : e2.value Γ ρ = some u)
      (h : op.Holds t u) (hc : TimeRuns Γ c ρ ρ') : TimeRuns Γ (.ite op e1 e2 c d) ρ ρ'
  | iteFalse {op e1 e2 c d ρ ρ' t u} (h1 : e1.value Γ ρ = some t) (h2 : e2.value Γ ρ = some u)
      (h : ¬ op.Holds t u) (hd : TimeRuns Γ d ρ ρ') : TimeRuns Γ (.ite op e1 e2 c d) ρ ρ'
  | loopTrue {op e1 e2 c ρ ρ' ρ'' t u} (h1 : e1.value Γ ρ = some t) (h2 : e2.value Γ ρ = some u)
      (h : op.Holds t u) (hc : TimeRuns Γ c ρ ρ') (hl : TimeRuns Γ (.loop op e1 e2 c) ρ' ρ'') :
      TimeRuns Γ (.loop op e1 e2 c) ρ ρ''
  | loopFalse {op e1 e2 c ρ t u} (h1 : e1.value Γ ρ = some t) (h2 : e2.value Γ ρ = some u)
      (h : ¬ op.Holds t u) : TimeRuns Γ (.loop op e1 e2 c) ρ ρ

/-- Every condition in the program tests for equality or inequality. -/
def TimeCmd.OnlyEquality : TimeCmd → Prop
  | .skip | .assign _ _ | .update _ _ _ => True
  | .seq c d => c.OnlyEquality ∧ d.OnlyEquality
  | .ite op _ _ c d => ¬ op.IsOrder ∧ c.OnlyEquality ∧ d.OnlyEquality
  | .loop op _ _ c => ¬ op.IsOrder ∧ c.OnlyEquality

end Ieme.Chrono
