import Verif.Model.TimeExpr
import Verif.Spec.Chrono
import Verif.Spec.Expr

/-!
# What expressions over durations and time points mean

A number is itself, a duration is its length in seconds, a time point the time since the epoch
in seconds.
-/

namespace Ieme.Chrono

/-- What one count stands for. -/
def Shape.unit : Shape → ℚ
  | .num => 1
  | .dur p => p.seconds
  | .tp p => p.seconds

/-- The object of shape `s` and count `c` stands for `t`. -/
def Stands (s : Shape) (c : Count) (t : ℚ) : Prop := c.Is (t / s.unit)

/-- A value of the type: counts are fractions exactly when the type says so. -/
def TimeTy.Has (τ : TimeTy) : Count → Prop
  | .int _ => τ.frac = false
  | .frac _ => τ.frac = true

/-- What stands on the right of a remainder: `d % k` for a duration and a number takes the
remainder of the count. -/
def modUnit : Option TimeTy → Option TimeTy → ℚ
  | some ⟨_, .dur p⟩, some ⟨_, .num⟩ => p.seconds
  | _, _ => 1

/-- The exact meaning of an expression; none for a division or a remainder by zero. -/
def TimeExpr.value (Γ : Nat → TimeTy) (ρ : Nat → ℚ) : TimeExpr → Option ℚ
  | .var x => some (ρ x)
  | .neg e => (e.value Γ ρ).map fun t => -t
  | .bin op e1 e2 => (e1.value Γ ρ).bind fun t => (e2.value Γ ρ).bind fun u =>
      op.value t (if op = .modulus then u * modUnit (e1.ty Γ) (e2.ty Γ) else u)
  | .cast _ e => e.value Γ ρ

/-- The variables are of their types and stand for `ρ`. -/
def Models (Γ : Nat → TimeTy) (σ : Nat → Count) (ρ : Nat → ℚ) : Prop :=
  ∀ x, (Γ x).Has (σ x) ∧ Stands (Γ x).shape (σ x) (ρ x)

/-- The time points all moved by `s` seconds. -/
def moved (Γ : Nat → TimeTy) (ρ : Nat → ℚ) (s : ℚ) (x : Nat) : ℚ :=
  match (Γ x).shape with
  | .tp _ => ρ x + s
  | _ => ρ x

/-- The dimension: the power of time. -/
def Shape.power : Shape → ℤ
  | .num => 0
  | .dur _ => 1
  | .tp _ => 1

/-- How often the epoch is counted in: once for a time point. -/
def Shape.epochs : Shape → ℤ
  | .num => 0
  | .dur _ => 0
  | .tp _ => 1

/-- The period, of what has one. -/
def Shape.period? : Shape → Option Period
  | .num => none
  | .dur p => some p
  | .tp p => some p

/-- What an operator makes of dimensions and epochs; none where that has no meaning. -/
def dimension (op : ArithOp) (s t : Shape) : Option (ℤ × ℤ) :=
  match op with
  | .plus => if s.power = t.power then some (s.power, s.epochs + t.epochs) else none
  | .minus => if s.power = t.power then some (s.power, s.epochs - t.epochs) else none
  | .multiplies =>
    if s.epochs = 0 ∧ t.epochs = 0 then some (s.power + t.power, 0) else none
  | .divides =>
    if s.epochs = 0 ∧ t.epochs = 0 then some (s.power - t.power, 0) else none
  | .modulus =>
    if s.epochs = 0 ∧ t.epochs = 0 ∧ t.power ≤ s.power then some (s.power, 0) else none

/-- The operands have a common type, if both have a period. -/
def Comparable (s t : Shape) : Prop :=
  ∀ p q, s.period? = some p → t.period? = some q → ∃ c, commonPeriod p q = some c ∧
    FitsParts i64 (conversionFactor p c) ∧ FitsParts i64 (conversionFactor q c)

end Ieme.Chrono
