import Verif.Spec.ProgramBounds
import Verif.Spec.TimeProgram

/-!
# A static check that excludes overflow in programs over durations

How large the parts of the counts can get, from bounds for the counts in the variables and from the
periods, which are part of the types.  A change of period multiplies a count by the quotient of the
periods; two operands are first brought to their greatest common measure.
-/

namespace Ieme.Chrono

/-- The bound after multiplication by a positive factor in lowest terms. -/
def scaled (A : Bound) (x : ℚ) : Bound := ⟨A.num * x.num.natAbs, A.den * x.den⟩

/-- The multiplication stays within `K`, and so do the parts of the factor. -/
def Scales (A : Bound) (x : ℚ) (K : ℤ) : Prop := x.num ≤ K ∧ (x.den : ℤ) ≤ K ∧ (scaled A x).Le K

instance (A : Bound) (x : ℚ) (K : ℤ) : Decidable (Scales A x K) :=
  inferInstanceAs (Decidable (_ ∧ _ ∧ _))

/-- The greatest common measure of two periods, in seconds. -/
def commonSeconds (p q : Period) : ℚ := (Int.gcd p.num q.num : ℚ) / (Int.lcm p.den q.den : ℚ)

/-- By what the counts of two operands are multiplied before an operator is applied to them. -/
def factors (s t : Shape) : ℚ × ℚ :=
  match s.period?, t.period? with
  | some p, some q => (p.seconds / commonSeconds p q, q.seconds / commonSeconds p q)
  | _, _ => (1, 1)

/-- The shape of an expression that compiles. -/
def TimeExpr.shape (Γ : ℕ → TimeTy) (e : TimeExpr) : Shape :=
  match e.ty Γ with
  | some τ => τ.shape
  | none => .num

/-- The bound for the count of an expression. -/
def TimeExpr.bound (Γ : ℕ → TimeTy) (A : Bounds) : TimeExpr → Bound
  | .var x => A x
  | .neg e => e.bound Γ A
  | .bin op e1 e2 =>
    let k := factors (e1.shape Γ) (e2.shape Γ)
    op.bound (scaled (e1.bound Γ A) k.1) (scaled (e2.bound Γ A) k.2)
  | .cast q e => scaled (e.bound Γ A) ((e.shape Γ).unit / q.seconds)

/-- Every step of the evaluation stays within `K`. -/
def TimeExpr.Bounded (K : ℤ) (Γ : ℕ → TimeTy) (A : Bounds) : TimeExpr → Prop
  | .var x => (A x).Le K
  | .neg e => e.Bounded K Γ A
  | .bin op e1 e2 =>
    let k := factors (e1.shape Γ) (e2.shape Γ)
    e1.Bounded K Γ A ∧ e2.Bounded K Γ A ∧ Scales (e1.bound Γ A) k.1 K ∧
      Scales (e2.bound Γ A) k.2 K ∧
      op.Bounded (scaled (e1.bound Γ A) k.1) (scaled (e2.bound Γ A) k.2) K
  | .cast q e => e.Bounded K Γ A ∧ Scales (e.bound Γ A) ((e.shape Γ).unit / q.seconds) K

instance TimeExpr.decidableBounded (K : ℤ) (Γ : ℕ → TimeTy) (A : Bounds) :
    (e : TimeExpr) → Decidable (e.Bounded K Γ A)
  | .var x => inferInstanceAs (Decidable ((A x).Le K))
  | .neg e => e.decidableBounded K Γ A
  | .bin _ e1 e2 =>
    have := e1.decidableBounded K Γ A
    have := e2.decidableBounded K Γ A
    inferInstanceAs (Decidable (_ ∧ _ ∧ _ ∧ _ ∧ _))
  | .cast _ e =>
    have := e.decidableBounded K Γ A
    inferInstanceAs (Decidable (_ ∧ _))

/-- A comparison stays within `K`. -/
def TimeExpr.CondBounded (K : ℤ) (Γ : ℕ → TimeTy) (A : Bounds) (e1 e2 : TimeExpr) : Prop :=
  let k := factors (e1.shape Γ) (e2.shape Γ)
  e1.Bounded K Γ A ∧ e2.Bounded K Γ A ∧ Scales (e1.bound Γ A) k.1 K ∧
    Scales (e2.bound Γ A) k.2 K ∧
    (scaled (e1.bound Γ A) k.1).Comparable (scaled (e2.bound Γ A) k.2) K

instance (K : ℤ) (Γ : ℕ → TimeTy) (A : Bounds) (e1 e2 : TimeExpr) :
    Decidable (e1.CondBounded K Γ A e2) := inferInstanceAs (Decidable (_ ∧ _ ∧ _ ∧ _ ∧ _))

/-- By what the right side of `x op= e` is multiplied. -/
def updateFactor (s t : Shape) : ℚ :=
  match t with
  | .num => 1
  | _ => t.unit / s.unit

/-- The static check: bounds after at most `n` nested steps of a program, from the bounds before
it; `none` if something might exceed `K`. -/
def TimeCmd.check (K : ℤ) (Γ : ℕ → TimeTy) : ℕ → TimeCmd → Bounds → Option Outcome
  | 0, _, _ => some .unreached
  | _ + 1, .skip, A => some (.within A)
  | _ + 1, .assign x e, A =>
    let k := (e.shape Γ).unit / (Γ x).shape.unit
    if e.Bounded K Γ A ∧ Scales (e.bound Γ A) k K then
      some (.within fun y => if y = x then scaled (e.bound Γ A) k else A y)
    else none
  | _ + 1, .update op x e, A =>
    let k := updateFactor (Γ x).shape (e.shape Γ)
    if e.Bounded K Γ A ∧ Scales (e.bound Γ A) k K ∧ (A x).Le K ∧
        op.Bounded (A x) (scaled (e.bound Γ A) k) K then
      some (.within fun y => if y = x then op.bound (A x) (scaled (e.bound Γ A) k) else A y)
    else none
  | n + 1, .seq c d, A =>
    match TimeCmd.check K Γ n c A with
    | none => none
    | some .unreached => some .unreached
    | some (.within B) => TimeCmd.check K Γ n d B
  | n + 1, .ite _ e1 e2 c d, A =>
    if e1.CondBounded K Γ A e2 then
      match TimeCmd.check K Γ n c A, TimeCmd.check K Γ n d A with
      | some o1, some o2 => some (o1.join o2)
      | _, _ => none
    else none
  | n + 1, .loop op e1 e2 c, A =>
    if e1.CondBounded K Γ A e2 then
      match TimeCmd.check K Γ n c A with
      | none => none
      | some .unreached => some (.within A)
      | some (.within B) =>
        (TimeCmd.check K Γ n (.loop op e1 e2 c) B).map ((Outcome.within A).join ·)
    else none

/-- The count is within the bound, and not negative in an unsigned type. -/
def Count.Within (T : IntTy) (A : Bound) (c : Count) : Prop :=
  c.parts.num.natAbs ≤ A.num ∧ c.parts.den.natAbs ≤ A.den ∧
    (T.signed = false → 0 ≤ c.parts.num ∧ 0 ≤ c.parts.den)

/-- All variables are within their bounds. -/
def WithinAll (T : IntTy) (A : Bounds) (σ : ℕ → Count) : Prop := ∀ x, (σ x).Within T (A x)

/-- No operator of the expression can go below zero. -/
def TimeExpr.StaysNonneg : TimeExpr → Prop
  | .var _ => True
  | .neg _ => False
  | .bin op e1 e2 => op ≠ .minus ∧ e1.StaysNonneg ∧ e2.StaysNonneg
  | .cast _ e => e.StaysNonneg

/-- No operator of the program can go below zero. -/
def TimeCmd.StaysNonneg : TimeCmd → Prop
  | .skip => True
  | .assign _ e => e.StaysNonneg
  | .update op _ e => op ≠ .minus ∧ e.StaysNonneg
  | .seq c d => c.StaysNonneg ∧ d.StaysNonneg
  | .ite _ e1 e2 c d => e1.StaysNonneg ∧ e2.StaysNonneg ∧ c.StaysNonneg ∧ d.StaysNonneg
  | .loop _ e1 e2 c => e1.StaysNonneg ∧ e2.StaysNonneg ∧ c.StaysNonneg

/-- The program has no loop. -/
def TimeCmd.LoopFree : TimeCmd → Prop
  | .skip | .assign _ _ | .update _ _ _ => True
  | .seq c d => c.LoopFree ∧ d.LoopFree
  | .ite _ _ _ c d => c.LoopFree ∧ d.LoopFree
  | .loop _ _ _ _ => False

/-- The number of nested steps a program without loops can take. -/
def TimeCmd.depth : TimeCmd → ℕ
  | .skip | .assign _ _ | .update _ _ _ => 1
  | .seq c d => max c.depth d.depth + 1
  | .ite _ _ _ c d => max c.depth d.depth + 1
  | .loop _ _ _ c => c.depth + 1

end Ieme.Chrono
