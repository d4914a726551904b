import Verif.Spec.Bounds
import Verif.Spec.Program

/-!
# A static check that excludes overflow in a program

How large the parts of the variables of a program can get, computed from bounds for their initial
contents without running the program and without a policy.  Both branches of a conditional are
followed, and a loop is followed up to a given number of steps.
-/

namespace Ieme

/-- Bounds for the contents of the variables. -/
abbrev Bounds := ℕ → Bound

/-- The bound for the value of an expression with variables. -/
def PExpr.bound (A : Bounds) : PExpr → Bound
  | .var x => A x
  | .lit f => f.bound
  | .neg e => e.bound A
  | .pos e => e.bound A
  | .ff op e1 e2 => op.bound (e1.bound A) (e2.bound A)
  | .fr op e n => op.bound (e.bound A) (intBound n)
  | .rf op n e => op.bound (intBound n) (e.bound A)

/-- Every node of the expression stays within `K`. -/
def PExpr.Bounded (K : ℤ) (A : Bounds) : PExpr → Prop
  | .var x => (A x).Le K
  | .lit f => f.bound.Le K
  | .neg e => e.Bounded K A
  | .pos e => e.Bounded K A
  | .ff op e1 e2 => e1.Bounded K A ∧ e2.Bounded K A ∧ op.Bounded (e1.bound A) (e2.bound A) K
  | .fr op e n => e.Bounded K A ∧ (intBound n).Le K ∧ op.Bounded (e.bound A) (intBound n) K
  | .rf op n e => e.Bounded K A ∧ (intBound n).Le K ∧ op.Bounded (intBound n) (e.bound A) K

instance PExpr.decidableBounded (K : ℤ) (A : Bounds) : (e : PExpr) → Decidable (e.Bounded K A)
  | .var x => inferInstanceAs (Decidable ((A x).Le K))
  | .lit f => inferInstanceAs (Decidable (f.bound.Le K))
  | .neg e => e.decidableBounded K A
  | .pos e => e.decidableBounded K A
  | .ff op e1 e2 =>
    have := e1.decidableBounded K A
    have := e2.decidableBounded K A
    inferInstanceAs (Decidable (_ ∧ _ ∧ op.Bounded (e1.bound A) (e2.bound A) K))
  | .fr op e n =>
    have := e.decidableBounded K A
    inferInstanceAs (Decidable (_ ∧ (intBound n).Le K ∧ op.Bounded (e.bound A) (intBound n) K))
  | .rf op n e =>
    have := e.decidableBounded K A
    inferInstanceAs (Decidable (_ ∧ (intBound n).Le K ∧ op.Bounded (intBound n) (e.bound A) K))

/-- Comparing two fractions within these bounds stays within `K`: the cross products and the
common denominator. -/
def Bound.Comparable (a b : Bound) (K : ℤ) : Prop :=
  ((a.num * b.den : ℕ) : ℤ) ≤ K ∧ ((b.num * a.den : ℕ) : ℤ) ≤ K ∧ ((a.den * b.den : ℕ) : ℤ) ≤ K

instance (a b : Bound) (K : ℤ) : Decidable (a.Comparable b K) :=
  inferInstanceAs (Decidable (_ ∧ _ ∧ _))

/-- A condition stays within `K`. -/
def PExpr.CondBounded (K : ℤ) (A : Bounds) (e1 e2 : PExpr) : Prop :=
  e1.Bounded K A ∧ e2.Bounded K A ∧ (e1.bound A).Comparable (e2.bound A) K

instance (K : ℤ) (A : Bounds) (e1 e2 : PExpr) : Decidable (e1.CondBounded K A e2) :=
  inferInstanceAs (Decidable (_ ∧ _ ∧ _))

/-- What is known after a step: `unreached` if the step does not complete in the given number of
steps, otherwise bounds for the variables. -/
inductive Outcome where
  | unreached
  | within (A : Bounds)

/-- Either of two outcomes. -/
def Outcome.join : Outcome → Outcome → Outcome
  | .unreached, o => o
  | o, .unreached => o
  | .within A, .within B => .within fun x => ⟨max (A x).num (B x).num, max (A x).den (B x).den⟩

/-- The static check: bounds after at most `n` nested steps of a program, from the bounds before
it; `none` if something might exceed `K`. -/
def Cmd.check (K : ℤ) : ℕ → Cmd → Bounds → Option Outcome
  | 0, _, _ => some .unreached
  | _ + 1, .skip, A => some (.within A)
  | _ + 1, .assign x e, A =>
    if e.Bounded K A then some (.within fun y => if y = x then e.bound A else A y) else none
  | n + 1, .seq c d, A =>
    match Cmd.check K n c A with
    | none => none
    | some .unreached => some .unreached
    | some (.within B) => Cmd.check K n d B
  | n + 1, .ite _ e1 e2 c d, A =>
    if e1.CondBounded K A e2 then
      match Cmd.check K n c A, Cmd.check K n d A with
      | some o1, some o2 => some (o1.join o2)
      | _, _ => none
    else none
  | n + 1, .loop op e1 e2 c, A =>
    if e1.CondBounded K A e2 then
      match Cmd.check K n c A with
      | none => none
      | some .unreached => some (.within A)
      | some (.within B) => (Cmd.check K n (.loop op e1 e2 c) B).map ((Outcome.within A).join ·)
    else none

/-- The contents of every variable are within its bounds, and not negative in an unsigned type. -/
def Mem.Within (T : IntTy) (A : Bounds) (m : Mem) : Prop :=
  ∀ x, (m x).num.natAbs ≤ (A x).num ∧ (m x).den.natAbs ≤ (A x).den ∧
    (T.signed = false → 0 ≤ (m x).num ∧ 0 ≤ (m x).den)

/-- The expression has no negative literal and no operator that could go below zero. -/
def PExpr.StaysNonneg : PExpr → Prop
  | .var _ => True
  | .lit f => 0 ≤ f.num ∧ 0 ≤ f.den
  | .neg _ => False
  | .pos e => e.StaysNonneg
  | .ff op e1 e2 => op ≠ .minus ∧ e1.StaysNonneg ∧ e2.StaysNonneg
  | .fr op e n => op ≠ .minus ∧ e.StaysNonneg ∧ 0 ≤ n
  | .rf op n e => op ≠ .minus ∧ e.StaysNonneg ∧ 0 ≤ n

/-- The program has no loop. -/
def Cmd.LoopFree : Cmd → Prop
  | .skip | .assign _ _ => True
  | .seq c d => c.LoopFree ∧ d.LoopFree
  | .ite _ _ _ c d => c.LoopFree ∧ d.LoopFree
  | .loop _ _ _ _ => False

/-- The number of nested steps a program without loops can take. -/
def Cmd.depth : Cmd → ℕ
  | .skip | .assign _ _ => 1
  | .seq c d => max c.depth d.depth + 1
  | .ite _ _ _ c d => max c.depth d.depth + 1
  | .loop _ _ _ c => c.depth + 1

/-- `RunsIn n c s s'`: like `Runs c s s'`, with at most `n` nested steps. -/
inductive RunsIn : ℕ → Cmd → (ℕ → ℚ) → (ℕ → ℚ) → Prop
  | skip {n s} : RunsIn (n + 1) .skip s s
  | assign {n s x e q} (he : e.value s = some q) :
      RunsIn (n + 1) (.assign x e) s fun y => if y = x then q else s y
  | seq {n c d s s' s''} (hc : RunsIn n c s s') (hd : RunsIn n d s' s'') :
      RunsIn (n + 1) (.seq c d) s s''
  | iteTrue {n op e1 e2 c d s s' p q} (h1 : e1.value s = some p) (h2 : e2.value s = some q)
      (h : op.Holds p q) (hc : RunsIn n c s s') : RunsIn (n + 1) (.ite op e1 e2 c d) s s'
  | iteFalse {n op e1 e2 c d s s' p q} (h1 : e1.value s = some p) (h2 : e2.value s = some q)
      (h : ¬ op.Holds p q) (hd : RunsIn n d s s') : RunsIn (n + 1) (.ite op e1 e2 c d) s s'
  | loopTrue {n op e1 e2 c s s' s'' p q} (h1 : e1.value s = some p) (h2 : e2.value s = some q)
      (h : op.Holds p q) (hc : RunsIn n c s s') (hl : RunsIn n (.loop op e1 e2 c) s' s'') :
      RunsIn (n + 1) (.loop op e1 e2 c) s s''
  | loopFalse {n op e1 e2 c s p q} (h1 : e1.value s = some p) (h2 : e2.value s = some q)
      (h : ¬ op.Holds p q) : RunsIn (n + 1) (.loop op e1 e2 c) s s

end Ieme
