import Verif.Spec.Expr

/-!
# A static bound on the parts of an expression

How large the numerator and the denominator of every intermediate result of an expression can
get, computed from the magnitudes of the written operands alone.  Nothing here mentions a policy
or evaluates the expression.
-/

namespace Ieme

/-- An upper bound on the magnitudes of a numerator and a denominator. -/
structure Bound where
  num : ℕ
  den : ℕ
deriving DecidableEq, Repr

/-- The bound for the result of an operator, from the bounds for its operands: cross
multiplication, with differences counted like sums. -/
def ArithOp.bound : ArithOp → Bound → Bound → Bound
  | .plus, a, b => ⟨a.num * b.den + b.num * a.den, a.den * b.den⟩
  | .minus, a, b => ⟨a.num * b.den + b.num * a.den, a.den * b.den⟩
  | .multiplies, a, b => ⟨a.num * b.num, a.den * b.den⟩
  | .divides, a, b => ⟨a.num * b.den, a.den * b.num⟩
  | .modulus, a, b => ⟨a.num * b.den, a.den * b.den⟩

/-- The magnitudes of a written fraction. -/
def Raw.bound (f : Raw) : Bound := ⟨f.num.natAbs, f.den.natAbs⟩

/-- The magnitudes of a written integer, as a fraction over one. -/
def intBound (n : ℤ) : Bound := ⟨n.natAbs, 1⟩

/-- The bound for the value of an expression. -/
def Expr.bound : Expr → Bound
  | .lit f => f.bound
  | .neg e => e.bound
  | .pos e => e.bound
  | .ff op e1 e2 => op.bound e1.bound e2.bound
  | .fr op e n => op.bound e.bound (intBound n)
  | .rf op n e => op.bound (intBound n) e.bound

/-- Both bounds are at most `K`. -/
def Bound.Le (b : Bound) (K : ℤ) : Prop := (b.num : ℤ) ≤ K ∧ (b.den : ℤ) ≤ K

instance (b : Bound) (K : ℤ) : Decidable (b.Le K) := inferInstanceAs (Decidable (_ ∧ _))

/-- The result of the operator stays within `K`, and for `%` so does the divisor when it is
brought to the common denominator. -/
def ArithOp.Bounded (op : ArithOp) (a b : Bound) (K : ℤ) : Prop :=
  (op.bound a b).Le K ∧ (op = .modulus → ((b.num * a.den : ℕ) : ℤ) ≤ K)

instance (op : ArithOp) (a b : Bound) (K : ℤ) : Decidable (op.Bounded a b K) :=
  inferInstanceAs (Decidable (_ ∧ _))

/-- Every node of the expression stays within `K`. -/
def Expr.Bounded (K : ℤ) : Expr → Prop
  | .lit f => f.bound.Le K
  | .neg e => e.Bounded K
  | .pos e => e.Bounded K
  | .ff op e1 e2 => e1.Bounded K ∧ e2.Bounded K ∧ op.Bounded e1.bound e2.bound K
  | .fr op e n => e.Bounded K ∧ (intBound n).Le K ∧ op.Bounded e.bound (intBound n) K
  | .rf op n e => e.Bounded K ∧ (intBound n).Le K ∧ op.Bounded (intBound n) e.bound K

/-- The check is executable. -/
instance Expr.decidableBounded (K : ℤ) : (e : Expr) → Decidable (e.Bounded K)
  | .lit f => inferInstanceAs (Decidable (f.bound.Le K))
  | .neg e => e.decidableBounded K
  | .pos e => e.decidableBounded K
  | .ff op e1 e2 =>
    have := e1.decidableBounded K
    have := e2.decidableBounded K
    inferInstanceAs (Decidable (_ ∧ _ ∧ op.Bounded e1.bound e2.bound K))
  | .fr op e n =>
    have := e.decidableBounded K
    inferInstanceAs (Decidable (_ ∧ (intBound n).Le K ∧ op.Bounded e.bound (intBound n) K))
  | .rf op n e =>
    have := e.decidableBounded K
    inferInstanceAs (Decidable (_ ∧ (intBound n).Le K ∧ op.Bounded (intBound n) e.bound K))

/-- No operator of the expression can turn non-negative operands into a negative result. -/
def Expr.NoMinus : Expr → Prop
  | .lit _ => True
  | .neg _ => False
  | .pos e => e.NoMinus
  | .ff op e1 e2 => op ≠ .minus ∧ e1.NoMinus ∧ e2.NoMinus
  | .fr op e _ => op ≠ .minus ∧ e.NoMinus
  | .rf op _ e => op ≠ .minus ∧ e.NoMinus

/-- Only sums, products and quotients of non-negative operands. -/
def Expr.Additive : Expr → Prop
  | .lit f => 0 ≤ f.num ∧ 0 ≤ f.den
  | .neg _ => False
  | .pos e => e.Additive
  | .ff op e1 e2 => (op = .plus ∨ op = .multiplies ∨ op = .divides) ∧ e1.Additive ∧ e2.Additive
  | .fr op e n => (op = .plus ∨ op = .multiplies ∨ op = .divides) ∧ e.Additive ∧ 0 ≤ n
  | .rf op n e => (op = .plus ∨ op = .multiplies ∨ op = .divides) ∧ e.Additive ∧ 0 ≤ n

/-- The number of operands written in the expression. -/
def Expr.leaves : Expr → ℕ
  | .lit _ => 1
  | .neg e => e.leaves
  | .pos e => e.leaves
  | .ff _ e1 e2 => e1.leaves + e2.leaves
  | .fr _ e _ => e.leaves + 1
  | .rf _ _ e => 1 + e.leaves

/-- All parts of all written operands have magnitude at most `B`. -/
def Expr.LeavesLe (B : ℕ) : Expr → Prop
  | .lit f => f.num.natAbs ≤ B ∧ f.den.natAbs ≤ B
  | .neg e => e.LeavesLe B
  | .pos e => e.LeavesLe B
  | .ff _ e1 e2 => e1.LeavesLe B ∧ e2.LeavesLe B
  | .fr _ e n => e.LeavesLe B ∧ n.natAbs ≤ B
  | .rf _ n e => e.LeavesLe B ∧ n.natAbs ≤ B

end Ieme
