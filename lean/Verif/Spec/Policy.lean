import Verif.Spec.Expr
import Verif.Spec.Assign
import Verif.Spec.MixedNumber
import Verif.Spec.Chrono
import Verif.Spec.Answers
import Verif.Model.Policy

/-!
# What is asked of a policy

The contract a user-defined policy has to meet, in terms of rational numbers.  Nothing is said
about when the functions of the policy finish, which of the many fractions of a value they
return, or what they do with undefined operands and zero divisors.
-/

namespace Ieme

/-- Where the arithmetic functions finish cleanly on defined operands with a defined result,
the result is a value of the type and has the exact value. -/
structure Policy.Sound (p : Policy) : Prop where
  negate : ∀ {T : IntTy} {v r : Raw} {x : ℚ}, v.InRange T → Denotes v x →
    p.negate T v = .ok r false → r.InRange T ∧ Denotes r (-x)
  arith : ∀ {T : IntTy} {op : ArithOp} {a : Args} {r : Raw} {x y q : ℚ}, a.InRange T →
    a.Denote x y → op.value x y = some q → p.arith T op a = .ok r false →
    r.InRange T ∧ Denotes r q

/-- Where the comparison functions finish cleanly on defined operands, they answer for the
values. -/
structure Policy.Compares (p : Policy) : Prop where
  cmp : ∀ {T : IntTy} {op : CmpOp} {a : Args} {b : Bool} {x y : ℚ}, a.InRange T →
    a.Denote x y → p.cmp T op a = .ok b false → (b = true ↔ op.Holds x y)

/-- The same, asked only of operands in lowest terms with positive denominators. -/
structure Policy.ComparesCanonical (p : Policy) : Prop where
  cmp : ∀ {T : IntTy} {op : CmpOp} {a : Args} {b : Bool} {x y : ℚ}, a.InRange T →
    Canonical a.left → Canonical a.right →
    a.Denote x y → p.cmp T op a = .ok b false → (b = true ↔ op.Holds x y)

/-- The same contract as `Sound`, asked only of operands in lowest terms with positive
denominators. -/
structure Policy.SoundCanonical (p : Policy) : Prop where
  negate : ∀ {T : IntTy} {v r : Raw} {x : ℚ}, v.InRange T → Canonical v → Denotes v x →
    p.negate T v = .ok r false → r.InRange T ∧ Denotes r (-x)
  arith : ∀ {T : IntTy} {op : ArithOp} {a : Args} {r : Raw} {x y q : ℚ}, a.InRange T →
    Canonical a.left → Canonical a.right →
    a.Denote x y → op.value x y = some q → p.arith T op a = .ok r false →
    r.InRange T ∧ Denotes r q

/-- A policy a user might write: compute with a wider type and throw when the result does not
fit.  It is not part of the library. -/
def Policy.checked (p : Policy) (wide : IntTy → IntTy) : Policy where
  negate T v := do
    let r ← p.negate (wide T) v
    if r.InRange T then return r else .fault .thrown
  arith T op a := do
    let r ← p.arith (wide T) op a
    if r.InRange T then return r else .fault .thrown
  cmp T op a := p.cmp (wide T) op a

/-- All parts written in the expression are values of their types. -/
def MExpr.AllInRange : MExpr → Prop
  | .dflt _ _ => True
  | .mk W F w f => W.InRange w ∧ f.InRange F
  | .ofFraction _ _ S f => f.InRange S
  | .pos e => e.AllInRange
  | .neg e => e.AllInRange
  | .add l r => l.AllInRange ∧ r.AllInRange
  | .addFraction e S f => e.AllInRange ∧ f.InRange S
  | .addWhole e S n => e.AllInRange ∧ S.InRange n

end Ieme
