import Verif.Spec.Rational
import Verif.Spec.Expr
import Verif.Model.MixedNumber

/-!
# What mixed numbers mean
-/

namespace Ieme

/-- The mixed number is defined and its value is the rational `q`. -/
def Mixed.Denotes (m : Mixed) (q : ℚ) : Prop := ∃ y, Ieme.Denotes m.frac y ∧ q = m.whole + y

/-- The class invariant: the fractional part is defined and proper, and does not have the
sign opposite to that of the whole part. -/
def Mixed.Invariant (m : Mixed) : Prop :=
  ∃ y, Ieme.Denotes m.frac y ∧ |y| < 1 ∧ (0 < m.whole → 0 ≤ y) ∧ (m.whole < 0 → y ≤ 0)

/-- The exact value of an expression over mixed numbers; `none` when an undefined fraction
occurs anywhere. -/
def MExpr.value : MExpr → Option ℚ
  | .dflt _ _ => some 0
  | .mk _ _ w f => (litValue f).map fun x => (w : ℚ) + x
  | .ofFraction _ _ _ f => litValue f
  | .pos e => e.value
  | .neg e => e.value.map fun x => -x
  | .add l r => l.value.bind fun x => r.value.map fun y => x + y
  | .addFraction e _ f => e.value.bind fun x => (litValue f).map fun y => x + y
  | .addWhole e _ n => e.value.map fun x => x + n

/-- The whole parts written in the expression are values of their types (always true of a
C++ program). -/
def MExpr.WellTyped : MExpr → Prop
  | .dflt _ _ => True
  | .mk W _ w _ => W.InRange w
  | .ofFraction _ _ _ _ => True
  | .pos e => e.WellTyped
  | .neg e => e.WellTyped
  | .add l r => l.WellTyped ∧ r.WellTyped
  | .addFraction e _ _ => e.WellTyped
  | .addWhole e _ _ => e.WellTyped

/-- The parts written in the expression are values of their types, and the fractions handed
to the two-argument constructor are in lowest terms with positive denominator. -/
def MExpr.CanonicalLeaves : MExpr → Prop
  | .dflt _ _ => True
  | .mk W F w f => W.InRange w ∧ f.InRange F ∧ Canonical f
  | .ofFraction _ _ S f => f.InRange S
  | .pos e => e.CanonicalLeaves
  | .neg e => e.CanonicalLeaves
  | .add l r => l.CanonicalLeaves ∧ r.CanonicalLeaves
  | .addFraction e S f => e.CanonicalLeaves ∧ f.InRange S
  | .addWhole e _ _ => e.CanonicalLeaves

/-- Both parts are values of their types. -/
def Mixed.InRange (W F : IntTy) (m : Mixed) : Prop := W.InRange m.whole ∧ m.frac.InRange F

/-- The parts written in the two-argument constructor are values of their types. -/
def MExpr.LeavesInRange : MExpr → Prop
  | .dflt _ _ => True
  | .mk W F w f => W.InRange w ∧ f.InRange F
  | .ofFraction _ _ _ _ => True
  | .pos e => e.LeavesInRange
  | .neg e => e.LeavesInRange
  | .add l r => l.LeavesInRange ∧ r.LeavesInRange
  | .addFraction e _ _ => e.LeavesInRange
  | .addWhole e _ _ => e.LeavesInRange

end Ieme
