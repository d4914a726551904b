import Verif.Spec.Overload

/-!
# Expressions whose operators work in signed types
-/

namespace Ieme.Overload

/-- A signed type; the whole part of a mixed number is not narrower than its fractional part. -/
def Ty.calm : Ty → Bool
  | .int T => T.signed
  | .frac T _ => T.signed
  | .mixed W F _ => W.signed && F.signed && decide (F.bits ≤ W.bits)
  | .lit _ _ => true

/-- A fraction to be added to a mixed number has a signed representation. -/
def Ty.calmAddend : Ty → Ty → Bool
  | .mixed _ _ _, .frac R _ => R.signed
  | _, _ => true

/-- Every operator of the expression has a signed type, and denominator literals are values of `int`
and not its least. -/
def TExpr.calm : TExpr → Bool
  | .leaf _ (.lit n) => decide (n.natAbs ≤ 2147483647)
  | .leaf _ _ => true
  | .pos e => e.calm
  | .neg e => e.calm && e.ty.all Ty.calm
  | .bin op l r => l.calm && r.calm && (TExpr.bin op l r).ty.all fun t =>
      t.calm && l.ty.all (Ty.calmAddend t) && r.ty.all (Ty.calmAddend t)

end Ieme.Overload

namespace Ieme

open Overload

/-- All parts written in the expression are values of their types (always true of a C++ program). -/
def MExpr.TypedLeaves : MExpr → Prop
  | .dflt _ _ => True
  | .mk W F w f => W.InRange w ∧ f.InRange F
  | .ofFraction _ _ S f => f.InRange S
  | .pos e => e.TypedLeaves
  | .neg e => e.TypedLeaves
  | .add l r => l.TypedLeaves ∧ r.TypedLeaves
  | .addFraction e S f => e.TypedLeaves ∧ f.InRange S
  | .addWhole e S n => e.TypedLeaves ∧ S.InRange n

/-- Every constructor and operator of the expression has a signed type with a whole part not narrower
than the fractional part; fractions have signed representations, not wider than the parts they are
converted to. -/
def MExpr.calm : MExpr → Bool
  | .dflt _ _ => true
  | .mk W F _ _ => (Ty.mixed W F .safe).calm
  | .ofFraction W F S _ =>
    F.signed && S.signed && W.signed && decide (S.bits ≤ W.bits) && decide (S.bits ≤ F.bits)
  | .pos e => e.calm
  | .neg e => e.calm && (Ty.mixed e.ty.1 e.ty.2 .safe).calm
  | .add l r => l.calm && r.calm &&
    (Ty.mixed (MExpr.add l r).ty.1 (MExpr.add l r).ty.2 .safe).calm
  | .addFraction e S f => e.calm && S.signed &&
    (Ty.mixed (MExpr.addFraction e S f).ty.1 (MExpr.addFraction e S f).ty.2 .safe).calm
  | .addWhole e S n => e.calm &&
    (Ty.mixed (MExpr.addWhole e S n).ty.1 (MExpr.addWhole e S n).ty.2 .safe).calm

end Ieme
