import Verif.Spec.Program

/-!
# Programs whose denominators stay positive
-/

namespace Ieme

/-- Every literal in the expression has a positive denominator. -/
def PExpr.PosLits : PExpr → Prop
  | .var _ => True
  | .lit f => 0 < f.den
  | .neg e | .pos e | .fr _ e _ | .rf _ _ e => e.PosLits
  | .ff _ e1 e2 => e1.PosLits ∧ e2.PosLits

/-- The expression does not divide. -/
def PExpr.NoDivision : PExpr → Prop
  | .var _ | .lit _ => True
  | .neg e | .pos e => e.NoDivision
  | .fr op e _ | .rf op _ e => op ≠ .divides ∧ e.NoDivision
  | .ff op e1 e2 => op ≠ .divides ∧ e1.NoDivision ∧ e2.NoDivision

/-- Every expression in the program, conditions included, has the property. -/
def Cmd.All (P : PExpr → Prop) : Cmd → Prop
  | .skip => True
  | .assign _ e => P e
  | .seq c d => c.All P ∧ d.All P
  | .ite _ e1 e2 c d => P e1 ∧ P e2 ∧ c.All P ∧ d.All P
  | .loop _ e1 e2 c => P e1 ∧ P e2 ∧ c.All P

/-- Every variable has a positive denominator. -/
def Mem.Positive (m : Mem) : Prop := ∀ x, 0 < (m x).den

end Ieme
