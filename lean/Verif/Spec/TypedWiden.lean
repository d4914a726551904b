import Verif.Spec.TypedProgram
import Verif.Spec.Widen

/-!
# Programs with other representations

The same program with every integer type and every representation replaced by another.
-/

namespace Ieme.Overload

/-- The type with its integer types replaced.  Denominator literals have no representation of their
own to choose. -/
def Ty.retype (φ : IntTy → IntTy) : Ty → Ty
  | .int T => .int (φ T)
  | .frac T o => .frac (φ T) o
  | .mixed W F o => .mixed (φ W) (φ F) o
  | .lit s o => .lit s o

/-- The expression with the types of its objects replaced. -/
def VExpr.retype (φ : IntTy → IntTy) : VExpr → VExpr
  | .var x => .var x
  | .obj t v => .obj (t.retype φ) v
  | .pos e => .pos (e.retype φ)
  | .neg e => .neg (e.retype φ)
  | .bin op l r => .bin op (l.retype φ) (r.retype φ)

/-- The program with the types of its objects replaced. -/
def Stmt.retype (φ : IntTy → IntTy) : Stmt → Stmt
  | .skip => .skip
  | .assign x e => .assign x (e.retype φ)
  | .compound op x e => .compound op x (e.retype φ)
  | .call f x e => .call f x (e.retype φ)
  | .seq c d => .seq (c.retype φ) (d.retype φ)
  | .ite op e1 e2 c d => .ite op (e1.retype φ) (e2.retype φ) (c.retype φ) (d.retype φ)
  | .loop op e1 e2 c => .loop op (e1.retype φ) (e2.retype φ) (c.retype φ)

/-- The declarations with the types replaced. -/
def Decls.retype (φ : IntTy → IntTy) (Γ : Decls) : Decls := fun x => (Γ x).retype φ

/-- Every type is replaced by one that has all its values, and common types by common types. -/
structure Widening (φ : IntTy → IntTy) : Prop where
  within : ∀ T : IntTy, T.Within (φ T)
  common : ∀ T U, φ (IntTy.common T U) = IntTy.common (φ T) (φ U)

/-- Denominator literals written in the expression can be negated as `long long`. -/
def VExpr.SmallLiterals : VExpr → Prop
  | .var _ => True
  | .obj _ (.lit n) => n.natAbs ≤ 9223372036854775807
  | .obj _ _ => True
  | .pos e => e.SmallLiterals
  | .neg e => e.SmallLiterals
  | .bin _ l r => l.SmallLiterals ∧ r.SmallLiterals

/-- No variable is a denominator literal. -/
def Decls.NoLiterals (Γ : Decls) : Prop := ∀ x s o, Γ x ≠ .lit s o

end Ieme.Overload
