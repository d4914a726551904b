import Verif.Spec.UserCode
import Verif.Model.Expr

/-!
# Spec: expressions in code of users with the contents of the variables
-/

namespace Ieme.User

open Header

/-- The symbol of an operator. -/
def symbol : ArithOp → BinOp
  | .plus => .add
  | .minus => .sub
  | .multiplies => .mul
  | .divides => .div
  | .modulus => .mod

/-- The expression in the code of a user is this one when the contents of the variables, fractions
and integers of one type, are filled in.  Number literals have the type `int`. -/
inductive Reads (T : IntTy) (o : Ops) (ents : List (ℕ × Val)) : Header.Expr → Ieme.Expr → Prop
  | var {x f} : ents.lookup x = some (.frac T o f) → Reads T o ents (.var 0 x) (.lit f)
  | neg {a e} : Reads T o ents a e → Reads T o ents (.un .neg a) (.neg e)
  | pos {a e} : Reads T o ents a e → Reads T o ents (.un .pos a) (.pos e)
  | ff {op a b e1 e2} : Reads T o ents a e1 → Reads T o ents b e2 →
      Reads T o ents (.bin (symbol op) a b) (.ff op e1 e2)
  | fr {op a y e m} : Reads T o ents a e → ents.lookup y = some (.int T m) →
      Reads T o ents (.bin (symbol op) a (.var 0 y)) (.fr op e m)
  | rf {op y b e m} : ents.lookup y = some (.int T m) → Reads T o ents b e →
      Reads T o ents (.bin (symbol op) (.var 0 y) b) (.rf op m e)
  | frNum {op a e} {k : ℕ} : T = i32 → Reads T o ents a e →
      Reads T o ents (.bin (symbol op) a (.num k)) (.fr op e k)
  | rfNum {op b e} {k : ℕ} : T = i32 → Reads T o ents b e →
      Reads T o ents (.bin (symbol op) (.num k) b) (.rf op k e)

end Ieme.User
