import Verif.Spec.UserFit
import Verif.Spec.ProgramBounds

/-!
# Spec: programs of the model as code of users

Which code of users (`Verif/Spec/UserCode.lean`) is which program of C110 and C114.
-/

namespace Ieme.User

open Header

/-- The symbol of a comparison. -/
def cmpSymbol : CmpOp → BinOp
  | .equalTo => .eq
  | .notEqualTo => .ne
  | .less => .lt
  | .lessEqual => .le
  | .greater => .gt
  | .greaterEqual => .ge

/-- The expression in the code of a user is this expression of the model; `V` are the names of its
variables.  Number literals have the type `int`. -/
inductive ReadsExpr (T : IntTy) (V : List ℕ) : Header.Expr → PExpr → Prop
  | var {x} : x ∈ V → ReadsExpr T V (.var 0 x) (.var x)
  | neg {a e} : ReadsExpr T V a e → ReadsExpr T V (.un .neg a) (.neg e)
  | pos {a e} : ReadsExpr T V a e → ReadsExpr T V (.un .pos a) (.pos e)
  | ff {op a b e1 e2} : ReadsExpr T V a e1 → ReadsExpr T V b e2 →
      ReadsExpr T V (.bin (symbol op) a b) (.ff op e1 e2)
  | fr {op a e} {k : ℕ} : T = i32 → ReadsExpr T V a e →
      ReadsExpr T V (.bin (symbol op) a (.num k)) (.fr op e k)
  | rf {op b e} {k : ℕ} : T = i32 → ReadsExpr T V b e →
      ReadsExpr T V (.bin (symbol op) (.num k) b) (.rf op k e)

/-- The statements in the code of a user are this program of the model. -/
inductive ReadsStmt (T : IntTy) (V : List ℕ) : Stmt → Cmd → Prop
  | nil : ReadsStmt T V .nil .skip
  | assign {x a e s c} : x ∈ V → ReadsExpr T V a e → ReadsStmt T V s c →
      ReadsStmt T V (.assign x a s) (.seq (.assign x e) c)
  | ite {op a b e1 e2 s1 s2 c1 c2 s c} : ReadsExpr T V a e1 → ReadsExpr T V b e2 →
      ReadsStmt T V s1 c1 → ReadsStmt T V s2 c2 → ReadsStmt T V s c →
      ReadsStmt T V (.ite (.bin (cmpSymbol op) a b) s1 s2 s) (.seq (.ite op e1 e2 c1 c2) c)

/-- The code of a user is this program of the model. -/
inductive ReadsCode (T : IntTy) (V : List ℕ) : Code → Cmd → Prop
  | stmt {s c} : ReadsStmt T V s c → ReadsCode T V (.stmt s) c
  | seq {a b c d} : ReadsCode T V a c → ReadsCode T V b d → ReadsCode T V (.seq a b) (.seq c d)
  | loop {op a b e1 e2 body c} : ReadsExpr T V a e1 → ReadsExpr T V b e2 → ReadsCode T V body c →
      ReadsCode T V (.while (.bin (cmpSymbol op) a b) body) (.loop op e1 e2 c)

/-- The variables have these contents. -/
def Contents (T : IntTy) (o : Ops) (V : List ℕ) (ents : List (ℕ × Val)) (m : Ieme.Mem) : Prop :=
  ∀ x ∈ V, ents.lookup x = some (.frac T o (m x))

end Ieme.User
