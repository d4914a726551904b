import Verif.Spec.Expr
import Verif.Spec.MixedNumber
import Verif.Model.TypedExpr

/-!
# What overload resolution should do, and what typed expressions mean
-/

namespace Ieme.Overload

/-- The policy of a type. -/
def Ty.policy : Ty → Option Ops
  | .int _ => none
  | .frac _ o => some o
  | .mixed _ _ o => some o
  | .lit _ o => some o

/-- The intended type of `x op y` where not both are integers: fractions with fractions and integers for
all operators, mixed numbers only for `+`, literals only as divisors of fractions and integers, all of
the same policy. -/
def signature : ArithOp → Ty → Ty → Option Ty
  | _, .frac L o, .frac R o' => if o = o' then some (.frac (IntTy.common L R) o) else none
  | _, .frac L o, .int R => some (.frac (IntTy.common L R) o)
  | _, .int L, .frac R o => some (.frac (IntTy.common L R) o)
  | .plus, .mixed W F o, .mixed W' F' o' =>
    if o = o' then some (.mixed (IntTy.common W W') (IntTy.common F F') o) else none
  | .plus, .mixed W F o, .frac R o' =>
    if o = o' then some (.mixed (IntTy.common W R) (IntTy.common F R) o) else none
  | .plus, .frac L o, .mixed W F o' =>
    if o = o' then some (.mixed (IntTy.common W L) (IntTy.common F L) o) else none
  | .plus, .mixed W F o, .int R => some (.mixed (IntTy.common W R) F o)
  | .plus, .int L, .mixed W F o => some (.mixed (IntTy.common L W) F o)
  | .divides, .frac T o, .lit _ o' => if o = o' then some (.frac T o) else none
  | .divides, .int T, .lit _ o => some (.frac T o)
  | _, _, _ => none

/-- The policies of the objects in an expression. -/
def TExpr.policies : TExpr → List Ops
  | .leaf t _ => t.policy.toList
  | .pos e => e.policies
  | .neg e => e.policies
  | .bin _ l r => l.policies ++ r.policies

/-- The integer types and representations of the objects in an expression without mixed numbers. -/
def TExpr.reps : TExpr → List IntTy
  | .leaf (.int T) _ => [T]
  | .leaf (.frac T _) _ => [T]
  | .leaf _ _ => []
  | .pos e => e.reps
  | .neg e => e.reps
  | .bin _ l r => l.reps ++ r.reps

/-- There are no mixed numbers in the expression. -/
def TExpr.NoMixed : TExpr → Prop
  | .leaf (.mixed _ _ _) _ => False
  | .leaf _ _ => True
  | .pos e => e.NoMixed
  | .neg e => e.NoMixed
  | .bin _ l r => l.NoMixed ∧ r.NoMixed

/-- The rank by which the usual arithmetic conversions choose: the width, then unsigned before
signed. -/
def rank (T : IntTy) : ℕ := 2 * T.bits + if T.signed then 0 else 1

/-- The integer type or representation of a type. -/
def Ty.rep : Ty → Option IntTy
  | .int T => some T
  | .frac T _ => some T
  | _ => none

/-- The value is the rational `q`; a literal stands for its integer. -/
def Val.Denotes : Val → ℚ → Prop
  | .int n, q => (n : ℚ) = q
  | .frac f, q => Ieme.Denotes f q
  | .mixed m, q => m.Denotes q
  | .lit n, q => (n : ℚ) = q

/-- The value of an object, if defined. -/
def Val.value : Val → Option ℚ
  | .int n => some n
  | .frac f => litValue f
  | .mixed m => (litValue m.frac).map fun x => m.whole + x
  | .lit n => some n

/-- Integers divided by integers are truncated. -/
def binValue (op : ArithOp) (l r : Ty) (x y : ℚ) : Option ℚ :=
  match op, l, r with
  | .divides, .int _, .int _ => if y = 0 then none else some (ratTrunc (x / y))
  | _, _, _ => op.value x y

/-- The exact value of an expression; `none` when it has no type, or a division by zero or an undefined
fraction occurs anywhere. -/
def TExpr.value : TExpr → Option ℚ
  | .leaf _ v => v.value
  | .pos e => e.value
  | .neg e => e.value.map fun x => -x
  | .bin op l r =>
    match l.ty, r.ty with
    | some a, some b => l.value.bind fun x => r.value.bind fun y => binValue op a b x y
    | _, _ => none

/-- The value is one of the type. -/
def Val.HasTy : Val → Ty → Prop
  | .int n, .int T => T.InRange n
  | .frac f, .frac T _ => f.InRange T
  | .mixed m, .mixed W F _ => W.InRange m.whole ∧ m.frac.InRange F
  | .lit n, .lit s _ => (DenLit.mk s n).InRange
  | _, _ => False

/-- Every object is one of its type (always true of a C++ program). -/
def TExpr.WellTyped : TExpr → Prop
  | .leaf t v => v.HasTy t
  | .pos e => e.WellTyped
  | .neg e => e.WellTyped
  | .bin _ l r => l.WellTyped ∧ r.WellTyped

end Ieme.Overload

/-- An expression over one representation and policy with the types written out. -/
def Ieme.Expr.typed (T : Ieme.IntTy) (o : Ieme.Ops) : Ieme.Expr → Ieme.Overload.TExpr
  | .lit f => .leaf (.frac T o) (.frac f)
  | .neg e => .neg (e.typed T o)
  | .pos e => .pos (e.typed T o)
  | .ff op a b => .bin op (a.typed T o) (b.typed T o)
  | .fr op a n => .bin op (a.typed T o) (.leaf (.int T) (.int n))
  | .rf op n b => .bin op (.leaf (.int T) (.int n)) (b.typed T o)
