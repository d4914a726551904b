import Verif.Model.TypedExpr
import Verif.Model.FractionMath

/-!
# Programs with variables of different types

User programs whose variables are integers, fractions, mixed numbers and denominator literals of any
representations and policies.  Expressions are those of `Verif/Model/TypedExpr.lean`; an assignment
converts to the type of the variable where an implicit conversion exists, and is rejected by the
compiler otherwise.  The C++ control flow itself is not part of the library; `exec` runs a program for a
bounded number of steps, and the bound is a parameter.
-/

namespace Ieme.Overload

/-- Expressions with variables. -/
inductive VExpr where
  | var (x : Nat)
  | obj (t : Ty) (v : Val)
  | pos (e : VExpr)
  | neg (e : VExpr)
  | bin (op : ArithOp) (l r : VExpr)

/-- The declarations: a type for each variable. -/
abbrev Decls := Nat → Ty

/-- The contents of the variables. -/
abbrev Vars := Nat → Val

/-- A variable is an object: its present contents. -/
def VExpr.inst (Γ : Decls) (m : Vars) : VExpr → TExpr
  | .var x => .leaf (Γ x) (m x)
  | .obj t v => .leaf t v
  | .pos e => .pos (e.inst Γ m)
  | .neg e => .neg (e.inst Γ m)
  | .bin op l r => .bin op (l.inst Γ m) (r.inst Γ m)

/-- The type of an expression. -/
def VExpr.ty (Γ : Decls) : VExpr → Option Ty
  | .var x => some (Γ x)
  | .obj t _ => some t
  | .pos e => e.ty Γ
  | .neg e => (e.ty Γ).map Ty.neg
  | .bin op l r => (l.ty Γ).bind fun a => (r.ty Γ).bind fun b => Ty.bin op a b

/-- Implicit conversion to the type of a variable: the constructors that are not `explicit` of
`/repo/include/ieme/fraction.hpp:38-41`, `/repo/include/ieme/mixed_number.hpp:24-28`,
`/repo/include/ieme/fraction_literals.hpp:26`, and the conversion operator
`/repo/include/ieme/mixed_number.hpp:36`, of which at most one applies; between integers the
built-in conversion.  There is no conversion from a class to an integer, between policies, or between
mixed numbers of different types. -/
def convert (source target : Ty) (v : Val) : Res Val :=
  match source, target, v with
  | .int _, .int T, .int n => do return .int (← T.conv n)
  | .int _, .frac T _, .int n => do return .frac (Fraction.mk (← T.conv n))
  | .int _, .mixed W F o, .int n => do
    let w ← W.conv n
    return .mixed (← Mixed.mk' W F o w)
  | .int _, .lit s _, .int n => do return .lit (← (DenLit.mk s 0).ty.conv n)
  | .frac S o, .frac T o', .frac f =>
    if o = o' then
      if S = T then pure (.frac f) else do return .frac (← Fraction.ofOther T f)
    else .fault .illFormed
  | .frac S o, .mixed W F o', .frac f =>
    if o = o' then do return .mixed (← Mixed.ofFraction W F o S f) else .fault .illFormed
  | .mixed W F o, .frac T o', .mixed m =>
    if T = IntTy.common W F ∧ o = o' then do return .frac (← m.asFraction W F o)
    else .fault .illFormed
  | .mixed W F o, .mixed W' F' o', .mixed m =>
    if W = W' ∧ F = F' ∧ o = o' then pure (.mixed m) else .fault .illFormed
  | .lit s o, .lit s' o', .lit n =>
    if s = s' ∧ o = o' then pure (.lit n) else .fault .illFormed
  | _, _, _ => .fault .illFormed

/-- The conversion exists. -/
def Ty.converts : Ty → Ty → Bool
  | .int _, _ => true
  | .frac _ o, .frac _ o' => decide (o = o')
  | .frac _ o, .mixed _ _ o' => decide (o = o')
  | .mixed W F o, .frac T o' => decide (T = IntTy.common W F ∧ o = o')
  | .mixed W F o, .mixed W' F' o' => decide (W = W' ∧ F = F' ∧ o = o')
  | .lit s o, .lit s' o' => decide (s = s' ∧ o = o')
  | _, _ => false

/-- The new value of the left operand of `x op= y`.  Between integers the operator is built in; else
`/repo/include/ieme/fraction.hpp:662-682`. -/
def compoundAssign (op : ArithOp) (l r : Ty) (x y : Val) : Res Val :=
  match l, r, x, y with
  | .int A, .int B, .int m, .int n => do
    let k ← builtin A B op m n
    return .int (← A.conv k)
  | .frac L o, .frac R _, .frac a, .frac b =>
    match resolveAssign l r with
    | .calls .fracFrac _ => do return .frac (← Fraction.assignF L R o op a b)
    | _ => .fault .illFormed
  | .frac L o, .int R, .frac a, .int n =>
    match resolveAssign l r with
    | .calls .fracRep _ => do return .frac (← Fraction.assignR L R o op a n)
    | _ => .fault .illFormed
  | _, _, _, _ => .fault .illFormed

/-- The compound assignment is accepted. -/
def Ty.compounds (l r : Ty) : Bool :=
  match l, r with
  | .int _, .int _ => true
  | _, _ =>
    match resolveAssign l r with
    | .calls _ _ => true
    | _ => false

/-- Built-in comparisons. -/
def builtinCmp (op : CmpOp) (x y : Int) : Bool :=
  match op with
  | .equalTo => x == y
  | .notEqualTo => x != y
  | .less => decide (x < y)
  | .lessEqual => decide (x ≤ y)
  | .greater => decide (x > y)
  | .greaterEqual => decide (x ≥ y)

/-- A comparison of operands of the given types; between integers, both are converted to the common
type. -/
def compare (op : CmpOp) (l r : Ty) (x y : Val) : Res Bool :=
  match l, r, x, y with
  | .int A, .int B, .int m, .int n => do
    let m' ← (IntTy.common A B).conv m
    let n' ← (IntTy.common A B).conv n
    return builtinCmp op m' n'
  | .frac L o, .frac R _, .frac a, .frac b =>
    match resolveCmp l r with
    | .calls .fracFrac .bool => Fraction.cmp L R o op (.ff a b)
    | _ => .fault .illFormed
  | .frac L o, .int R, .frac a, .int n =>
    match resolveCmp l r with
    | .calls .fracRep .bool => Fraction.cmp L R o op (.fr a n)
    | _ => .fault .illFormed
  | .int L, .frac R o, .int n, .frac b =>
    match resolveCmp l r with
    | .calls .repFrac .bool => Fraction.cmp L R o op (.rf n b)
    | _ => .fault .illFormed
  | _, _, _, _ => .fault .illFormed

/-- The comparison is accepted. -/
def Ty.compares (l r : Ty) : Bool :=
  match l, r with
  | .int _, .int _ => true
  | _, _ =>
    match resolveCmp l r with
    | .calls _ .bool => true
    | _ => false

/-- Functions and members of one argument: `trunc`, `abs` and `reciprocal` of a fraction
(`/repo/include/ieme/fraction_math.hpp:94-98,129-133,154-158`), `whole`, `fractional` and
`as_fraction` of a mixed number (`/repo/include/ieme/mixed_number.hpp:122-150`). -/
inductive Call where
  | trunc | abs | reciprocal | whole | fractional | asFraction
deriving DecidableEq, Repr

/-- The type of a call. -/
def Call.ty : Call → Ty → Option Ty
  | .trunc, .frac T _ => some (.int T)
  | .abs, .frac T o => some (.frac T o)
  | .reciprocal, .frac T o => some (.frac T o)
  | .whole, .mixed W _ _ => some (.int W)
  | .fractional, .mixed _ F o => some (.frac F o)
  | .asFraction, .mixed W F o => some (.frac (IntTy.common W F) o)
  | _, _ => none

/-- The result of a call. -/
def Call.run : Call → Ty → Val → Res Val
  | .trunc, .frac T _, .frac f => do return .int (← Fraction.trunc T f)
  | .abs, .frac T o, .frac f => do return .frac (← Fraction.abs T o f)
  | .reciprocal, .frac _ _, .frac f => pure (.frac f.reciprocal)
  | .whole, .mixed _ _ _, .mixed m => pure (.int m.whole)
  | .fractional, .mixed _ _ _, .mixed m => pure (.frac m.frac)
  | .asFraction, .mixed W F o, .mixed m => do return .frac (← m.asFraction W F o)
  | _, _, _ => .fault .illFormed

/-- Programs: `x = e;`, `x op= e;`, `x = f(e);`, sequences, branches and loops. -/
inductive Stmt where
  | skip
  | assign (x : Nat) (e : VExpr)
  | compound (op : ArithOp) (x : Nat) (e : VExpr)
  | call (f : Call) (x : Nat) (e : VExpr)
  | seq (c d : Stmt)
  | ite (op : CmpOp) (e1 e2 : VExpr) (c d : Stmt)
  | loop (op : CmpOp) (e1 e2 : VExpr) (c : Stmt)

/-- A variable gets a new value. -/
def Vars.set (m : Vars) (x : Nat) (v : Val) : Vars := fun y => if y = x then v else m y

/-- `e1 op e2` as a condition. -/
def Stmt.test (Γ : Decls) (m : Vars) (op : CmpOp) (e1 e2 : VExpr) : Res Bool :=
  match e1.ty Γ, e2.ty Γ with
  | some a, some b => do
    let u ← (e1.inst Γ m).eval
    let v ← (e2.inst Γ m).eval
    compare op a b u v
  | _, _ => .fault .illFormed

/-- Run a program for at most the given depth of nested steps; `none` if that does not suffice. -/
def Stmt.exec (Γ : Decls) : Nat → Stmt → Vars → Res (Option Vars)
  | 0, _, _ => pure none
  | _ + 1, .skip, m => pure (some m)
  | _ + 1, .assign x e, m =>
    match e.ty Γ with
    | some t => do
      let v ← (e.inst Γ m).eval
      let v' ← convert t (Γ x) v
      return some (m.set x v')
    | none => .fault .illFormed
  | _ + 1, .compound op x e, m =>
    match e.ty Γ with
    | some t => do
      let v ← (e.inst Γ m).eval
      let v' ← compoundAssign op (Γ x) t (m x) v
      return some (m.set x v')
    | none => .fault .illFormed
  | _ + 1, .call f x e, m =>
    match e.ty Γ with
    | some t =>
      match f.ty t with
      | some t' => do
        let v ← (e.inst Γ m).eval
        let r ← f.run t v
        let v' ← convert t' (Γ x) r
        return some (m.set x v')
      | none => .fault .illFormed
    | none => .fault .illFormed
  | n + 1, .seq c d, m => do
    match ← Stmt.exec Γ n c m with
    | none => return none
    | some m' => Stmt.exec Γ n d m'
  | n + 1, .ite op e1 e2 c d, m => do
    if ← Stmt.test Γ m op e1 e2 then Stmt.exec Γ n c m else Stmt.exec Γ n d m
  | n + 1, .loop op e1 e2 c, m => do
    if ← Stmt.test Γ m op e1 e2 then
      match ← Stmt.exec Γ n c m with
      | none => return none
      | some m' => Stmt.exec Γ n (.loop op e1 e2 c) m'
    else return some m

end Ieme.Overload
