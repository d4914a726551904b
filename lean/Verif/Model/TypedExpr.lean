import Verif.Model.Overload

/-!
# Expressions over operands of different types

Expressions that mix integers, denominator literals, fractions and mixed numbers of any
representation and policy.  Which function an operator calls is decided by overload resolution
(`Verif/Model/Overload.lean`) on the types of its operands; between two integers it is the built-in
operator.  A program whose resolution fails is rejected by the compiler (`Fault.illFormed`).
-/

namespace Ieme.Overload

/-- Values of the types. -/
inductive Val where
  | int (n : Int)
  | frac (f : Raw)
  | mixed (m : Mixed)
  | lit (n : Int)
deriving DecidableEq, Repr

/-- Expressions: objects of a type, unary and binary operators. -/
inductive TExpr where
  | leaf (t : Ty) (v : Val)
  | pos (e : TExpr)
  | neg (e : TExpr)
  | bin (op : ArithOp) (l r : TExpr)

/-- The type of unary minus: a negated literal is signed,
`/repo/include/ieme/fraction_literals.hpp:41-43`. -/
def Ty.neg : Ty → Ty
  | .lit _ o => .lit true o
  | t => t

/-- The type of a binary operator, `none` if it is rejected or its type is strange. -/
def Ty.bin (op : ArithOp) (l r : Ty) : Option Ty :=
  match l, r with
  | .int A, .int B => some (.int (IntTy.common A B))
  | _, _ =>
    match resolve op l r with
    | .calls _ (.ty t) => some t
    | _ => none

/-- The type of an expression. -/
def TExpr.ty : TExpr → Option Ty
  | .leaf t _ => some t
  | .pos e => e.ty
  | .neg e => e.ty.map Ty.neg
  | .bin op l r => l.ty.bind fun a => r.ty.bind fun b => Ty.bin op a b

/-- Built-in operators: both operands are converted to the common type. -/
def builtin (A B : IntTy) (op : ArithOp) (x y : Int) : Res Int := do
  let x' ← (IntTy.common A B).conv x
  let y' ← (IntTy.common A B).conv y
  match op with
  | .plus => (IntTy.common A B).add x' y'
  | .minus => (IntTy.common A B).sub x' y'
  | .multiplies => (IntTy.common A B).mul x' y'
  | .divides => (IntTy.common A B).div x' y'
  | .modulus => (IntTy.common A B).mod x' y'

/-- Unary minus. -/
def negate : Ty → Val → Res Val
  | .int T, .int n => do return .int (← T.neg n)
  | .frac T o, .frac f => do return .frac (← Fraction.neg T o f)
  | .mixed W F o, .mixed m => do return .mixed (← m.neg W F o)
  | .lit s _, .lit n => do return .lit (← DenLit.neg ⟨s, n⟩).value
  | _, _ => .fault .illFormed

/-- The call of an operator function on operands of the given types. -/
def call (f : Fn) (op : ArithOp) (l r : Ty) (x y : Val) : Res Val :=
  match f, l, r, x, y with
  | .fracFrac, .frac L o, .frac R _, .frac a, .frac b => do
    return .frac (← Fraction.arith L R o op (.ff a b))
  | .fracRep, .frac L o, .int R, .frac a, .int n => do
    return .frac (← Fraction.arith L R o op (.fr a n))
  | .repFrac, .int L, .frac R o, .int n, .frac b => do
    return .frac (← Fraction.arith L R o op (.rf n b))
  | .mixMix, .mixed W F o, .mixed W' F' _, .mixed a, .mixed b => do
    return .mixed (← Mixed.add W F W' F' o a b)
  | .mixFrac, .mixed W F o, .frac R _, .mixed a, .frac b => do
    return .mixed (← Mixed.addFraction W F R o a b)
  | .fracMix, .frac L _, .mixed W F o, .frac a, .mixed b => do
    return .mixed (← Mixed.addFraction W F L o b a)
  | .mixRep, .mixed W F o, .int R, .mixed a, .int n => do
    return .mixed (← Mixed.addWhole W F R o a n)
  | .repMix, .int L, .mixed W F o, .int n, .mixed b => do
    return .mixed (← Mixed.addWhole W F L o b n)
  | .fracLit, .frac T o, .lit s _, .frac a, .lit n => do
    return .frac (← DenLit.divFraction T o a ⟨s, n⟩)
  | .repLit, .int T, .lit s _, .int m, .lit n => do
    return .frac (← DenLit.divRep T m ⟨s, n⟩)
  | _, _, _, _, _ => .fault .illFormed

/-- A binary operator on operands of the given types. -/
def apply (op : ArithOp) (l r : Ty) (x y : Val) : Res Val :=
  match l, r, x, y with
  | .int A, .int B, .int m, .int n => do return .int (← builtin A B op m n)
  | _, _, _, _ =>
    match resolve op l r with
    | .calls f (.ty _) => call f op l r x y
    | _ => .fault .illFormed

/-- Evaluation. -/
def TExpr.eval : TExpr → Res Val
  | .leaf _ v => pure v
  | .pos e => e.eval
  | .neg e =>
    match e.ty with
    | some t => do
      let v ← e.eval
      negate t v
    | none => .fault .illFormed
  | .bin op l r =>
    match l.ty, r.ty with
    | some a, some b => do
      let x ← l.eval
      let y ← r.eval
      apply op a b x y
    | _, _ => .fault .illFormed

end Ieme.Overload
