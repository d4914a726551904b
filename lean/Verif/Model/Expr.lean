import Verif.Model.Fraction

/-!
# Expressions

A C++ expression over fractions and integers is a composition of the operators of
`/repo/include/ieme/fraction.hpp:575-660`; `Expr` is its syntax tree and `Expr.eval` runs
it with one representation and one policy, as the types of the language force.
-/

namespace Ieme

/-- Expression trees. -/
inductive Expr where
  /-- a fraction object -/
  | lit (f : Raw)
  /-- `-e` -/
  | neg (e : Expr)
  /-- `+e` -/
  | pos (e : Expr)
  /-- `e1 op e2` -/
  | ff (op : ArithOp) (e1 e2 : Expr)
  /-- `e op n` with an integer on the right -/
  | fr (op : ArithOp) (e : Expr) (n : Int)
  /-- `n op e` with an integer on the left -/
  | rf (op : ArithOp) (n : Int) (e : Expr)

/-- Evaluation, bottom-up. `/repo/include/ieme/fraction.hpp:575-660`. -/
def Expr.eval (T : IntTy) (o : Ops) : Expr → Res Raw
  | .lit f => pure f
  | .neg e => do
    let v ← e.eval T o
    Fraction.neg T o v
  | .pos e => do
    let v ← e.eval T o
    return Fraction.pos v
  | .ff op e1 e2 => do
    let v1 ← e1.eval T o
    let v2 ← e2.eval T o
    Fraction.arith T T o op (.ff v1 v2)
  | .fr op e n => do
    let v ← e.eval T o
    Fraction.arith T T o op (.fr v n)
  | .rf op n e => do
    let v ← e.eval T o
    Fraction.arith T T o op (.rf n v)

end Ieme
