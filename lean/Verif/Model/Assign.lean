import Verif.Model.Fraction

/-!
# Sequences of compound assignments

A user program that applies `left op= right` once per element of a list, in order, with
operands of the representation type of `left`.  Uses the compound assignments of
`/repo/include/ieme/fraction.hpp:662-682`.
-/

namespace Ieme

/-- One compound assignment: operator and right operand, a fraction or an integer. -/
inductive Assign where
  | frac (op : ArithOp) (r : Raw)
  | int (op : ArithOp) (r : Int)
deriving DecidableEq, Repr

/-- The value of `left` after one assignment.
`/repo/include/ieme/fraction.hpp:662-682`. -/
def Assign.step (T : IntTy) (o : Ops) (left : Raw) : Assign → Res Raw
  | .frac op r => Fraction.assignF T T o op left r
  | .int op r => Fraction.assignR T T o op left r

/-- The value of `left` after a sequence of assignments. -/
def Assign.run (T : IntTy) (o : Ops) (left : Raw) : List Assign → Res Raw
  | [] => pure left
  | s :: rest => do
    let left' ← s.step T o left
    Assign.run T o left' rest

end Ieme
