import Verif.Model.Expr

/-!
# Programs with variables, branches and loops

User programs whose variables are `fraction` objects of one representation and policy, assigned
from expressions over the operators of `/repo/include/ieme/fraction.hpp:575-660` and controlled by
its comparisons (lines 690-718) of two fractions.  The C++ control flow itself is not part of the
library; `exec` runs a program for a bounded number of steps, and the bound is a parameter.
-/

namespace Ieme

/-- Expressions with variables. -/
inductive PExpr where
  | var (x : Nat)
  | lit (f : Raw)
  | neg (e : PExpr)
  | pos (e : PExpr)
  | ff (op : ArithOp) (e1 e2 : PExpr)
  | fr (op : ArithOp) (e : PExpr) (n : Int)
  | rf (op : ArithOp) (n : Int) (e : PExpr)

/-- Programs. -/
inductive Cmd where
  | skip
  | assign (x : Nat) (e : PExpr)
  | seq (c d : Cmd)
  | ite (op : CmpOp) (e1 e2 : PExpr) (c d : Cmd)
  | loop (op : CmpOp) (e1 e2 : PExpr) (c : Cmd)

/-- The contents of the variables. -/
abbrev Mem := Nat → Raw

/-- A variable is a fraction object: its present contents. -/
def PExpr.inst (m : Mem) : PExpr → Expr
  | .var x => .lit (m x)
  | .lit f => .lit f
  | .neg e => .neg (e.inst m)
  | .pos e => .pos (e.inst m)
  | .ff op e1 e2 => .ff op (e1.inst m) (e2.inst m)
  | .fr op e n => .fr op (e.inst m) n
  | .rf op n e => .rf op n (e.inst m)

/-- `e1 op e2` as a condition. -/
def Cmd.test (T : IntTy) (o : Ops) (m : Mem) (op : CmpOp) (e1 e2 : PExpr) : Res Bool := do
  let v1 ← (e1.inst m).eval T o
  let v2 ← (e2.inst m).eval T o
  Fraction.cmp T T o op (.ff v1 v2)

/-- Run a program for at most the given depth of nested steps; `none` if that does not suffice. -/
def Cmd.exec (T : IntTy) (o : Ops) : Nat → Cmd → Mem → Res (Option Mem)
  | 0, _, _ => pure none
  | _ + 1, .skip, m => pure (some m)
  | _ + 1, .assign x e, m => do
    let v ← (e.inst m).eval T o
    return some fun y => if y = x then v else m y
  | n + 1, .seq c d, m => do
    match ← Cmd.exec T o n c m with
    | none => return none
    | some m' => Cmd.exec T o n d m'
  | n + 1, .ite op e1 e2 c d, m => do
    if ← Cmd.test T o m op e1 e2 then Cmd.exec T o n c m else Cmd.exec T o n d m
  | n + 1, .loop op e1 e2 c, m => do
    if ← Cmd.test T o m op e1 e2 then
      match ← Cmd.exec T o n c m with
      | none => return none
      | some m' => Cmd.exec T o n (.loop op e1 e2 c) m'
    else return some m

end Ieme
