import Verif.Model.Duration

/-!
# Expressions over durations, time points and numbers

`ieme::chrono::duration` and `time_point` are aliases of the types of `std::chrono`
(`/repo/include/ieme/chrono.hpp:30-31`, `49-53`), so an expression over them is typed and
evaluated by the operators of [time.duration.nonmember], [time.duration.arithmetic] and
[time.point.nonmember], over those of `/repo/include/ieme/fraction.hpp:575-660`.

All fractions have one representation and one policy, since fractions of different ones have no
common type as counts.  Durations and time points of the standard library, which count in
integers, may occur wherever one operand of the operator counts in fractions.  Integers that are
not counts have the representation type.  All time points are of one clock.
-/

namespace Ieme.Chrono

deriving instance DecidableEq for Count

/-- What an operand is: a plain number, a duration or a time point; the latter have a period. -/
inductive Shape where
  | num
  | dur (p : Period)
  | tp (p : Period)

/-- The static type of an expression: what it is, and whether it counts in fractions. -/
structure TimeTy where
  frac : Bool
  shape : Shape

/-- The period of the common type of two durations, if they have one to which both convert. -/
def commonTy (p q : Period) : Option Period :=
  match commonPeriod p q with
  | none => none
  | some c => if (ratioDivide p c).isNone ∨ (ratioDivide q c).isNone then none else some c

/-- Which operators exist, and what they return: [time.duration.nonmember],
[time.point.nonmember]. -/
def Shape.result (op : ArithOp) : Shape → Shape → Option Shape
  | .num, .num => some .num
  | .num, .dur q => match op with
    | .multiplies => some (.dur q)
    | _ => none
  | .dur p, .num => match op with
    | .multiplies | .divides | .modulus => some (.dur p)
    | _ => none
  | .dur p, .dur q => match op with
    | .plus | .minus | .modulus => (commonTy p q).map .dur
    | .divides => (commonTy p q).map fun _ => .num
    | .multiplies => none
  | .tp p, .dur q => match op with
    | .plus | .minus => (commonTy p q).map .tp
    | _ => none
  | .dur p, .tp q => match op with
    | .plus => (commonTy p q).map .tp
    | _ => none
  | .tp p, .tp q => match op with
    | .minus => (commonTy p q).map .dur
    | _ => none
  | .num, .tp _ => none
  | .tp _, .num => none

/-- The type of `l op r`; operators on integers and on durations that both count in integers
are not those of the library. -/
def TimeTy.result (op : ArithOp) (l r : TimeTy) : Option TimeTy :=
  if l.frac ∨ r.frac then (Shape.result op l.shape r.shape).map fun s => ⟨true, s⟩ else none

/-- `operator*`, `operator/` and `operator%` of a duration of period `p` and a number: the count
is first converted to the common type, of the same period. -/
def scaleCount (T : IntTy) (o : Ops) (op : ArithOp) (p : Period) (d k : Count) : Res Raw := do
  let x ← convert T o p p d
  match k with
  | .frac g => scaleFrac T o op x g
  | .int n => scaleInt T o op x n

/-- The operators, by the types of their operands. -/
def applyOp (T : IntTy) (o : Ops) (op : ArithOp) (s t : Shape) (l r : Count) : Res Raw :=
  match s, t with
  | .num, .num => match l, r with
    | .frac f, .frac g => Fraction.arith T T o op (.ff f g)
    | .frac f, .int n => Fraction.arith T T o op (.fr f n)
    | .int n, .frac g => Fraction.arith T T o op (.rf n g)
    | .int _, .int _ => .fault .illFormed
  | .dur p, .num => scaleCount T o op p l r
  | .num, .dur q => scaleCount T o op q r l
  | .dur p, .dur q | .tp p, .dur q | .dur p, .tp q | .tp p, .tp q => arith T o op p q l r
  | .num, .tp _ => .fault .illFormed
  | .tp _, .num => .fault .illFormed

/-- Expression trees over variables. -/
inductive TimeExpr where
  | var (x : Nat)
  /-- `-e` of a number or a duration -/
  | neg (e : TimeExpr)
  /-- `e1 op e2` -/
  | bin (op : ArithOp) (e1 e2 : TimeExpr)
  /-- conversion of a duration or a time point to one that counts in fractions, of period `q`:
  the converting constructors, `duration_cast`, and with the period unchanged `to_fractional` -/
  | cast (q : Period) (e : TimeExpr)

/-- The static type of an expression; none if the compiler rejects it. -/
def TimeExpr.ty (Γ : Nat → TimeTy) : TimeExpr → Option TimeTy
  | .var x => some (Γ x)
  | .neg e => match e.ty Γ with
    | some ⟨true, .num⟩ => some ⟨true, .num⟩
    | some ⟨true, .dur p⟩ => some ⟨true, .dur p⟩
    | _ => none
  | .bin op e1 e2 => match e1.ty Γ, e2.ty Γ with
    | some a, some b => TimeTy.result op a b
    | _, _ => none
  | .cast q e => match e.ty Γ with
    | some ⟨_, .dur p⟩ => if (ratioDivide p q).isSome then some ⟨true, .dur q⟩ else none
    | some ⟨_, .tp p⟩ => if (ratioDivide p q).isSome then some ⟨true, .tp q⟩ else none
    | _ => none

/-- Evaluation, bottom-up, for the values `σ` of the variables. -/
def TimeExpr.run (T : IntTy) (o : Ops) (Γ : Nat → TimeTy) (σ : Nat → Count) :
    TimeExpr → Res Count
  | .var x => pure (σ x)
  | .neg e => do
    let v ← e.run T o Γ σ
    match v with
    | .frac f => do
      let g ← Chrono.neg T o f
      return .frac g
    | .int _ => .fault .illFormed
  | .bin op e1 e2 => match e1.ty Γ, e2.ty Γ with
    | some a, some b => do
      let x ← e1.run T o Γ σ
      let y ← e2.run T o Γ σ
      let f ← applyOp T o op a.shape b.shape x y
      return .frac f
    | _, _ => .fault .illFormed
  | .cast q e => match e.ty Γ with
    | some ⟨_, .dur p⟩ | some ⟨_, .tp p⟩ => do
      let v ← e.run T o Γ σ
      let f ← convert T o p q v
      return .frac f
    | _ => .fault .illFormed

/-- The program is compiled, then run. -/
def TimeExpr.eval (T : IntTy) (o : Ops) (Γ : Nat → TimeTy) (σ : Nat → Count) (e : TimeExpr) :
    Res Count :=
  match e.ty Γ with
  | none => .fault .illFormed
  | some _ => e.run T o Γ σ

/-- Comparison of two durations or two time points. -/
def TimeExpr.compare (T : IntTy) (o : Ops) (Γ : Nat → TimeTy) (σ : Nat → Count) (op : CmpOp)
    (e1 e2 : TimeExpr) : Res Bool :=
  match e1.ty Γ, e2.ty Γ with
  | some ⟨a, .dur p⟩, some ⟨b, .dur q⟩ | some ⟨a, .tp p⟩, some ⟨b, .tp q⟩ =>
    if (a ∨ b) ∧ (commonTy p q).isSome then do
      let x ← e1.run T o Γ σ
      let y ← e2.run T o Γ σ
      cmp T o op p q x y
    else .fault .illFormed
  | _, _ => .fault .illFormed

end Ieme.Chrono
