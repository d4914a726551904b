import Verif.Model.TimeExpr

/-!
# Programs over durations, time points and numbers

User programs whose variables are objects of the types of `/repo/include/ieme/chrono.hpp:30-31`
and `49-53`, of the integral types of `std::chrono`, or numbers.  Assignment converts by the
converting constructors of [time.duration.cons] and [time.point.cons], which are implicit since
`treat_as_floating_point` holds of fractions (`chrono.hpp:17-19`), or by the implicit constructor
`/repo/include/ieme/fraction.hpp:40`.  Compound assignment is that of
[time.duration.arithmetic], [time.point.arithmetic] and `fraction.hpp:662-682`.

As in `Verif.Model.TimeExpr` there is one representation, one policy and one clock, and only
variables that count in fractions are assigned to.  The control flow is not part of the library;
`exec` runs a program for a bounded number of steps, and the bound is a parameter.
-/

namespace Ieme.Chrono

/-- Programs. -/
inductive TimeCmd where
  | skip
  /-- `x = e` -/
  | assign (x : Nat) (e : TimeExpr)
  /-- `x op= e` -/
  | update (op : ArithOp) (x : Nat) (e : TimeExpr)
  | seq (c d : TimeCmd)
  | ite (op : CmpOp) (e1 e2 : TimeExpr) (c d : TimeCmd)
  | loop (op : CmpOp) (e1 e2 : TimeExpr) (c : TimeCmd)

/-- Whether a value of the second type is assigned to a variable of the first, which counts in
fractions. -/
def Shape.assignable : Shape → Shape → Bool
  | .num, .num => true
  | .dur p, .dur q => (ratioDivide q p).isSome
  | .tp p, .tp q => (ratioDivide q p).isSome
  | _, _ => false

/-- Whether `x op= e` exists: [time.duration.arithmetic], [time.point.arithmetic]. -/
def Shape.updatable (op : ArithOp) : Shape → Shape → Bool
  | .num, .num => true
  | .dur _, .num => match op with
    | .multiplies | .divides | .modulus => true
    | _ => false
  | .dur p, .dur q => match op with
    | .plus | .minus | .modulus => (ratioDivide q p).isSome
    | _ => false
  | .tp p, .dur q => match op with
    | .plus | .minus => (ratioDivide q p).isSome
    | _ => false
  | _, _ => false

/-- Whether the comparison compiles. -/
def TimeExpr.comparable (Γ : Nat → TimeTy) (e1 e2 : TimeExpr) : Bool :=
  match e1.ty Γ, e2.ty Γ with
  | some ⟨a, .dur p⟩, some ⟨b, .dur q⟩ | some ⟨a, .tp p⟩, some ⟨b, .tp q⟩ =>
    (a || b) && (commonTy p q).isSome
  | _, _ => false

/-- Whether the program compiles. -/
def TimeCmd.ok (Γ : Nat → TimeTy) : TimeCmd → Bool
  | .skip => true
  | .assign x e => (Γ x).frac && match e.ty Γ with
    | some τ => (Γ x).shape.assignable τ.shape
    | none => false
  | .update op x e => (Γ x).frac && match e.ty Γ with
    | some τ => (Γ x).shape.updatable op τ.shape
    | none => false
  | .seq c d => c.ok Γ && d.ok Γ
  | .ite _ e1 e2 c d => e1.comparable Γ e2 && c.ok Γ && d.ok Γ
  | .loop _ e1 e2 c => e1.comparable Γ e2 && c.ok Γ

/-- The fraction made of a number: the constructor `fraction.hpp:40` for integers. -/
def Count.toFraction : Count → Raw
  | .frac f => f
  | .int n => ⟨n, 1⟩

/-- The new count of the variable in `x = e`. -/
def assignCount (T : IntTy) (o : Ops) : Shape → Shape → Count → Res Raw
  | .num, .num, v => pure v.toFraction
  | .dur p, .dur q, v => convert T o q p v
  | .tp p, .tp q, v => convert T o q p v
  | _, _, _ => .fault .illFormed

/-- The new count of the variable in `x op= e`.  A number on the right of a duration is first
made a fraction, since `operator*=` takes the type of the count. -/
def updateCount (T : IntTy) (o : Ops) (op : ArithOp) : Shape → Shape → Raw → Count → Res Raw
  | .num, .num, f, .frac g => Fraction.assignF T T o op f g
  | .num, .num, f, .int n => Fraction.assignR T T o op f n
  | .dur _, .num, f, k => Fraction.assignF T T o op f k.toFraction
  | .dur p, .dur q, f, v => Chrono.assign T o op p q f v
  | .tp p, .dur q, f, v => Chrono.assign T o op p q f v
  | _, _, _, _ => .fault .illFormed

/-- One variable changed. -/
def setCount (σ : Nat → Count) (x : Nat) (f : Raw) : Nat → Count :=
  fun y => if y = x then .frac f else σ y

/-- Run a program for at most the given depth of nested steps; `none` if that does not suffice. -/
def TimeCmd.exec (T : IntTy) (o : Ops) (Γ : Nat → TimeTy) :
    Nat → TimeCmd → (Nat → Count) → Res (Option (Nat → Count))
  | 0, _, _ => pure none
  | _ + 1, .skip, σ => pure (some σ)
  | _ + 1, .assign x e, σ => match e.ty Γ with
    | some τ => do
      let v ← e.run T o Γ σ
      let f ← assignCount T o (Γ x).shape τ.shape v
      return some (setCount σ x f)
    | none => .fault .illFormed
  | _ + 1, .update op x e, σ => match e.ty Γ, σ x with
    | some τ, .frac f => do
      let v ← e.run T o Γ σ
      let g ← updateCount T o op (Γ x).shape τ.shape f v
      return some (setCount σ x g)
    | _, _ => .fault .illFormed
  | n + 1, .seq c d, σ => do
    match ← TimeCmd.exec T o Γ n c σ with
    | none => return none
    | some σ' => TimeCmd.exec T o Γ n d σ'
  | n + 1, .ite op e1 e2 c d, σ => do
    if ← TimeExpr.compare T o Γ σ op e1 e2 then TimeCmd.exec T o Γ n c σ
    else TimeCmd.exec T o Γ n d σ
  | n + 1, .loop op e1 e2 c, σ => do
    if ← TimeExpr.compare T o Γ σ op e1 e2 then
      match ← TimeCmd.exec T o Γ n c σ with
      | none => return none
      | some σ' => TimeCmd.exec T o Γ n (.loop op e1 e2 c) σ'
    else return some σ

/-- The program is compiled, then run. -/
def TimeCmd.main (T : IntTy) (o : Ops) (Γ : Nat → TimeTy) (n : Nat) (c : TimeCmd)
    (σ : Nat → Count) : Res (Option (Nat → Count)) :=
  if c.ok Γ then c.exec T o Γ n σ else .fault .illFormed

end Ieme.Chrono
