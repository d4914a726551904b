import Verif.Spec.UserCode
import Verif.Spec.Faults

/-!
# Spec: the types of code that uses fractions

Which code of users is well typed, without regard to values: the rules of C++ for the types of
expressions (`std::common_type_t` for operands of two types), for assignments and for declarations.
Names declared in a block must not be in use already, because the interpreter keeps them after the
block.
-/

namespace Ieme.User

open Header

/-! ## Types -/

/-- The type of an object: a truth value, an integer, a fraction or a mixed number. -/
inductive UTy where
  | bool
  | int (T : IntTy)
  | frac (T : IntTy)
  | mixed (W F : IntTy)
deriving DecidableEq

/-- The object has this type and its numbers are in range; fractions and mixed numbers have
the policy `o`. -/
def HasTy (o : Ops) : Val → UTy → Prop
  | .bool _, .bool => True
  | .int S n, .int T => S = T ∧ T.InRange n
  | .frac S p r, .frac T => S = T ∧ p = o ∧ r.InRange T
  | .mixed A B p m, .mixed W F => A = W ∧ B = F ∧ p = o ∧ W.InRange m.whole ∧ m.frac.InRange F
  | _, _ => False

/-- Names and their types, the latest first. -/
abbrev Ctx := List (Nat × UTy)

/-- The variables hold objects of these types. -/
def Holds (o : Ops) (ents : List (Nat × Val)) (Γ : Ctx) : Prop :=
  ∀ x t, Γ.lookup x = some t → ∃ v, ents.lookup x = some v ∧ HasTy o v t

/-- `+`, `-`, `*`, `/`, `%` -/
def arithOps : List BinOp := [.add, .sub, .mul, .div, .mod]

/-- `==`, `!=`, `<`, `<=`, `>`, `>=` -/
def cmpOps : List BinOp := [.eq, .ne, .lt, .le, .gt, .ge]

/-- The type of an operator's result. -/
def opTy (op : BinOp) : UTy → UTy → Option UTy
  | .int A, .int B =>
    if op ∈ arithOps then some (.int (A.common B)) else if op ∈ cmpOps then some .bool else none
  | .frac A, .frac B =>
    if op ∈ arithOps then some (.frac (A.common B)) else if op ∈ cmpOps then some .bool else none
  | .frac A, .int B =>
    if op ∈ arithOps then some (.frac (A.common B)) else if op ∈ cmpOps then some .bool else none
  | .int A, .frac B =>
    if op ∈ arithOps then some (.frac (A.common B)) else if op ∈ cmpOps then some .bool else none
  | .mixed A B, .mixed W F => if op = .add then some (.mixed (A.common W) (B.common F)) else none
  | .mixed A B, .frac T => if op = .add then some (.mixed (A.common T) (B.common T)) else none
  | .frac T, .mixed A B => if op = .add then some (.mixed (A.common T) (B.common T)) else none
  | .mixed A B, .int T => if op = .add then some (.mixed (A.common T) B) else none
  | .int T, .mixed A B => if op = .add then some (.mixed (A.common T) B) else none
  | _, _ => none

/-- The type of the result of a function on a fraction over `T`. -/
def funTy (f : Nat) (T : IntTy) : Option UTy :=
  if f ∈ [N.«abs», N.«reduce», N.«normalize_signs», N.«reciprocal»] then some (.frac T)
  else if f ∈ [N.«trunc», N.«ceil», N.«floor», N.«round»] then some (.int T)
  else if f ∈ [N.«is_defined», N.«is_undefined», N.«is_positive», N.«is_non_negative», N.«is_zero»,
      N.«is_non_positive», N.«is_negative», N.«is_integer», N.«is_unit_fraction»,
      N.«is_reduced_ignore_signs», N.«is_reduced», N.«is_proper», N.«is_improper»] then some .bool
  else none

/-- The functions that give a fraction another denominator. -/
def redenominations : List Nat :=
  [N.«trunc_redenominate», N.«floor_redenominate», N.«ceil_redenominate», N.«round_redenominate»,
    N.«redenominate»]

/-- The type of the result of a member function without arguments. -/
def methodTy (f : Nat) : UTy → Option UTy
  | .frac T =>
    if f ∈ [N.«numerator», N.«denominator», N.«num», N.«den»] then some (.int T) else none
  | .mixed W F =>
    if f = N.«whole» then some (.int W)
    else if f = N.«fractional» then some (.frac F)
    else if f = N.«as_fraction» then some (.frac (W.common F))
    else none
  | _ => none

/-- Whether an object of the second type can be assigned to a variable of the first. -/
def assignable : UTy → UTy → Prop
  | .bool, .bool => True
  | .int _, .int _ => True
  | .frac _, .frac _ => True
  | .frac _, .int _ => True
  | .mixed _ _, .int _ => True
  | .mixed _ _, .frac _ => True
  | .mixed A B, .mixed W F => A = W ∧ B = F
  | _, _ => False

/-- Integers and fractions: the types with compound assignments. -/
def UTy.number : UTy → Prop
  | .int _ => True
  | .frac _ => True
  | _ => False

/-- The type that a declared name means, as a type of objects. -/
def objTy (o : Ops) : TVal → Option UTy
  | .int T => some (.int T)
  | .frac T p => if p = o then some (.frac T) else none
  | .mixed W F p => if p = o then some (.mixed W F) else none
  | _ => none

/-- The types of expressions. -/
inductive ExprTy (o : Ops) (tys : Types) (Γ : Ctx) : Header.Expr → UTy → Prop
  | num {n : Nat} : i32.InRange n → ExprTy o tys Γ (.num n) (.int i32)
  | var {x t} : Γ.lookup x = some t → ExprTy o tys Γ (.var 0 x) t
  | neg {e t} : ExprTy o tys Γ e t → t ≠ .bool → ExprTy o tys Γ (.un .neg e) t
  | pos {e t} : ExprTy o tys Γ e t → t ≠ .bool → ExprTy o tys Γ (.un .pos e) t
  | not {e} : ExprTy o tys Γ e .bool → ExprTy o tys Γ (.un .not e) .bool
  | bin {op a b s t u} : ExprTy o tys Γ a s → ExprTy o tys Γ b t → opTy op s t = some u →
      ExprTy o tys Γ (.bin op a b) u
  | and {a b} : ExprTy o tys Γ a .bool → ExprTy o tys Γ b .bool → ExprTy o tys Γ (.bin .and a b) .bool
  | or {a b} : ExprTy o tys Γ a .bool → ExprTy o tys Γ b .bool → ExprTy o tys Γ (.bin .or a b) .bool
  | cond {c a b t} : ExprTy o tys Γ c .bool → ExprTy o tys Γ a t → ExprTy o tys Γ b t →
      ExprTy o tys Γ (.cond c a b) t
  | call {f e T t} : tys.lookup f = none → ExprTy o tys Γ e (.frac T) → funTy f T = some t →
      ExprTy o tys Γ (.call 0 f [] (.cons e .nil)) t
  | redenominate {f e a T} : tys.lookup f = none → f ∈ redenominations →
      ExprTy o tys Γ e (.frac T) → ExprTy o tys Γ a (.int T) →
      ExprTy o tys Γ (.call 0 f [] (.cons e (.cons a .nil))) (.frac T)
  | make {f T A B a b} : tys.lookup f = some (.frac T o) → ExprTy o tys Γ a (.int A) →
      ExprTy o tys Γ b (.int B) → ExprTy o tys Γ (.call 0 f [] (.cons a (.cons b .nil))) (.frac T)
  | makeMix {f W F A a b} : tys.lookup f = some (.mixed W F o) → ExprTy o tys Γ a (.int A) →
      ExprTy o tys Γ b (.frac F) →
      ExprTy o tys Γ (.call 0 f [] (.cons a (.cons b .nil))) (.mixed W F)
  | method {e f s t} : ExprTy o tys Γ e s → methodTy f s = some t →
      ExprTy o tys Γ (.method e f) t
  | convert {f v e s t} : tys.lookup f = some v → objTy o v = some t → ExprTy o tys Γ e s →
      assignable t s → ExprTy o tys Γ (.call 0 f [] (.cons e .nil)) t
  | cast {τ v e s t} : evalTy tys τ = some v → objTy o v = some t → ExprTy o tys Γ e s →
      assignable t s → ExprTy o tys Γ (.cast τ e) t

/-- Statements that are well typed and return objects of the type `ret`. -/
inductive StmtTy (o : Ops) (tys : Types) (ret : UTy) : Ctx → Stmt → Prop
  | nil {Γ} : StmtTy o tys ret Γ .nil
  | ret {Γ e s} : ExprTy o tys Γ e ret → StmtTy o tys ret Γ (.ret e s)
  | decl {Γ x e s t} : ExprTy o tys Γ e t → Γ.lookup x = none → StmtTy o tys ret ((x, t) :: Γ) s →
      StmtTy o tys ret Γ (.decl x e s)
  | assign {Γ x e s t u} : ExprTy o tys Γ e u → Γ.lookup x = some t → assignable t u →
      StmtTy o tys ret Γ s → StmtTy o tys ret Γ (.assign x e s)
  | update {Γ x op e s t u} : ExprTy o tys Γ e u → Γ.lookup x = some t → assignable t u →
      t.number → op ∈ arithOps → StmtTy o tys ret Γ s → StmtTy o tys ret Γ (.update x op e s)
  | ite {Γ c a b s} : ExprTy o tys Γ c .bool → StmtTy o tys ret Γ a → StmtTy o tys ret Γ b →
      StmtTy o tys ret Γ s → StmtTy o tys ret Γ (.ite c a b s)

/-- Code that is well typed. -/
inductive CodeTy (o : Ops) (tys : Types) (ret : UTy) (Γ : Ctx) : Code → Prop
  | stmt {s} : StmtTy o tys ret Γ s → CodeTy o tys ret Γ (.stmt s)
  | seq {a b} : CodeTy o tys ret Γ a → CodeTy o tys ret Γ b → CodeTy o tys ret Γ (.seq a b)
  | while {c b} : ExprTy o tys Γ c .bool → CodeTy o tys ret Γ b → CodeTy o tys ret Γ (.while c b)

/-! ## Running code for a limited number of steps -/

/-- How far the code has got: `none` if a loop is still running. -/
abbrev Outcome := Option (Ends Val (List (Nat × Val)))

/-- Up to `k` rounds of a loop. -/
def loop (test : List (Nat × Val) → Res Val) (body : List (Nat × Val) → Res Outcome) :
    Nat → List (Nat × Val) → Res Outcome
  | 0, _ => pure none
  | k + 1, ents => do
    let v ← test ents
    match v with
    | .bool true => do
      let r ← body ents
      match r with
      | some (.next ents) => loop test body k ents
      | r => pure r
    | .bool false => pure (some (.next ents))
    | _ => illFormed

/-- Runs code; every loop has at most `fuel` rounds. -/
def runCode (n : Nat) (tys : Types) (fuel : Nat) : Code → List (Nat × Val) → Res Outcome
  | .stmt s, ents => some <$> userExec n tys ents s
  | .seq a b, ents => do
    let r ← runCode n tys fuel a ents
    match r with
    | some (.next ents) => runCode n tys fuel b ents
    | r => pure r
  | .while c b, ents =>
    loop (fun ents => userEval n tys ents c) (runCode n tys fuel b) fuel ents

/-- The outcome has the types of the code. -/
def OutcomeTy (o : Ops) (ret : UTy) (Γ : Ctx) : Outcome → Prop
  | none => True
  | some (.ret v) => HasTy o v ret
  | some (.next ents) => Holds o ents Γ

/-- The four kinds of undefined behaviour of arithmetic. -/
def arithFaults : List Fault := [.overflow, .divByZero, .gcdPrecond, .lcmPrecond]

end Ieme.User
