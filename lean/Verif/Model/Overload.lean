import Verif.Model.Literals
import Verif.Model.MixedNumber

/-!
# Which operator is called: overload resolution

The binary operators of `/repo/include/ieme/fraction.hpp:85-493`,
`/repo/include/ieme/mixed_number.hpp:57-90` and `/repo/include/ieme/fraction_literals.hpp:45-54` are
templates.  For an expression `x + y` the compiler deduces the template arguments of each of them
([temp.deduct.call]), drops those for which deduction, the return type or a `std::enable_if` fails,
and calls the most specialised of the rest ([over.match.best], [temp.func.order]).  Operands are
objects, so that all candidates take them by reference without a conversion.

Simplifications: operands are integers, fractions, mixed numbers and denominator literals, with
representations that are integer types; a return type that names a class as a representation (such
as `fraction<mixed_number<int>, Ops>`) is `strange`, and what instantiating the body of such a
function does is not modelled.  The left operand of a compound assignment is a variable that is not
`const`.
-/

namespace Ieme.Overload

/-- Types of operands. -/
inductive Ty where
  | int (T : IntTy)
  | frac (T : IntTy) (o : Ops)
  | mixed (W F : IntTy) (o : Ops)
  | lit (signed : Bool) (o : Ops)
deriving DecidableEq

/-- What deduction looks at: the class template and the policy. -/
inductive Head (Ω : Type) where
  | plain
  | frac (o : Ω)
  | mixed (o : Ω)
  | lit (o : Ω)

def Ty.head : Ty → Head Ops
  | .int _ => .plain
  | .frac _ o => .frac o
  | .mixed _ _ o => .mixed o
  | .lit _ o => .lit o

/-- A function parameter: `Rep const&`, or a class template whose policy is the first or the second
template parameter for policies. All other template parameters occur once. -/
inductive Param where
  | any
  | frac (second : Bool)
  | mixed (second : Bool)
  | lit (second : Bool)
deriving DecidableEq

/-- The policies deduced so far. -/
structure Env (Ω : Type) where
  first : Option Ω := none
  second : Option Ω := none

/-- Deduce a policy; a second deduction has to agree with the first. -/
def Env.unify {Ω : Type} [DecidableEq Ω] (e : Env Ω) (second : Bool) (o : Ω) : Option (Env Ω) :=
  match second, e with
  | false, ⟨none, b⟩ => some ⟨some o, b⟩
  | false, ⟨some o', _⟩ => if o' = o then some e else none
  | true, ⟨a, none⟩ => some ⟨a, some o⟩
  | true, ⟨_, some o'⟩ => if o' = o then some e else none

/-- Deduction from one parameter. -/
def Param.deduce {Ω : Type} [DecidableEq Ω] (e : Env Ω) : Param → Head Ω → Option (Env Ω)
  | .any, _ => some e
  | .frac v, .frac o => e.unify v o
  | .mixed v, .mixed o => e.unify v o
  | .lit v, .lit o => e.unify v o
  | _, _ => none

/-- A parameter with unique types for its template parameters, [temp.func.order]/3. -/
def Param.unique : Param → Head Bool
  | .any => .plain
  | .frac v => .frac v
  | .mixed v => .mixed v
  | .lit v => .lit v

/-- The operator templates. -/
inductive Fn where
  /-- `fraction op fraction` -/
  | fracFrac
  /-- `fraction op Rep` -/
  | fracRep
  /-- `Rep op fraction` -/
  | repFrac
  /-- `fraction op fraction` for different policies, deleted -/
  | fracDeleted
  /-- `mixed_number + mixed_number` -/
  | mixMix
  /-- `mixed_number + fraction` -/
  | mixFrac
  /-- `fraction + mixed_number` -/
  | fracMix
  /-- `mixed_number + WRep` -/
  | mixRep
  /-- `WRep + mixed_number` -/
  | repMix
  /-- `fraction / denominator_literal` -/
  | fracLit
  /-- `Rep / denominator_literal` -/
  | repLit
deriving DecidableEq

/-- The parameters, `/repo/include/ieme/fraction.hpp:85-106` (and the same for the other operators),
`/repo/include/ieme/mixed_number.hpp:57-90`, `/repo/include/ieme/fraction_literals.hpp:45-54`. -/
def Fn.params : Fn → Param × Param
  | .fracFrac => (.frac false, .frac false)
  | .fracRep => (.frac false, .any)
  | .repFrac => (.any, .frac false)
  | .fracDeleted => (.frac false, .frac true)
  | .mixMix => (.mixed false, .mixed false)
  | .mixFrac => (.mixed false, .frac false)
  | .fracMix => (.frac false, .mixed false)
  | .mixRep => (.mixed false, .any)
  | .repMix => (.any, .mixed false)
  | .fracLit => (.frac false, .lit false)
  | .repLit => (.any, .lit false)

/-- Deduction from both parameters. -/
def Fn.deduce {Ω : Type} [DecidableEq Ω] (f : Fn) (l r : Head Ω) : Option (Env Ω) :=
  (f.params.1.deduce {} l).bind fun e => f.params.2.deduce e r

/-- `std::enable_if_t<!std::is_same_v<LeftOps, RightOps>>` of the deleted overloads. -/
def Fn.enabled (f : Fn) (e : Env Ops) : Bool :=
  match f with
  | .fracDeleted => decide (e.first ≠ e.second)
  | _ => true

/-- `f` is at least as specialised as `g`: the parameters of `g` can be deduced from unique types for
those of `f`, [temp.deduct.partial]. -/
def Fn.atLeast (f g : Fn) : Bool := (g.deduce f.params.1.unique f.params.2.unique).isSome

/-- `f` is more specialised than `g`. -/
def Fn.better (f g : Fn) : Bool := f.atLeast g && !g.atLeast f

/-- The type of a call. -/
inductive Result where
  | ty (t : Ty)
  /-- `bool` -/
  | bool
  /-- a class as a representation -/
  | strange
deriving DecidableEq

/-- What overload resolution ends with. -/
inductive Resolution where
  | noViable
  | ambiguous
  /-- the best function is deleted -/
  | deleted
  | calls (f : Fn) (t : Result)
deriving DecidableEq

/-- The best of the viable functions. -/
def pick (viable : List Fn) (result : Fn → Result) : Resolution :=
  match viable with
  | [] => .noViable
  | _ =>
    match viable.find? fun f => viable.all fun g => decide (g = f) || f.better g with
    | none => .ambiguous
    | some f => if f = .fracDeleted then .deleted else .calls f (result f)

/-- Deduction succeeds and the function is enabled. -/
def Fn.viable (l r : Ty) (f : Fn) : Bool :=
  match f.deduce l.head r.head with
  | none => false
  | some e => f.enabled e

/-! ### Arithmetic -/

/-- The binary arithmetic operators in scope. -/
def candidates : ArithOp → List Fn
  | .plus => [.fracFrac, .fracRep, .repFrac, .fracDeleted, .mixMix, .mixFrac, .fracMix, .mixRep,
      .repMix]
  | .divides => [.fracFrac, .fracRep, .repFrac, .fracDeleted, .fracLit, .repLit]
  | _ => [.fracFrac, .fracRep, .repFrac, .fracDeleted]

/-- The return types.  `std::common_type_t` of an integer type and a class is the class, since
integers convert to fractions, mixed numbers and literals and none of these to integers; so it
always exists. -/
def Fn.result : Fn → Ty → Ty → Result
  | .fracFrac, .frac L o, .frac R _ => .ty (.frac (IntTy.common L R) o)
  | .fracRep, .frac L o, .int R => .ty (.frac (IntTy.common L R) o)
  | .repFrac, .int L, .frac R o => .ty (.frac (IntTy.common L R) o)
  | .mixMix, .mixed W F o, .mixed W' F' _ =>
    .ty (.mixed (IntTy.common W W') (IntTy.common F F') o)
  | .mixFrac, .mixed W F o, .frac R _ => .ty (.mixed (IntTy.common W R) (IntTy.common F R) o)
  | .fracMix, .frac L _, .mixed W F o => .ty (.mixed (IntTy.common W L) (IntTy.common F L) o)
  | .mixRep, .mixed W F o, .int R => .ty (.mixed (IntTy.common W R) F o)
  | .repMix, .int L, .mixed W F o => .ty (.mixed (IntTy.common L W) F o)
  | .fracLit, .frac T o, .lit _ _ => .ty (.frac T o)
  | .repLit, .int T, .lit _ o => .ty (.frac T o)
  | _, _, _ => .strange

/-- Overload resolution for `x op y` where not both operands are integers. -/
def resolve (op : ArithOp) (l r : Ty) : Resolution :=
  pick ((candidates op).filter (Fn.viable l r)) fun f => f.result l r

/-! ### Comparisons and compound assignment -/

/-- Overload resolution for a comparison, `/repo/include/ieme/fraction.hpp:315-493`. -/
def resolveCmp (l r : Ty) : Resolution :=
  pick ([Fn.fracFrac, .fracRep, .repFrac, .fracDeleted].filter (Fn.viable l r)) fun f =>
    match f.result l r with
    | .strange => .strange
    | _ => .bool

/-- `std::is_convertible_v<RightRep, LeftRep>` where `LeftRep` is an integer type: `RightRep` is the
representation of the fraction on the right, or all of its type. -/
def assignable (f : Fn) (r : Ty) : Bool :=
  match f, r with
  | .fracRep, .int _ => true
  | .fracRep, _ => false
  | _, _ => true

/-- Overload resolution for `x op= y`, `/repo/include/ieme/fraction.hpp:195-313`. -/
def resolveAssign (l r : Ty) : Resolution :=
  pick ([Fn.fracFrac, .fracRep, .fracDeleted].filter fun f => f.viable l r && assignable f r)
    fun _ => .ty l

end Ieme.Overload
