import Verif.Model.LeafProgram
import Verif.Model.HeaderEval
import Verif.Model.HeaderProgram
import Verif.Model.LimitsTraits

/-!
# Evaluating the text of `hash.hpp`, `limits.hpp` and `fraction_literals.hpp`

An interpreter for the programs read by `Verif/Model/LeafSyntax.lean`.  It knows partial
specialisation, member types, template argument deduction and implicit conversion, and, of the
standard library, `std::numeric_limits` (of integer types, and the primary template),
`std::hash` of integer types and `std::conditional_t`.  Everything that concerns `raw_fraction`,
`fraction` and `mixed_number` themselves (constructors, accessors, operators, `_0`, `_1`) is done by
evaluating the text of their headers (`Verif/Model/HeaderEval.lean`).

* `std::size_t` has `z` bits, and `std::hash` of the integer type `T` is the arbitrary function `h T`.
* `numeric_limits`, `hash` and `size_t` mean the same with and without `std::`.
* Instantiating a class template gives a meaning to all its `using` declarations, or is ill-formed.
* A static data member has the type of its initialiser, which is evaluated when the member is used.
* The arguments in a call have exactly the types of the parameters; of several functions that fit
  the one without a parameter whose type is a bare template parameter is taken.
-/

namespace Ieme.Leaf

open Header hiding Ty Func Cls Program Env Expr eval run invoke applyTy builtinTy memberTy selfTy

/-! ## Types and values -/

/-- Types, and other template arguments. -/
inductive LT where
  /-- a type of `Verif/Model/HeaderEval.lean` -/
  | ty (t : TVal)
  /-- `std::size_t` -/
  | size
  /-- a constant of type `bool` -/
  | flag (b : Bool)
  /-- `denominator_literal<s, o>` -/
  | lit (s : Bool) (o : Ops)
  /-- `limits<t>` -/
  | limits (t : TVal)
  /-- `std::numeric_limits<t>` -/
  | stdLimits (t : TVal)
  /-- `std::hash<t>` -/
  | stdHash (t : TVal)
deriving DecidableEq

/-- Values. -/
inductive LV (z : Nat) where
  /-- a value of `Verif/Model/HeaderEval.lean` -/
  | val (v : Val)
  | size (x : BitVec z)
  /-- an object of type `denominator_literal<s, o>` with the value `n` -/
  | lit (s : Bool) (o : Ops) (n : Int)
  /-- an enumerator of `std::float_denorm_style` or `std::float_round_style` -/
  | style (x : Nat)
deriving DecidableEq

/-- The type of a value. -/
def LV.type {z : Nat} : LV z → Option LT
  | .val v => some (.ty v.type)
  | .size _ => some .size
  | .lit s o _ => some (.lit s o)
  | .style _ => none

abbrev Names := List (Nat × LT)

/-- The types and constants that are not declared in the headers. -/
def builtinTy (n : Nat) : Option LT :=
  if n = N.«std::size_t» ∨ n = N.«size_t» then some .size
  else if n = N.«long::long::int» then some (.ty (.int i64))
  else if n = N.«unsigned::long::long::int» then some (.ty (.int u64))
  else if n = N.«true» then some (.flag true)
  else if n = N.«false» then some (.flag false)
  else none

def isLimits (n : Nat) : Bool := n == N.«numeric_limits» || n == N.«std::numeric_limits»
def isHash (n : Nat) : Bool := n == N.«hash» || n == N.«std::hash»

/-- A template applied to one argument.  The policy of `denominator_literal` is `ops::defaults`
unless it is given, `/repo/include/ieme/fraction_literals.hpp:16`. -/
def apply1 (n : Nat) : LT → Option LT
  | .ty (.int T) =>
    if n = N.«raw_fraction» then some (.ty (.raw T))
    else if isLimits n then some (.stdLimits (.int T))
    else if isHash n then some (.stdHash (.int T))
    else none
  | .ty t =>
    if n = N.«limits» then some (.limits t)
    else if isLimits n then some (.stdLimits t)
    else if isHash n then some (.stdHash t)
    else none
  | .flag s => if n = N.«denominator_literal» then some (.lit s .defaults) else none
  | _ => none

/-- A template applied to two arguments.  The policy of `mixed_number` is `ops::defaults` unless it
is given, `/repo/include/ieme/mixed_number.hpp:12`. -/
def apply2 (n : Nat) : LT → LT → Option LT
  | .ty (.int T), .ty (.ops o) => if n = N.«fraction» then some (.ty (.frac T o)) else none
  | .ty (.int W), .ty (.int F) =>
    if n = N.«mixed_number» then some (.ty (.mixed W F .defaults)) else none
  | .flag s, .ty (.ops o) => if n = N.«denominator_literal» then some (.lit s o) else none
  | _, _ => none

/-- A template applied to three arguments. -/
def apply3 (n : Nat) : LT → LT → LT → Option LT
  | .ty (.int W), .ty (.int F), .ty (.ops o) =>
    if n = N.«mixed_number» then some (.ty (.mixed W F o)) else none
  | .flag s, .ty a, .ty b =>
    if n = N.«std::conditional_t» then some (.ty (if s then a else b)) else none
  | _, _, _ => none

/-- The member types of the classes of the other headers, from their text. -/
def memberTy : LT → Nat → Option LT
  | .ty t, x => do
    let c ← library.cls? t.scope.cls
    if c.aliases.any (fun a => a.1 == x) then
      LT.ty <$> (classTys library t.scope.cls (c.tparams.zip t.scope.targs)).lookup x
    else none
  | _, _ => none

/-- What a type expression means; `members` knows the member types of classes. -/
def resolve (members : LT → Nat → Option LT) (names : Names) : Ty → Option LT
  | .name n =>
    match names.lookup n with
    | some t => some t
    | none => builtinTy n
  | .app1 n a => do
    let a ← resolve members names a
    apply1 n a
  | .app2 n a b => do
    let a ← resolve members names a
    let b ← resolve members names b
    apply2 n a b
  | .app3 n a b c => do
    let a ← resolve members names a
    let b ← resolve members names b
    let c ← resolve members names c
    apply3 n a b c
  | .mem t x => do
    let t ← resolve members names t
    members t x

/-! ## Templates -/

/-- Makes the type expression mean the type, by giving a meaning to template parameters.  A template
parameter that has a meaning keeps it.  `mixed_number<a, b>` is `mixed_number<a, b, ops::defaults>`. -/
def unify (tps : List Nat) (names : Names) : Ty → LT → Option Names
  | .name n, t =>
    match names.lookup n with
    | some u => if u = t then some names else none
    | none =>
      if tps.contains n then some ((n, t) :: names)
      else if builtinTy n = some t then some names
      else none
  | .app1 n a, .ty (.raw T) =>
    if n = N.«raw_fraction» then unify tps names a (.ty (.int T)) else none
  | .app1 n a, .limits t => if n = N.«limits» then unify tps names a (.ty t) else none
  | .app1 n a, .stdLimits t => if isLimits n then unify tps names a (.ty t) else none
  | .app1 n a, .stdHash t => if isHash n then unify tps names a (.ty t) else none
  | .app2 n a b, .ty (.frac T o) =>
    if n = N.«fraction» then do
      let names ← unify tps names a (.ty (.int T))
      unify tps names b (.ty (.ops o))
    else none
  | .app2 n a b, .ty (.mixed W F o) =>
    if n = N.«mixed_number» ∧ o = .defaults then do
      let names ← unify tps names a (.ty (.int W))
      unify tps names b (.ty (.int F))
    else none
  | .app2 n a b, .lit s o =>
    if n = N.«denominator_literal» then do
      let names ← unify tps names a (.flag s)
      unify tps names b (.ty (.ops o))
    else none
  | .app3 n a b c, .ty (.mixed W F o) =>
    if n = N.«mixed_number» then do
      let names ← unify tps names a (.ty (.int W))
      let names ← unify tps names b (.ty (.int F))
      unify tps names c (.ty (.ops o))
    else none
  | _, _ => none

/-- The class template, or partial specialisation, that the class is made from, and what its template
parameters mean. -/
def findCls (t : LT) : List Cls → Option (Cls × Names)
  | [] => none
  | c :: cs =>
    match unify c.tparams [] (selfTy c.name c.tparams c.arg) t with
    | some names => some (c, names)
    | none => findCls t cs

/-- The meaning of the `using` declarations of a class. -/
def aliases (members : LT → Nat → Option LT) : Names → List (Nat × Ty) → Option Names
  | names, [] => some names
  | names, (x, t) :: rest => do
    let t ← resolve members names t
    aliases members ((x, t) :: names) rest

/-- The class and what the names mean in it; `none` if there is none, or it is ill-formed. -/
def Program.instance? (p : Program) (members : LT → Nat → Option LT) (t : LT) :
    Option (Cls × Names) := do
  let (c, names) ← findCls t p.classes
  let names ← aliases members names c.uses
  return (c, names)

/-- The member types of all classes. -/
def Program.memberTy (p : Program) (t : LT) (x : Nat) : Option LT :=
  match Leaf.memberTy t x with
  | some u => some u
  | none => do
    let (_, names) ← p.instance? Leaf.memberTy t
    names.lookup x

/-- Deduces the template arguments of a call. -/
def fit (tps : List Nat) : Names → List (Ty × Nat) → List LT → Option Names
  | names, [], [] => some names
  | names, (t, _) :: ps, u :: us => do
    let names ← unify tps names t u
    fit tps names ps us
  | _, _, _ => none

/-- Is the type of a parameter a bare template parameter? -/
def Func.bare (f : Func) : Bool :=
  f.params.any fun p => match p.1 with
    | .name n => f.tparams.contains n
    | _ => false

/-- The functions that fit a call. -/
def candidates (args : List LT) : List Func → List (Func × Names)
  | [] => []
  | f :: fs =>
    match fit f.tparams [] f.params args with
    | some names => (f, names) :: candidates args fs
    | none => candidates args fs

/-- Chooses among the functions that fit. -/
def choose : List (Func × Names) → Option (Func × Names)
  | [c] => some c
  | cs =>
    match cs.filter (fun c => !c.1.bare) with
    | [c] => some c
    | _ => none

/-- The functions of a given name that are not members. -/
def Program.free (p : Program) (f : Nat) : List Func :=
  p.funcs.filter fun g => g.owner.isNone && g.name == f

/-- The member functions of a given name. -/
def Program.members (p : Program) (f : Nat) : List Func :=
  p.funcs.filter fun g => g.owner.isSome && g.name == f

/-- The member function of a class. -/
def findMember (t : LT) : List Func → Option (Func × Names)
  | [] => none
  | f :: fs =>
    match f.owner.bind (unify f.tparams [] · t) with
    | some names => some (f, names)
    | none => findMember t fs

/-! ## The standard library -/

/-- The member functions of `std::numeric_limits` of an integer type, [numeric.limits.members]. -/
def intLimit (T : IntTy) (f : Nat) : Option Int :=
  if f = N.«max» then some T.max
  else if f = N.«min» ∨ f = N.«lowest» then some T.min
  else if f = N.«epsilon» ∨ f = N.«round_error» ∨ f = N.«infinity» ∨ f = N.«quiet_NaN» ∨
    f = N.«signaling_NaN» ∨ f = N.«denorm_min» then some 0
  else none

/-- The constants of `std::numeric_limits` of an integer type that the text uses. -/
def intConst {z : Nat} (T : IntTy) (x : Nat) : Option (LV z) :=
  if x = N.«is_signed» then some (.val (.bool T.signed))
  else if x = N.«is_bounded» then some (.val (.bool true))
  else if x = N.«is_modulo» then some (.val (.bool !T.signed))
  else if x = N.«digits» then some (.val (.int i32 (Limits.repDigits T)))
  else if x = N.«digits10» then some (.val (.int i32 (Limits.repDigits10 T)))
  else if x = N.«radix» then some (.val (.int i32 2))
  else if x = N.«max_digits10» ∨ x = N.«min_exponent» ∨ x = N.«min_exponent10» ∨
    x = N.«max_exponent» ∨ x = N.«max_exponent10» then some (.val (.int i32 0))
  else if x = N.«tinyness_before» then some (.val (.bool false))
  else none

/-- The Boolean constants of the primary template of `std::numeric_limits`, all of which are false. -/
def primaryConst {z : Nat} (x : Nat) : Option (LV z) :=
  if x = N.«is_specialized» ∨ x = N.«is_signed» ∨ x = N.«is_integer» ∨ x = N.«is_exact» ∨
    x = N.«has_infinity» ∨ x = N.«has_quiet_NaN» ∨ x = N.«is_bounded» ∨ x = N.«is_modulo» then
    some (.val (.bool false))
  else none

/-- The enumerators. -/
def styleOf (x : Nat) : Option Nat :=
  if x = N.«denorm_indeterminate» ∨ x = N.«round_indeterminate» then some x else none

/-! ## Evaluation -/

/-- A call, or the use of a constant. -/
inductive Callee (z : Nat) where
  /-- `f(args)` -/
  | free (f : Nat) (args : List (LV z))
  /-- `t::f(args)` or `self.f(args)` -/
  | member (t : LT) (self : Option (LV z)) (f : Nat) (args : List (LV z))
  /-- `t::x` -/
  | const (t : LT) (x : Nat)

/-- What evaluation needs to know: the program, `std::hash`, the functions of the other headers and
those of the program. -/
structure Ctx (z : Nat) where
  prog : Program
  hash : IntTy → Int → BitVec z
  lib : Invoke
  inv : Callee z → Res (LV z)

/-- The names in use. -/
structure Env (z : Nat) where
  names : Names
  vars : List (Nat × LV z)

variable {z : Nat}

def plain : LV z → Res Val
  | .val v => pure v
  | _ => illFormed

/-- Implicit conversion. -/
def convert (c : Ctx z) (t : LT) (v : LV z) : Res (LV z) :=
  match t, v with
  | .size, .size x => pure (.size x)
  | .ty t, .val v => LV.val <$> construct c.lib t [v]
  | .lit s o, .lit s' o' n => if s' = s ∧ o' = o then pure (.lit s o n) else illFormed
  | .lit s o, v => c.inv (.member (.lit s o) none N.«denominator_literal» [v])
  | _, _ => illFormed

/-- A call of a static member function. -/
def static (c : Ctx z) (t : LT) (f : Nat) : Res (LV z) :=
  match t with
  | .stdLimits (.int T) => LV.val <$> Val.int T <$> orIll (intLimit T f)
  | t => c.inv (.member t none f [])

/-- A static data member. -/
def constant (c : Ctx z) (t : LT) (x : Nat) : Res (LV z) :=
  match t with
  | .stdLimits (.int T) => orIll (intConst T x)
  | t => c.inv (.const t x)

/-- A call of a function object. -/
def functor (c : Ctx z) (t : LT) (v : LV z) : Res (LV z) :=
  match t, v with
  | .stdHash (.int T), .val v => do
    match ← construct c.lib (.int T) [v] with
    | .int _ n => pure (.size (c.hash T n))
    | _ => illFormed
  | t, v => c.inv (.member t none N.«operator()» [v])

/-- A call of a member function of an object without arguments. -/
def method (c : Ctx z) (v : LV z) (f : Nat) : Res (LV z) :=
  match v with
  | .val v => LV.val <$> value (c.lib v.type.scope (some v) f [] [])
  | .lit s o n => c.inv (.member (.lit s o) (some (.lit s o n)) f [])
  | _ => illFormed

/-- An identifier. -/
def nameValue (env : Env z) (x : Nat) : Option (LV z) :=
  match env.vars.lookup x with
  | some v => some v
  | none =>
    match resolve (fun _ _ => none) env.names (.name x) with
    | some (.flag b) => some (.val (.bool b))
    | _ => LV.style <$> styleOf x

/-- A binary operator. -/
def binary (c : Ctx z) : Op → LV z → LV z → Res (LV z)
  | .xor, .size x, .size y => pure (.size (x ^^^ y))
  | .shl, .size x, .val (.int _ n) =>
    if 0 ≤ n ∧ n < z then pure (.size (x <<< n.toNat)) else .fault .shiftRange
  | .div, .val x, .val y => LV.val <$> Header.binary c.lib .div x y
  | _, _, _ => illFormed

/-- The value of an expression. -/
def eval (c : Ctx z) (env : Env z) : Exp → Res (LV z)
  | .num n => pure (.val (.int i32 n))
  | .var x => orIll (nameValue env x)
  | .tmpl x t => do
    match ← orIll (resolve c.prog.memberTy env.names t) with
    | .ty t => LV.val <$> call library c.lib ⟨.global, [], []⟩ 0 x [t] []
    | _ => illFormed
  | .fld e x => do
    let v ← eval c env e
    let v ← plain v
    LV.val <$> orIll (v.fields.lookup x)
  | .meth e f => do
    let v ← eval c env e
    method c v f
  | .call1 f a => do
    let v ← eval c env a
    c.inv (.free f [v])
  | .call2 f a b => do
    let v ← eval c env a
    let w ← eval c env b
    c.inv (.free f [v, w])
  | .stat t f => do
    let t ← orIll (resolve c.prog.memberTy env.names t)
    static c t f
  | .const t x => do
    let t ← orIll (resolve c.prog.memberTy env.names t)
    constant c t x
  | .functor t e => do
    let t ← orIll (resolve c.prog.memberTy env.names t)
    let v ← eval c env e
    functor c t v
  | .cast t e => do
    let v ← eval c env e
    let v ← plain v
    match ← orIll (resolve c.prog.memberTy env.names t) with
    | .ty t => LV.val <$> castTo c.lib t v
    | _ => illFormed
  | .neg e => do
    let v ← eval c env e
    let v ← plain v
    LV.val <$> unary c.lib .neg v
  | .bin op a b => do
    let v ← eval c env a
    let w ← eval c env b
    binary c op v w

/-- Runs the body of a function with the return type `ret`.  A constructor is one of
`denominator_literal`. -/
def run (c : Ctx z) (env : Env z) (ret : LT) : Body → Res (LV z)
  | .ret e => do
    let v ← eval c env e
    convert c ret v
  | .brace a b => do
    let v ← eval c env a
    let v ← plain v
    let w ← eval c env b
    let w ← plain w
    match ret with
    | .ty t => LV.val <$> construct c.lib t [v, w]
    | _ => illFormed
  | .init x e => do
    let v ← eval c env e
    match ret with
    | .lit s o => do
      let (k, names) ← orIll (c.prog.instance? Leaf.memberTy ret)
      let t ← orIll (k.fields.lookup x)
      let t ← orIll (resolve Leaf.memberTy names t)
      match ← convert c t v with
      | .val (.int _ n) => pure (.lit s o n)
      | _ => illFormed
    | _ => illFormed

/-- The data members of an object. -/
def fieldsOf (k : Cls) (names : Names) : Option (LV z) → Res (List (Nat × LV z))
  | some (.lit _ _ n) =>
    match k.fields with
    | [(x, t)] => do
      match ← orIll (resolve Leaf.memberTy names t) with
      | .ty (.int T) => pure [(x, .val (.int T n))]
      | _ => illFormed
    | _ => illFormed
  | _ => pure []

/-- The arguments converted to the types of the parameters. -/
def bind (c : Ctx z) (names : Names) : List (Ty × Nat) → List (LV z) → Res (List (Nat × LV z))
  | [], [] => pure []
  | (t, x) :: ps, v :: vs => do
    let t ← orIll (resolve c.prog.memberTy names t)
    let v ← convert c t v
    let rest ← bind c names ps vs
    return (x, v) :: rest
  | _, _ => illFormed

/-- A call of a function that is not a member. -/
def callFree (c : Ctx z) (f : Nat) (args : List (LV z)) : Res (LV z) := do
  let ts ← orIll (args.mapM LV.type)
  let (g, names) ← orIll (choose (candidates ts (c.prog.free f)))
  let ret ← orIll (resolve c.prog.memberTy names g.ret)
  run c ⟨names, (g.params.map Prod.snd).zip args⟩ ret g.body

/-- A call of a member function of a class. -/
def callMember (c : Ctx z) (t : LT) (self : Option (LV z)) (f : Nat) (args : List (LV z)) :
    Res (LV z) := do
  let (k, names) ← orIll (c.prog.instance? Leaf.memberTy t)
  let (g, own) ← orIll (findMember t (c.prog.members f))
  let fields ← fieldsOf k names self
  let vars ← bind c (own ++ names) g.params args
  let ret ← orIll (resolve c.prog.memberTy (own ++ names) g.ret)
  run c ⟨own ++ names, vars ++ fields⟩ ret g.body

/-- A call, or the use of a constant, in the primary template of `std::numeric_limits`: the
functions return a value-initialised object. -/
def primary (c : Ctx z) (t : TVal) : Callee z → Res (LV z)
  | .member _ _ f _ =>
    if (intLimit i32 f).isSome then LV.val <$> construct c.lib t [] else illFormed
  | .const _ x => orIll (primaryConst x)
  | _ => illFormed

/-- The argument of `std::numeric_limits`, if no specialisation fits. -/
def isPrimary (p : Program) : LT → Option TVal
  | .stdLimits t => if (findCls (.stdLimits t) p.classes).isNone then some t else none
  | _ => none

/-- A call, or the use of a constant. -/
def enter (c : Ctx z) : Callee z → Res (LV z)
  | .free f args => callFree c f args
  | .member t self f args =>
    match isPrimary c.prog t with
    | some u => primary c u (.member t self f args)
    | none => callMember c t self f args
  | .const t x =>
    match isPrimary c.prog t with
    | some u => primary c u (.const t x)
    | none => do
      let (k, names) ← orIll (c.prog.instance? Leaf.memberTy t)
      let e ← orIll (k.consts.lookup x)
      eval c ⟨names, []⟩ e

/-- A call, or the use of a constant; `n` bounds the depth of calls. -/
def invoke (p : Program) (h : IntTy → Int → BitVec z) : Nat → Callee z → Res (LV z)
  | 0, _ => illFormed
  | n + 1, x => enter ⟨p, h, Header.invoke library n, invoke p h n⟩ x

end Ieme.Leaf
