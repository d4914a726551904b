import Verif.Model.HeaderSyntax
import Verif.Model.MixedNumber

/-!
# Evaluating the text of the headers

An interpreter for the programs read by `Verif/Model/HeaderSyntax.lean`.  It knows the C++ language
rules for integers (`Verif/Model/Machine.lean`), `std::gcd`, `std::lcm`, `std::is_same_v`,
`std::common_type_t` and `std::make_unsigned_t`, template argument deduction, the choice between
overloads, constructors, member functions, `if constexpr`, `switch` and compound assignment.  It
knows nothing of what the functions of `/repo/include/ieme` are meant to do: every function,
constructor, accessor and constant (`_0`, `_1`, `_2`) is evaluated from its text.

Simplifications.
* Integers have the types of `Verif/Model/Machine.lean`, at least 32 bits wide.
* Operands and arguments are evaluated from left to right.
* Among several overloads that fit, the one with the fewest parameters whose type is a bare template
  parameter is taken, then the one with the fewest template parameters (`score`); for the overloads
  in the headers this is what partial ordering gives.
* Of an accessor with a `const` and a non-`const` overload, the `const` one is taken
  (`Verif/Props/HeaderText.lean` proves that their bodies are the same).
* Data members are initialised in the order written.
* The two branches of `?:` have the same type.
-/

namespace Ieme.Header

/-! ## Types and values -/

/-- Types, and the constants that template parameters stand for. -/
inductive TVal where
  | int (T : IntTy)
  | bool
  | void
  | reduceMode
  | roundMode
  | raw (T : IntTy)
  | frac (T : IntTy) (o : Ops)
  | mixed (W F : IntTy) (o : Ops)
  /-- a policy class -/
  | ops (o : Ops)
  /-- an enumerator as template argument -/
  | mode (m : ReduceMode)
  /-- a literal as template argument -/
  | num (k : Nat)
deriving DecidableEq

/-- Values. -/
inductive Val where
  | int (T : IntTy) (n : Int)
  | bool (b : Bool)
  | mode (m : ReduceMode)
  | rmode (m : RoundMode)
  | raw (T : IntTy) (r : Raw)
  | frac (T : IntTy) (o : Ops) (r : Raw)
  | mixed (W F : IntTy) (o : Ops) (m : Mixed)
  | unit
deriving DecidableEq

/-- The type of a value. -/
def Val.type : Val → TVal
  | .int T _ => .int T
  | .bool _ => .bool
  | .mode _ => .reduceMode
  | .rmode _ => .roundMode
  | .raw T _ => .raw T
  | .frac T o _ => .frac T o
  | .mixed W F o _ => .mixed W F o
  | .unit => .void

/-- A class with its template arguments, the namespace `math_utilities`, or (0) `ieme`. -/
structure Scope where
  cls : Nat
  targs : List TVal
deriving DecidableEq

abbrev Scope.global : Scope := ⟨0, []⟩

/-- The class of a policy. -/
def opsScope : Ops → Scope
  | .safe => ⟨N.«safe», []⟩
  | .fast => ⟨N.«fast», []⟩
  | .reducedInput o m => ⟨N.«reduced_input», [.ops o, .mode m]⟩
  | .reducedOutput o m => ⟨N.«reduced_output», [.ops o, .mode m]⟩

/-- The class of a class type. -/
def TVal.scope : TVal → Scope
  | .raw T => ⟨N.«raw_fraction», [.int T]⟩
  | .frac T o => ⟨N.«fraction», [.int T, .ops o]⟩
  | .mixed W F o => ⟨N.«mixed_number», [.int W, .int F, .ops o]⟩
  | .ops o => opsScope o
  | _ => .global

/-- The data members of an object. -/
def Val.fields : Val → List (Nat × Val)
  | .raw T r => [(N.«numerator», .int T r.num), (N.«denominator», .int T r.den)]
  | .frac T _ r => [(N.«raw_», .raw T r)]
  | .mixed W F o m => [(N.«whole_», .int W m.whole), (N.«fractional_», .frac F o m.frac)]
  | _ => []

/-- The object with the given data members. -/
def assemble (sc : Scope) (ents : List (Nat × Val)) : Option Val :=
  match sc.targs with
  | [.int T] =>
    match ents.lookup N.«numerator», ents.lookup N.«denominator» with
    | some (.int A n), some (.int B d) =>
      if sc.cls = N.«raw_fraction» ∧ A = T ∧ B = T then some (.raw T ⟨n, d⟩) else none
    | _, _ => none
  | [.int T, .ops o] =>
    match ents.lookup N.«raw_» with
    | some (.raw A r) => if sc.cls = N.«fraction» ∧ A = T then some (.frac T o r) else none
    | _ => none
  | [.int W, .int F, .ops o] =>
    match ents.lookup N.«whole_», ents.lookup N.«fractional_» with
    | some (.int A w), some (.frac B p f) =>
      if sc.cls = N.«mixed_number» ∧ A = W ∧ B = F ∧ p = o then some (.mixed W F o ⟨w, f⟩) else none
    | _, _ => none
  | _ => none

/-- A template applied to arguments. -/
def applyTy (n : Nat) (ts : List TVal) : Option TVal :=
  match ts with
  | [.int T] =>
    if n = N.«raw_fraction» then some (.raw T)
    else if n = N.«std::make_unsigned_t» then some (.int T.toUnsigned)
    else none
  | [.int T, .ops o] => if n = N.«fraction» then some (.frac T o) else none
  | [.int A, .int B] => if n = N.«std::common_type_t» then some (.int (A.common B)) else none
  | [.int W, .int F, .ops o] => if n = N.«mixed_number» then some (.mixed W F o) else none
  | _ => none

/-- The types that are not declared in the headers. -/
def builtinTy (n : Nat) : Option TVal :=
  if n = N.«int» then some (.int i32)
  else if n = N.«bool» then some .bool
  else if n = N.«void» then some .void
  else if n = N.«reduce_mode» then some .reduceMode
  else if n = N.«round_mode» then some .roundMode
  else none

/-- The member types of classes used outside them: `raw_fraction<Rep>::rep_type`,
`/repo/include/ieme/raw_fraction.hpp:15`. -/
def memberTy (t : TVal) (m : Nat) : Option TVal :=
  match t with
  | .raw T => if m = N.«rep_type» then some (.int T) else none
  | _ => none

/-- The type that a type expression means. -/
def evalTy (tys : List (Nat × TVal)) : Ty → Option TVal
  | .name n =>
    match tys.lookup n with
    | some t => some t
    | none => builtinTy n
  | .lit k => some (.num k)
  | .member n m =>
    match tys.lookup n with
    | some t => memberTy t m
    | none => none
  | .app1 n a => do
    let a ← evalTy tys a
    applyTy n [a]
  | .app2 n a b => do
    let a ← evalTy tys a
    let b ← evalTy tys b
    applyTy n [a, b]
  | .app3 n a b c => do
    let a ← evalTy tys a
    let b ← evalTy tys b
    let c ← evalTy tys c
    applyTy n [a, b, c]

def evalTys (tys : List (Nat × TVal)) : List Ty → Option (List TVal)
  | [] => some []
  | t :: ts => do
    let a ← evalTy tys t
    let as ← evalTys tys ts
    return a :: as

/-! ## Choosing a function -/

/-- The functions of a scope with a given name. -/
def Program.find (p : Program) (cls f : Nat) : List Func :=
  p.funcs.filter (fun g => g.scope == cls && g.name == f)

def Program.cls? (p : Program) (c : Nat) : Option Cls := p.classes.find? (fun k => k.name == c)

/-- Adds the member types of a class to the types known. -/
def withAliases (tys : List (Nat × TVal)) : List (Nat × Ty) → List (Nat × TVal)
  | [] => tys
  | (x, t) :: rest =>
    match evalTy tys t with
    | some v => withAliases ((x, v) :: tys) rest
    | none => withAliases tys rest

/-- Adds the static constants of a class. -/
def withConsts (tys : List (Nat × TVal)) : List (Nat × Nat) → List (Nat × TVal)
  | [] => tys
  | (x, y) :: rest =>
    match tys.lookup y with
    | some v => withConsts ((x, v) :: tys) rest
    | none => withConsts tys rest

/-- What the member names of the class mean, given its template arguments. -/
def classTys (p : Program) (cls : Nat) (tys : List (Nat × TVal)) : List (Nat × TVal) :=
  match p.cls? cls with
  | some c => withConsts (withAliases tys c.aliases) c.consts
  | none => tys

/-- Deduces template arguments: makes the type expression mean the type. -/
def deduce (tps : List Nat) (tys : List (Nat × TVal)) : Ty → TVal → Option (List (Nat × TVal))
  | .name n, t =>
    match tys.lookup n with
    | some u => if u = t then some tys else none
    | none =>
      if tps.contains n then some ((n, t) :: tys)
      else if builtinTy n = some t then some tys
      else none
  | .app1 n a, .raw T => if n = N.«raw_fraction» then deduce tps tys a (.int T) else none
  | .app2 n a b, .frac T o =>
    if n = N.«fraction» then do
      let tys ← deduce tps tys a (.int T)
      deduce tps tys b (.ops o)
    else none
  | .app3 n a b c, .mixed W F o =>
    if n = N.«mixed_number» then do
      let tys ← deduce tps tys a (.int W)
      let tys ← deduce tps tys b (.int F)
      deduce tps tys c (.ops o)
    else none
  | _, _ => none

/-- The implicit conversions between the types of arguments and parameters that occur. -/
def convertible : TVal → TVal → Bool
  | .int _, .int _ => true
  | a, b => decide (a = b)

/-- Makes the parameters fit the arguments.  A parameter whose type is known without deduction
accepts what converts to it. -/
def fit (tps : List Nat) (known : List (Nat × TVal)) :
    List (Nat × TVal) → List Param → List TVal → Option (List (Nat × TVal))
  | tys, [], [] => some tys
  | tys, p :: ps, t :: ts =>
    match evalTy known p.ty with
    | some u => if convertible t u then fit tps known tys ps ts else none
    | none => do
      let tys ← deduce tps tys p.ty t
      fit tps known tys ps ts
  | tys, p :: ps, [] => if p.dflt.isSome then fit tps known tys ps [] else none
  | _, [], _ :: _ => none

/-- How unspecialised a function template is. -/
def Func.score (f : Func) : Nat :=
  100 * (f.params.filter (fun p => match p.ty with | .name n => f.tparams.contains n | _ => false)).length
    + f.tparams.length

/-- What the names mean in the function when called with arguments of the given types. -/
def Func.instantiate (p : Program) (f : Func) (sc : Scope) (ts args : List TVal) :
    Option (List (Nat × TVal)) :=
  let known := classTys p sc.cls (f.tparams.zip (sc.targs ++ ts))
  fit f.tparams known known f.params args

/-- The better of two candidates; `none` when neither is better. -/
def better (a b : Func × List (Nat × TVal)) : Option (Func × List (Nat × TVal)) :=
  if a.1.score < b.1.score then some a
  else if b.1.score < a.1.score then some b
  else none

/-- Chooses among the candidates. -/
def choose (p : Program) (sc : Scope) (ts args : List TVal) :
    List Func → Option (Func × List (Nat × TVal))
  | [] => none
  | f :: fs =>
    match f.instantiate p sc ts args with
    | none => choose p sc ts args fs
    | some tys =>
      match choose p sc ts args fs with
      | none => some (f, tys)
      | some g => better (f, tys) g

/-- The candidates for a call: of accessors the `const` ones, if there are any. -/
def constFirst (fs : List Func) : List Func :=
  if fs.any Func.isConst then fs.filter Func.isConst else fs

/-! ## Evaluation -/

/-- The names in use. -/
structure Env where
  scope : Scope
  tys : List (Nat × TVal)
  ents : List (Nat × Val)

/-- A call: scope, object, name, template arguments, arguments.  The results are the value returned
and the final value of the object or, without one, of the first parameter. -/
abbrev Invoke := Scope → Option Val → Nat → List TVal → List Val → Res (Val × Val)

/-- The value returned. -/
def value (r : Res (Val × Val)) : Res Val := Prod.fst <$> r

/-- The final value of the object or first parameter. -/
def changed (r : Res (Val × Val)) : Res Val := Prod.snd <$> r

def illFormed {α : Type} : Res α := .fault .illFormed

def orIll {α : Type} : Option α → Res α
  | some a => pure a
  | none => illFormed

/-- Implicit conversion, or initialisation from arguments. -/
def construct (inv : Invoke) (t : TVal) (args : List Val) : Res Val :=
  match t, args with
  | .int T, [.int S n] => if S = T then pure (.int T n) else Val.int T <$> T.conv n
  | .int T, [] => pure (.int T 0)
  | t, [v] =>
    if v.type = t then pure v else value (inv t.scope none t.scope.cls [] [v])
  | t, args => value (inv t.scope none t.scope.cls [] args)

/-- Explicit conversion. -/
def castTo (inv : Invoke) (t : TVal) (v : Val) : Res Val :=
  match t, v with
  | .int T, .int _ n => Val.int T <$> T.conv n
  | t, v => construct inv t [v]

/-- Arithmetic on integers of one type. -/
def arithInt (T : IntTy) : BinOp → Int → Int → Res Val
  | .add, a, b => Val.int T <$> T.add a b
  | .sub, a, b => Val.int T <$> T.sub a b
  | .mul, a, b => Val.int T <$> T.mul a b
  | .div, a, b => Val.int T <$> T.div a b
  | .mod, a, b => Val.int T <$> T.mod a b
  | .eq, a, b => pure (.bool (decide (a = b)))
  | .ne, a, b => pure (.bool (decide (a ≠ b)))
  | .lt, a, b => pure (.bool (decide (a < b)))
  | .le, a, b => pure (.bool (decide (a ≤ b)))
  | .gt, a, b => pure (.bool (decide (a > b)))
  | .ge, a, b => pure (.bool (decide (a ≥ b)))
  | _, _, _ => illFormed

/-- The operand converted to the common type. -/
def toTy (C S : IntTy) (n : Int) : Res Int := if S = C then pure n else C.conv n

/-- The name of an operator function. -/
def opName : BinOp → Nat
  | .add => N.«operator+»
  | .sub => N.«operator-»
  | .mul => N.«operator*»
  | .div => N.«operator/»
  | .mod => N.«operator%»
  | .eq => N.«operator==»
  | .ne => N.«operator!=»
  | .lt => N.«operator<»
  | .le => N.«operator<=»
  | .gt => N.«operator>»
  | .ge => N.«operator>=»
  | _ => 0

/-- The name of a compound assignment. -/
def updateName : BinOp → Nat
  | .add => N.«operator+=»
  | .sub => N.«operator-=»
  | .mul => N.«operator*=»
  | .div => N.«operator/=»
  | .mod => N.«operator%=»
  | _ => 0

/-- A binary operator on values. -/
def binary (inv : Invoke) (op : BinOp) (a b : Val) : Res Val :=
  match a, b with
  | .int A x, .int B y =>
    if op = .shl then Val.int A <$> A.shl x y
    else do
      let x ← toTy (A.common B) A x
      let y ← toTy (A.common B) B y
      arithInt (A.common B) op x y
  | a, b => value (inv .global none (opName op) [] [a, b])

/-- A unary operator on values. -/
def unary (inv : Invoke) (op : UnOp) (a : Val) : Res Val :=
  match op, a with
  | .neg, .int T n => Val.int T <$> T.neg n
  | .pos, .int T n => pure (.int T n)
  | .not, .bool b => pure (.bool !b)
  | .neg, a => value (inv .global none N.«operator-» [] [a])
  | .pos, a => value (inv .global none N.«operator+» [] [a])
  | .not, _ => illFormed

/-- The functions of `std` on values. -/
def stdCall (f : Nat) (args : List Val) : Res Val :=
  match args with
  | [.int A x, .int B y] =>
    if A = B then
      if f = N.«gcd» then Val.int A <$> A.gcd x y
      else if f = N.«lcm» then Val.int A <$> A.lcm x y
      else illFormed
    else illFormed
  | _ => illFormed

/-- `std::is_same_v<A, B>` -/
def isSame (f : Nat) (ts : List TVal) : Res Val :=
  match ts with
  | [a, b] => if f = N.«is_same_v» then pure (.bool (decide (a = b))) else illFormed
  | _ => illFormed

/-- The enumerators. -/
def enumerator (q x : Nat) : Option Val :=
  if q = N.«reduce_mode» then
    if x = N.«normalize_signs» then some (.mode .normalizeSigns)
    else if x = N.«ignore_signs» then some (.mode .ignoreSigns)
    else none
  else if q = N.«round_mode» then
    if x = N.«trunc» then some (.rmode .trunc)
    else if x = N.«ceil» then some (.rmode .ceil)
    else if x = N.«floor» then some (.rmode .floor)
    else if x = N.«round» then some (.rmode .round)
    else none
  else none

/-- The value of a template parameter that is not a type. -/
def TVal.value : TVal → Option Val
  | .mode m => some (.mode m)
  | .num k => some (.int i32 k)
  | _ => none

/-- `true` and `false`. -/
def boolLit (x : Nat) : Option Val :=
  if x = N.«true» then some (.bool true)
  else if x = N.«false» then some (.bool false)
  else none

/-- An identifier. -/
def evalVar (env : Env) (q x : Nat) : Option Val :=
  if q = 0 then
    match env.ents.lookup x with
    | some v => some v
    | none =>
      match env.tys.lookup x with
      | some t => t.value
      | none => boolLit x
  else enumerator q x

/-- The type that a name before parentheses means, if it means one. -/
def calledType (env : Env) (f : Nat) (ts : List TVal) : Option TVal :=
  match ts with
  | [] => env.tys.lookup f
  | ts => applyTy f ts

/-- The scope that a qualifier means. -/
def qualified (env : Env) (q : Nat) : Option Scope :=
  if q = N.«math_utilities» then some ⟨N.«math_utilities», []⟩
  else
    match env.tys.lookup q with
    | some (.ops o) => some (opsScope o)
    | _ => none

/-- A call by name. -/
def call (p : Program) (inv : Invoke) (env : Env) (q f : Nat) (ts : List TVal) (args : List Val) :
    Res Val :=
  if q = N.«std» then
    if args = [] then isSame f ts else stdCall f args
  else if q = 0 then
    match calledType env f ts with
    | some t =>
      match args with
      | [v] => castTo inv t v
      | args => construct inv t args
    | none =>
      if (p.find env.scope.cls f).isEmpty then value (inv .global none f ts args)
      else value (inv env.scope (assemble env.scope env.ents) f ts args)
  else
    match qualified env q with
    | some sc => value (inv sc none f ts args)
    | none => illFormed

mutual
/-- The value of an expression. -/
def eval (p : Program) (inv : Invoke) (env : Env) : Expr → Res Val
  | .num n => pure (.int i32 n)
  | .braces => illFormed
  | .var q x => orIll (evalVar env q x)
  | .mem e x => do
    let v ← eval p inv env e
    orIll (v.fields.lookup x)
  | .method e f => do
    let v ← eval p inv env e
    value (inv v.type.scope (some v) f [] [])
  | .call q f ts args => do
    let ts ← orIll (evalTys env.tys ts)
    let as ← evalArgs p inv env args
    call p inv env q f ts as
  | .cast t e => do
    let t ← orIll (evalTy env.tys t)
    let v ← eval p inv env e
    castTo inv t v
  | .un op e => do
    let v ← eval p inv env e
    unary inv op v
  | .bin op a b =>
    match op with
    | .and => do
      let x ← eval p inv env a
      match x with
      | .bool x => if x then eval p inv env b else pure (.bool false)
      | _ => illFormed
    | .or => do
      let x ← eval p inv env a
      match x with
      | .bool x => if x then pure (.bool true) else eval p inv env b
      | _ => illFormed
    | op => do
      let x ← eval p inv env a
      let y ← eval p inv env b
      binary inv op x y
  | .cond c a b => do
    let x ← eval p inv env c
    match x with
    | .bool x => if x then eval p inv env a else eval p inv env b
    | _ => illFormed

def evalArgs (p : Program) (inv : Invoke) (env : Env) : Args → Res (List Val)
  | .nil => pure []
  | .cons e rest => do
    let v ← eval p inv env e
    let vs ← evalArgs p inv env rest
    return v :: vs
end

/-- The environment with the data members of an object. -/
def Env.withFields (env : Env) (v : Val) : Env := { env with ents := v.fields ++ env.ents }

/-- The type of a data member. -/
def fieldTy (p : Program) (env : Env) (x : Nat) : Option TVal := do
  let c ← p.cls? env.scope.cls
  let f ← c.fields.find? (fun f => f.name == x)
  evalTy env.tys f.ty

/-- The type of the object under construction. -/
def selfTy (env : Env) : Option TVal := applyTy env.scope.cls env.scope.targs

/-- What happens to the value of a `return` statement: conversion to the return type, unless that
is `auto`. -/
def returned (inv : Invoke) (ret : Option TVal) (v : Val) : Res Val :=
  match ret with
  | some t => construct inv t [v]
  | none => pure v

/-- Runs statements, then `k`, or `g` after a `return`.  With `seek = some v` statements are skipped up to the label `v`. -/
def exec {α : Type} (p : Program) (inv : Invoke) (ret : Option TVal) (g : Val → Env → Res α) :
    Stmt → Option Val → Env → (Env → Res α) → Res α
  | .nil, _, env, k => k env
  | .case label next, some v, env, k => do
    let l ← eval p inv env label
    exec p inv ret g next (if l = v then none else some v) env k
  | .case _ next, none, env, k => exec p inv ret g next none env k
  | .ret e _, none, env, _ => do
    let v ← eval p inv env e
    let r ← returned inv ret v
    g r env
  | .retBrace args _, none, env, _ => do
    let vs ← evalArgs p inv env args
    let t ← orIll ret
    let r ← construct inv t vs
    g r env
  | .retAssign x e _, none, env, _ => do
    let v ← eval p inv env e
    let o ← orIll (env.ents.lookup x)
    let v ← construct inv o.type [v]
    let env := { env with ents := (x, v) :: env.ents }
    let r ← returned inv ret v
    g r env
  | .using x t next, none, env, k => do
    let t ← orIll (evalTy env.tys t)
    exec p inv ret g next none { env with tys := (x, t) :: env.tys } k
  | .decl x e next, none, env, k => do
    let v ← eval p inv env e
    exec p inv ret g next none { env with ents := (x, v) :: env.ents } k
  | .ite c a b next, none, env, k => do
    let x ← eval p inv env c
    match x with
    | .bool x =>
      if x then exec p inv ret g a none env (fun env => exec p inv ret g next none env k)
      else exec p inv ret g b none env (fun env => exec p inv ret g next none env k)
    | _ => illFormed
  | .switch e cases next, none, env, k => do
    let v ← eval p inv env e
    exec p inv ret g cases (some v) env (fun env => exec p inv ret g next none env k)
  | .assign x e next, none, env, k => do
    let v ← eval p inv env e
    let o ← orIll (env.ents.lookup x)
    let v ← construct inv o.type [v]
    exec p inv ret g next none { env with ents := (x, v) :: env.ents } k
  | .update x op e next, none, env, k => do
    let v ← eval p inv env e
    let o ← orIll (env.ents.lookup x)
    match o with
    | .int _ _ => do
      let w ← binary inv op o v
      let w ← construct inv o.type [w]
      exec p inv ret g next none { env with ents := (x, w) :: env.ents } k
    | o => do
      let w ← changed (inv .global none (updateName op) [] [o, v])
      exec p inv ret g next none { env with ents := (x, w) :: env.ents } k
  | .callSelf f next, none, env, k => do
    let o ← orIll (assemble env.scope env.ents)
    let w ← changed (inv env.scope (some o) f [] [])
    exec p inv ret g next none (env.withFields w) k
  | .init x args next, none, env, k => do
    let vs ← evalArgs p inv env args
    if x = env.scope.cls then do
      let t ← orIll (selfTy env)
      let w ← construct inv t vs
      exec p inv ret g next none (env.withFields w) k
    else do
      let t ← orIll (fieldTy p env x)
      let w ← construct inv t vs
      exec p inv ret g next none { env with ents := (x, w) :: env.ents } k
  | .ret _ next, some v, env, k => exec p inv ret g next (some v) env k
  | .retBrace _ next, some v, env, k => exec p inv ret g next (some v) env k
  | .retAssign _ _ next, some v, env, k => exec p inv ret g next (some v) env k
  | .using _ _ next, some v, env, k => exec p inv ret g next (some v) env k
  | .decl _ _ next, some v, env, k => exec p inv ret g next (some v) env k
  | .ite _ _ _ next, some v, env, k => exec p inv ret g next (some v) env k
  | .switch _ _ next, some v, env, k => exec p inv ret g next (some v) env k
  | .assign _ _ next, some v, env, k => exec p inv ret g next (some v) env k
  | .update _ _ _ next, some v, env, k => exec p inv ret g next (some v) env k
  | .callSelf _ next, some v, env, k => exec p inv ret g next (some v) env k
  | .init _ _ next, some v, env, k => exec p inv ret g next (some v) env k

/-- Initialises data members from their default initialisers. -/
def initFields (p : Program) (inv : Invoke) (env : Env) : List Field → Res (List (Nat × Val))
  | [] => pure []
  | f :: fs => do
    let vs ← evalArgs p inv env f.init
    let t ← orIll (evalTy env.tys f.ty)
    let v ← construct inv t vs
    let rest ← initFields p inv env fs
    return (f.name, v) :: rest

/-- The default constructor of a class, which is always the defaulted one. -/
def defaultObject (p : Program) (inv : Invoke) (sc : Scope) : Res Val := do
  let c ← orIll (p.cls? sc.cls)
  let env : Env := ⟨sc, classTys p sc.cls (c.tparams.zip sc.targs), []⟩
  let ents ← initFields p inv env c.fields
  orIll (assemble sc ents)

/-- The value of a parameter. -/
def bindParam (p : Program) (inv : Invoke) (env : Env) (q : Param) (arg : Option Val) : Res Val := do
  let t ← orIll (evalTy env.tys q.ty)
  match arg, q.dflt with
  | some v, _ => construct inv t [v]
  | none, some .braces => construct inv t []
  | none, some e => do
    let v ← eval p inv env e
    construct inv t [v]
  | none, none => illFormed

/-- The values of the parameters. -/
def bindParams (p : Program) (inv : Invoke) (env : Env) :
    List Param → List Val → Res (List (Nat × Val))
  | [], _ => pure []
  | q :: qs, [] => do
    let v ← bindParam p inv env q none
    let rest ← bindParams p inv env qs []
    return (q.name, v) :: rest
  | q :: qs, v :: vs => do
    let v ← bindParam p inv env q (some v)
    let rest ← bindParams p inv env qs vs
    return (q.name, v) :: rest

/-- The declared return type; `none` is `auto`. -/
def Func.retTy (f : Func) (tys : List (Nat × TVal)) : Option TVal :=
  if f.ret = .name N.«auto» then none else evalTy tys f.ret

/-- Is it a constructor? -/
def Func.isCtor (f : Func) : Bool := f.scope == f.name

/-- The results of a call whose body has been run. -/
def results (f : Func) (self : Option Val) (v : Val) (env : Env) : Res (Val × Val) :=
  if f.isCtor then do
    let o ← orIll (assemble env.scope env.ents)
    return (o, o)
  else
    match self with
    | some _ => do
      let o ← orIll (assemble env.scope env.ents)
      return (v, o)
    | none =>
      match f.params with
      | q :: _ => do
        let o ← orIll (env.ents.lookup q.name)
        return (v, o)
      | [] => pure (v, .unit)

/-- Runs a function. -/
def run (p : Program) (inv : Invoke) (f : Func) (tys : List (Nat × TVal)) (sc : Scope)
    (self : Option Val) (args : List Val) : Res (Val × Val) := do
  let fields := match self with
    | some o => o.fields
    | none => []
  let params ← bindParams p inv ⟨sc, tys, fields⟩ f.params args
  let body ← orIll f.body
  exec p inv (f.retTy tys) (results f self) body none ⟨sc, tys, params ++ fields⟩
    (results f self .unit)

/-- Calls a function; `fuel` bounds the depth of calls. -/
def invoke (p : Program) : Nat → Invoke
  | 0 => fun _ _ _ _ _ => illFormed
  | fuel + 1 => fun sc self f ts args =>
    if f = sc.cls ∧ args = [] then do
      let o ← defaultObject p (invoke p fuel) sc
      return (o, o)
    else
    match choose p sc ts (args.map Val.type) (constFirst (p.find sc.cls f)) with
    | some (g, tys) => run p (invoke p fuel) g tys sc self args
    | none => illFormed

end Ieme.Header
