import Verif.Model.ScanSyntax
import Verif.Model.HeaderEval
import Verif.Model.HeaderProgram
import Verif.Model.Parse
import Verif.Model.Ieee

/-!
# Evaluating the text of the parser and of the floating-point conversions

An interpreter for the programs read by `Verif/Model/ScanSyntax.lean`.  It knows the C++ rules for
the statements of those programs, the members of `std::string_view`, `std::optional` and
`std::pair` that they use (`View` in `Verif/Model/Parse.lean`), and conversion to and division of
floating-point numbers (`Verif/Model/Ieee.lean`).  It knows nothing of what the functions are meant
to do.  The functions of the other headers (`_0`, `math_utilities::pow`, the constructor and
the operators of `fraction`, …) are evaluated from their text by `Verif/Model/HeaderEval.lean`.

Simplifications.
* A `char` is a Lean `Char` and is promoted to its number; `std::size_t` has 64 bits.
* A `char const*` is the string it points to.
* Operands and arguments are evaluated from left to right; the branches of `?:` have the same type.
* A lambda expression is run in the environment of its caller, which here is the function that
  contains it; it must not change a captured variable (`Stm.confined`).
* In a `switch` the label `default` comes last.
* A floating-point type is `TVal.num k` with the number `k` of bytes of its format.
* Local structures and `static constexpr` constants are known throughout the function body, or the
  lambda expression that is called at once, in which they stand.  The constants are evaluated before
  the statements, since they decide whether the program is well-formed.
* `std::memcpy` of a floating-point number into an unsigned integer of the same size yields its bit
  pattern (`Verif/Model/FloatingPoint.lean`).
* `>>` and `&` are known only for operands of an unsigned type.
* `limits<fraction<Rep, Ops>>::undefined()` is `0/0` (`/repo/include/ieme/limits.hpp:169-173`).
-/

namespace Ieme.Script

open Header

/-- Values. -/
inductive V where
  /-- a value of `Verif/Model/HeaderEval.lean` -/
  | val (v : Val)
  | chr (c : Char)
  /-- a `std::string_view` -/
  | str (s : List Char)
  /-- a reverse iterator: the characters that it has still to pass -/
  | iter (rest : List Char)
  /-- the enumerator `x` of `t` -/
  | enum (t x : Nat)
  | pair (a b : V)
  /-- a `std::optional` without a value -/
  | none
  /-- a `std::optional` with a value -/
  | some (v : V)
  /-- an object of the structure `t` -/
  | obj (t : Nat) (fields : List (Nat × V))
  | lam (body : Stm)
  /-- a lambda expression with parameters -/
  | lamP (ps : List Param) (t : Option Ty) (body : Stm)
  /-- a floating-point number in a format of `size` bytes -/
  | flt (size bits : Nat)
  /-- a `std::tuple`, or the initialisers in braces -/
  | tuple (vs : List V)
  /-- a local structure, not a value -/
  | cls (fs : List Param)

/-- The variables, the latest first. -/
abbrev Env := List (Nat × V)

/-- Gives a variable another value. -/
def assignVar (x : Nat) (v : V) : Env → Env
  | [] => []
  | (y, w) :: rest => if y == x then (y, v) :: rest else (y, w) :: assignVar x v rest

/-- The variables of `inner` that are left at the end of a block entered with `outer`. -/
def leave (outer inner : Env) : Env := inner.drop (inner.length - outer.length)

/-- What a call needs to know. -/
structure Ctx where
  prog : Program
  tys : List (Nat × TVal)
  /-- calls of functions of the other headers -/
  lib : Invoke
  /-- calls of functions of `prog` -/
  call : Nat → List TVal → List V → Res V
  /-- calls of lambda expressions -/
  run : Stm → Env → Res V
  /-- a bound on the number of iterations of a loop -/
  fuel : Nat

def Program.func? (p : Program) (f : Nat) : Option Func := p.funcs.find? (fun g => g.name == f)

/-- Can the argument be passed?  Only floating-point numbers are looked at. -/
def Program.accepts (p : Program) : Param → V → Bool
  | ⟨.name n, _⟩, .flt k _ => (p.types.lookup n).all (fun t => decide (t = .num k))
  | _, _ => true

/-- The function called; among overloads the one whose parameters accept the arguments. -/
def Program.pick (p : Program) (f : Nat) (args : List V) : Option Func :=
  match p.funcs.filter (fun g => g.name == f) with
  | [g] => Option.some g
  | gs => gs.find? (fun g => (g.params.zip args).all (fun a => p.accepts a.1 a.2))

/-- The format with the given number of bytes. -/
def format (k : Nat) : Option Fmt :=
  if k = 4 then Option.some binary32
  else if k = 8 then Option.some binary64
  else if k = 10 then Option.some extended80
  else if k = 16 then Option.some binary128
  else Option.none

def integer (T : IntTy) (n : Int) : V := .val (.int T n)

def truth (b : Bool) : V := .val (.bool b)

/-- `std::string_view::npos` -/
def npos : Int := 2 ^ 64 - 1

/-- The position returned by `find`. -/
def position : Option Nat → V
  | Option.none => integer u64 npos
  | Option.some n => integer u64 n

/-- Integral promotion. -/
def promote (c : Char) : Val := .int i32 c.toNat

/-- The enumeration with the given (qualified) enumerator. -/
def enumerator (x : Nat) : List (Nat × List Nat) → Option V
  | [] => Option.none
  | (t, xs) :: rest =>
    match xs.find? (fun y => joinName t y == x) with
    | Option.some y => Option.some (.enum t y)
    | Option.none => enumerator x rest

/-- A name that is not a variable. -/
def constant (p : Program) (x : Nat) : Option V :=
  if x = N.«std::nullopt» then Option.some .none
  else if x = N.«std::string_view::npos» then Option.some (integer u64 npos)
  else
    match boolLit x with
    | Option.some b => Option.some (.val b)
    | Option.none =>
      match p.values.lookup x with
      | Option.some (t, y) => Option.some (.enum t y)
      | Option.none => enumerator x p.enums

/-- A template parameter that stands for a number. -/
def templateValue (tys : List (Nat × TVal)) (x : Nat) : Option V :=
  match tys.lookup x with
  | Option.some (.num k) => Option.some (integer i32 k)
  | _ => Option.none

def evalVar (p : Program) (tys : List (Nat × TVal)) (env : Env) (x : Nat) : Option V :=
  match env.lookup x with
  | Option.some v => Option.some v
  | Option.none =>
    match constant p x with
    | Option.some v => Option.some v
    | Option.none => templateValue tys x

/-- A data member. -/
def member (v : V) (x : Nat) : Option V :=
  match v with
  | .obj _ fs => fs.lookup x
  | _ => Option.none

/-- Calls of member functions that do not change the object. -/
def method (lib : Invoke) (v : V) (f : Nat) (args : List V) : Res V :=
  match v, args with
  | .val x, [] => V.val <$> value (lib x.type.scope (Option.some x) f [] [])
  | .str s, [] =>
    if f = N.«size» then pure (integer u64 s.length)
    else if f = N.«empty» then pure (truth s.isEmpty)
    else if f = N.«front» then V.chr <$> View.front s
    else if f = N.«rbegin» then pure (.iter s.reverse)
    else if f = N.«rend» then pure (.iter [])
    else illFormed
  | .str s, [.chr c] => if f = N.«find» then pure (position (View.find c s)) else illFormed
  | .str s, [.val (.int _ pos), .val (.int _ n)] =>
    if f = N.«substr» then
      if pos.toNat ≤ s.length then pure (.str ((s.drop pos.toNat).take n.toNat))
      else .fault .thrown
    else illFormed
  | .none, [] => if f = N.«has_value» then pure (truth false) else .fault .thrown
  | .some v, [] =>
    if f = N.«has_value» then pure (truth true)
    else if f = N.«value» then pure v
    else illFormed
  | _, _ => illFormed

/-- Calls of member functions that change the object: its new value. -/
def action (v : V) (f : Nat) (args : List V) : Res V :=
  match v, args with
  | .str s, [.val (.int _ n)] =>
    if f = N.«remove_prefix» then V.str <$> View.removePrefix s n.toNat else illFormed
  | _, _ => illFormed

def unaryOp (lib : Invoke) (op : UnOp) (v : V) : Res V :=
  match v with
  | .val v => V.val <$> unary lib op v
  | _ => illFormed

/-- A binary operator other than `&&` and `||`. -/
def binaryOp (lib : Invoke) (op : BinOp) (a b : V) : Res V :=
  match a, b with
  | .val x, .val y => V.val <$> binary lib op x y
  | .chr x, .chr y => V.val <$> binary lib op (promote x) (promote y)
  | .chr x, .val y => V.val <$> binary lib op (promote x) y
  | .val x, .chr y => V.val <$> binary lib op x (promote y)
  | .str s, .str t =>
    if op = .eq then pure (truth (decide (s = t)))
    else if op = .ne then pure (truth (decide (s ≠ t)))
    else illFormed
  -- iterators into the same view
  | .iter s, .iter t =>
    if op = .eq then pure (truth (decide (s.length = t.length)))
    else if op = .ne then pure (truth (decide (s.length ≠ t.length)))
    else illFormed
  | .flt k x, .flt l y =>
    if op = .div ∧ k = l then do
      let F ← orIll (format k)
      return .flt k (F.div x y)
    else illFormed
  | _, _ => illFormed

/-- `a >> b` -/
def shiftRight (a b : V) : Res V :=
  match a, b with
  | .val (.int T m), .val (.int _ n) =>
    if T.signed then illFormed
    else if 0 ≤ n ∧ n < T.bits then pure (integer T (m.toNat >>> n.toNat : Nat))
    else .fault .shiftRange
  | _, _ => illFormed

/-- `a & b` -/
def bitAnd (a b : V) : Res V :=
  match a, b with
  | .val (.int T m), .val (.int S n) =>
    if T.signed = false ∧ S = T then pure (integer T (m.toNat &&& n.toNat : Nat)) else illFormed
  | _, _ => illFormed

/-- `std::memcpy` of `k` bytes from `new` to `old`. -/
def copyBytes (t : TVal) (old new : V) : Res V :=
  match t, old, new with
  | .num k, .val (.int U _), .flt l bits =>
    if l = k ∧ U.signed = false ∧ U.bits = 8 * k then pure (integer U bits) else illFormed
  | _, _, _ => illFormed

/-- `*v` -/
def dereference : V → Res V
  | .iter (c :: _) => pure (.chr c)
  | .iter [] => .fault .outOfBounds
  | _ => illFormed

/-- `++v` -/
def advance (lib : Invoke) : V → Res V
  | .iter (_ :: s) => pure (.iter s)
  | .iter [] => .fault .outOfBounds
  | .val (.int T n) => do
    let w ← binary lib .add (.int T n) (.int i32 1)
    V.val <$> construct lib (.int T) [w]
  | _ => illFormed

/-- The value converted to the type of the variable that it is assigned to. -/
def convertLike (lib : Invoke) (old new : V) : Res V :=
  match old, new with
  | .val o, .val v => V.val <$> construct lib o.type [v]
  | .str _, .str s => pure (.str s)
  | .enum t _, .enum u x => if t = u then pure (.enum t x) else illFormed
  | _, _ => illFormed

/-- An explicit conversion. -/
def convertTo (lib : Invoke) (t : TVal) (v : V) : Res V :=
  match t, v with
  | .num k, .val (.int _ n) => do
    let F ← orIll (format k)
    return .flt k (F.ofInt n)
  | t, .val v => V.val <$> castTo lib t v
  | t, .chr c => V.val <$> castTo lib t (promote c)
  | _, _ => illFormed

/-- Does a label have the value? -/
def sameAs : V → V → Bool
  | .chr a, .chr b => decide (a = b)
  | .enum t x, .enum u y => decide (t = u) && decide (x = y)
  | .val a, .val b => decide (a = b)
  | _, _ => false

/-- The values known to `Verif/Model/HeaderEval.lean`. -/
def plainValues : List V → Option (List Val)
  | [] => Option.some []
  | .val v :: vs => do
    let ws ← plainValues vs
    return v :: ws
  | _ => Option.none

/-- A call of a function that is not in the program. -/
def library? (c : Ctx) (f : Nat) (ts : List TVal) (args : List V) : Res V :=
  if f = N.«std::make_pair» then
    match args with
    | [a, b] => pure (.pair a b)
    | _ => illFormed
  else if f = N.«std::make_tuple» then pure (.tuple args)
  else if f = N.«limits::undefined» then
    match ts with
    | [.frac T o] => pure (.val (.frac T o ⟨0, 0⟩))
    | _ => illFormed
  else do
    let vs ← orIll (plainValues args)
    if f = N.«math_utilities::pow» then
      V.val <$> value (c.lib ⟨N.«math_utilities», []⟩ Option.none N.«pow» [] vs)
    else if f = N.«math_utilities::pow2» then
      V.val <$> value (c.lib ⟨N.«math_utilities», []⟩ Option.none N.«pow2» [] vs)
    else V.val <$> Header.call library c.lib ⟨.global, c.tys, []⟩ 0 f ts vs

/-- The value of a parameter. -/
def bindParam (c : Ctx) (t : Ty) (v : V) : Res V :=
  match v with
  | .str s =>
    if t = .name N.«std::string_view» ∨ t = .name N.«char» then pure (.str s) else illFormed
  | .val v => do
    let t ← orIll (evalTy c.tys t)
    V.val <$> construct c.lib t [v]
  | .flt k bits => do
    let t ← orIll (evalTy c.tys t)
    if t = .num k then pure (.flt k bits) else illFormed
  | _ => illFormed

def bindParams (c : Ctx) : List Param → List V → Res Env
  | [], [] => pure []
  | p :: ps, v :: vs => do
    let v ← bindParam c p.ty v
    let rest ← bindParams c ps vs
    return (p.name, v) :: rest
  | _, _ => illFormed

/-- The value returned by a lambda expression. -/
def lambdaResult (c : Ctx) (t : Option Ty) (v : V) : Res V :=
  match t with
  | Option.some t => bindParam c t v
  | Option.none => pure v

/-- The value returned in braces by a lambda expression with a return type. -/
def aggregate (c : Ctx) (env : Env) (t : Ty) (v : V) : Res V :=
  match t, v with
  | .name n, .tuple vs =>
    match env.lookup n with
    | Option.some (.cls ps) => V.obj n <$> bindParams c ps vs
    | _ => illFormed
  | _, _ => illFormed

/-- A call by name. -/
def callName (c : Ctx) (env : Env) (f : Nat) (ts : List TVal) (args : List V) : Res V :=
  match env.lookup f with
  | Option.some (.lam body) => c.run body env
  | Option.some (.lamP ps t body) => do
    let own ← bindParams c ps args
    let v ← c.run body (own ++ env)
    lambdaResult c t v
  | _ =>
    match c.prog.func? f with
    | Option.some _ => c.call f ts args
    | Option.none => library? c f ts args

/-- Goes on according to a truth value. -/
def branch {α : Type} (v : V) (a b : Res α) : Res α :=
  match v with
  | .val (.bool x) => if x then a else b
  | _ => illFormed

/-- Assigns only to its own variables. -/
def Stm.confined (own : List Nat) : Stm → Bool
  | .nil => true
  | .ret _ next => next.confined own
  | .decl x _ next => next.confined (x :: own)
  | .decl2 x y _ next => next.confined (x :: y :: own)
  | .decl3 x y z _ next => next.confined (x :: y :: z :: own)
  | .obj _ x next => next.confined (x :: own)
  | .zero _ x next => next.confined (x :: own)
  | .constant x _ next => next.confined (x :: own)
  | .strct _ _ next => next.confined own
  | .retBrace _ next => next.confined own
  | .copy x _ _ next => own.contains x && next.confined own
  | .assign x _ next => own.contains x && next.confined own
  | .set x _ _ next => own.contains x && next.confined own
  | .update x _ _ next => own.contains x && next.confined own
  | .incr x next => own.contains x && next.confined own
  | .act x _ _ next => own.contains x && next.confined own
  | .ite _ a b next => a.confined own && b.confined own && next.confined own
  | .iteInit x _ _ a next => a.confined (x :: own) && next.confined own
  | .each x _ body next => body.confined (x :: own) && next.confined own
  | .loop x _ _ body next => body.confined (x :: own) && next.confined own
  | .switch _ cases next => cases.confined own && next.confined own
  | .case _ next => next.confined own
  | .dflt next => next.confined own
  | .brk next => next.confined own
  | .cont next => next.confined own

/-- The default value of a data member of the given type. -/
def defaultOf : Ty → Res V
  | .name n => if n = N.«std::string_view» then pure (.str []) else illFormed
  | _ => illFormed

/-- Repeats `f`, at most the given number of times. -/
def iterate : Nat → ((Env → Res V) → Env → Res V) → Env → Res V
  | 0, _ => fun _ => illFormed
  | n + 1, f => f (iterate n f)

/-- Where control goes after a statement. -/
structure Exits where
  ret : V → Res V
  brk : Env → Res V
  cont : Env → Res V

mutual
/-- The value of an expression. -/
def eval (c : Ctx) (env : Env) : Exp → Res V
  | .num n => pure (integer i32 n)
  | .unum n => pure (integer u32 n)
  | .chr n => pure (.chr (Char.ofNat n))
  | .str s => pure (.str (s.map Char.ofNat))
  | .var x => orIll (evalVar c.prog c.tys env x)
  | .fld e x => do
    let v ← eval c env e
    orIll (member v x)
  | .meth e f args => do
    let v ← eval c env e
    let vs ← evalArgs c env args
    method c.lib v f vs
  | .call f ts args => do
    let ts ← orIll (evalTys c.tys ts)
    let vs ← evalArgs c env args
    callName c env f ts vs
  | .cast t e => do
    let t ← orIll (evalTy c.tys t)
    let v ← eval c env e
    convertTo c.lib t v
  | .deref e => do
    let v ← eval c env e
    dereference v
  | .un op e => do
    let v ← eval c env e
    unaryOp c.lib op v
  | .bin op a b => do
    let x ← eval c env a
    if op = .and then branch x (eval c env b) (pure (truth false))
    else if op = .or then branch x (pure (truth true)) (eval c env b)
    else do
      let y ← eval c env b
      binaryOp c.lib op x y
  | .cond e a b => do
    let x ← eval c env e
    branch x (eval c env a) (eval c env b)
  | .lam body => if body.confined [] then pure (.lam body) else illFormed
  | .now body =>
    if body.confined [] then do
      let env ← hoisted c env body
      exec c ⟨pure, fun _ => illFormed, fun _ => illFormed⟩ body Option.none env (fun _ => illFormed)
    else illFormed
  | .lamP ps t body =>
    if body.confined (ps.map Param.name) then pure (.lamP ps t body) else illFormed
  | .nowR t body =>
    if body.confined [] then
      exec c ⟨aggregate c env t, fun _ => illFormed, fun _ => illFormed⟩ body Option.none env
        (fun _ => illFormed)
    else illFormed
  | .shr a b => do
    let x ← eval c env a
    let y ← eval c env b
    shiftRight x y
  | .band a b => do
    let x ← eval c env a
    let y ← eval c env b
    bitAnd x y
  | .throw => .fault .thrown

def evalArgs (c : Ctx) (env : Env) : Exps → Res (List V)
  | .nil => pure []
  | .cons e rest => do
    let v ← eval c env e
    let vs ← evalArgs c env rest
    return v :: vs

/-- The variables with the local structures and constants of a function body. -/
def hoisted (c : Ctx) (env : Env) : Stm → Res Env
  | .nil => pure env
  | .constant y e next =>
    match eval c env e with
    | .ok v w => .ok () w >>= fun _ => hoisted c ((y, v) :: env) next
    -- undefined behaviour in a constant expression makes the program ill-formed
    | .fault _ => illFormed
  | .strct t ps next => hoisted c ((t, .cls ps) :: env) next
  | .ret _ next => hoisted c env next
  | .decl _ _ next => hoisted c env next
  | .decl2 _ _ _ next => hoisted c env next
  | .decl3 _ _ _ _ next => hoisted c env next
  | .obj _ _ next => hoisted c env next
  | .zero _ _ next => hoisted c env next
  | .retBrace _ next => hoisted c env next
  | .copy _ _ _ next => hoisted c env next
  | .assign _ _ next => hoisted c env next
  | .set _ _ _ next => hoisted c env next
  | .update _ _ _ next => hoisted c env next
  | .incr _ next => hoisted c env next
  | .act _ _ _ next => hoisted c env next
  | .ite _ _ _ next => hoisted c env next
  | .iteInit _ _ _ _ next => hoisted c env next
  | .each _ _ _ next => hoisted c env next
  | .loop _ _ _ _ next => hoisted c env next
  | .switch _ _ next => hoisted c env next
  | .case _ next => hoisted c env next
  | .dflt next => hoisted c env next
  | .brk next => hoisted c env next
  | .cont next => hoisted c env next

/-- Runs statements, then `k`.  With `seek = some v` statements are skipped up to the label `v`. -/
def exec (c : Ctx) (x : Exits) : Stm → (seek : Option V) → Env → (k : Env → Res V) → Res V
  | .nil, _, env, k => k env
  | .case label next, Option.some v, env, k => do
    let l ← eval c env label
    exec c x next (if sameAs l v then Option.none else Option.some v) env k
  | .case _ next, Option.none, env, k => exec c x next Option.none env k
  | .dflt next, _, env, k => exec c x next Option.none env k
  | .ret e _, Option.none, env, _ => do
    let v ← eval c env e
    x.ret v
  | .decl y e next, Option.none, env, k => do
    let v ← eval c env e
    exec c x next Option.none ((y, v) :: env) k
  | .decl2 y z e next, Option.none, env, k => do
    let v ← eval c env e
    match v with
    | .pair a b => exec c x next Option.none ((y, a) :: (z, b) :: env) k
    | _ => illFormed
  | .decl3 y z u e next, Option.none, env, k => do
    let v ← eval c env e
    match v with
    | .tuple [p, q, r] => exec c x next Option.none ((y, p) :: (z, q) :: (u, r) :: env) k
    | _ => illFormed
  | .zero t y next, Option.none, env, k => do
    let t ← orIll (evalTy c.tys (.name t))
    let v ← construct c.lib t []
    exec c x next Option.none ((y, .val v) :: env) k
  | .constant _ _ next, Option.none, env, k => exec c x next Option.none env k
  | .strct _ _ next, Option.none, env, k => exec c x next Option.none env k
  | .retBrace args _, Option.none, env, _ => do
    let vs ← evalArgs c env args
    x.ret (.tuple vs)
  | .copy y z t next, Option.none, env, k => do
    let t ← orIll (evalTy c.tys (.name t))
    let o ← orIll (env.lookup y)
    let v ← orIll (env.lookup z)
    let w ← copyBytes t o v
    exec c x next Option.none (assignVar y w env) k
  | .obj t y next, Option.none, env, k => do
    let v ← c.call t [] []
    exec c x next Option.none ((y, v) :: env) k
  | .assign y e next, Option.none, env, k => do
    let v ← eval c env e
    let o ← orIll (env.lookup y)
    let w ← convertLike c.lib o v
    exec c x next Option.none (assignVar y w env) k
  | .set y f e next, Option.none, env, k => do
    let v ← eval c env e
    let o ← orIll (env.lookup y)
    match o with
    | .obj t fs => do
      let old ← orIll (fs.lookup f)
      let w ← convertLike c.lib old v
      exec c x next Option.none (assignVar y (.obj t (assignVar f w fs)) env) k
    | _ => illFormed
  | .update y op e next, Option.none, env, k => do
    let v ← eval c env e
    let o ← orIll (env.lookup y)
    let w ← binaryOp c.lib op o v
    let w ← convertLike c.lib o w
    exec c x next Option.none (assignVar y w env) k
  | .incr y next, Option.none, env, k => do
    let o ← orIll (env.lookup y)
    let w ← advance c.lib o
    exec c x next Option.none (assignVar y w env) k
  | .act y f args next, Option.none, env, k => do
    let vs ← evalArgs c env args
    let o ← orIll (env.lookup y)
    let w ← action o f vs
    exec c x next Option.none (assignVar y w env) k
  | .ite e a b next, Option.none, env, k => do
    let v ← eval c env e
    branch v
      (exec c x a Option.none env fun env' => exec c x next Option.none (leave env env') k)
      (exec c x b Option.none env fun env' => exec c x next Option.none (leave env env') k)
  | .iteInit y i e a next, Option.none, env, k => do
    let w ← eval c env i
    let v ← eval c ((y, w) :: env) e
    branch v
      (exec c x a Option.none ((y, w) :: env) fun env' =>
        exec c x next Option.none (leave env env') k)
      (exec c x next Option.none env k)
  | .each y e body next, Option.none, env, k => do
    let v ← eval c env e
    match v with
    | .str s =>
      s.foldr
        (fun ch more env' =>
          exec c ⟨x.ret, fun env'' => exec c x next Option.none (leave env env'') k,
              fun env'' => more (leave env env'')⟩
            body Option.none ((y, .chr ch) :: env') fun env'' => more (leave env env''))
        (fun env' => exec c x next Option.none env' k) env
    | _ => illFormed
  | .loop y e t body next, Option.none, env, k => do
    let v ← eval c env e
    iterate c.fuel
      (fun again env' => do
        let v ← eval c env' t
        let onwards := fun env'' => do
          let o ← orIll (List.lookup y env'')
          let w ← advance c.lib o
          again (assignVar y w env'')
        branch v
          (exec c ⟨x.ret, fun env'' => exec c x next Option.none (leave env env'') k,
              fun env'' => onwards (leave env' env'')⟩
            body Option.none env' fun env'' => onwards (leave env' env''))
          (exec c x next Option.none (leave env env') k))
      ((y, v) :: env)
  | .switch e cases next, Option.none, env, k => do
    let v ← eval c env e
    exec c ⟨x.ret, fun env' => exec c x next Option.none (leave env env') k, x.cont⟩ cases
      (Option.some v) env fun env' => exec c x next Option.none (leave env env') k
  | .brk _, Option.none, env, _ => x.brk env
  | .cont _, Option.none, env, _ => x.cont env
  | .ret _ next, Option.some v, env, k => exec c x next (Option.some v) env k
  | .decl _ _ next, Option.some v, env, k => exec c x next (Option.some v) env k
  | .decl2 _ _ _ next, Option.some v, env, k => exec c x next (Option.some v) env k
  | .obj _ _ next, Option.some v, env, k => exec c x next (Option.some v) env k
  | .decl3 _ _ _ _ next, Option.some v, env, k => exec c x next (Option.some v) env k
  | .zero _ _ next, Option.some v, env, k => exec c x next (Option.some v) env k
  | .constant _ _ next, Option.some v, env, k => exec c x next (Option.some v) env k
  | .strct _ _ next, Option.some v, env, k => exec c x next (Option.some v) env k
  | .retBrace _ next, Option.some v, env, k => exec c x next (Option.some v) env k
  | .copy _ _ _ next, Option.some v, env, k => exec c x next (Option.some v) env k
  | .assign _ _ next, Option.some v, env, k => exec c x next (Option.some v) env k
  | .set _ _ _ next, Option.some v, env, k => exec c x next (Option.some v) env k
  | .update _ _ _ next, Option.some v, env, k => exec c x next (Option.some v) env k
  | .incr _ next, Option.some v, env, k => exec c x next (Option.some v) env k
  | .act _ _ _ next, Option.some v, env, k => exec c x next (Option.some v) env k
  | .ite _ _ _ next, Option.some v, env, k => exec c x next (Option.some v) env k
  | .iteInit _ _ _ _ next, Option.some v, env, k => exec c x next (Option.some v) env k
  | .each _ _ _ next, Option.some v, env, k => exec c x next (Option.some v) env k
  | .loop _ _ _ _ next, Option.some v, env, k => exec c x next (Option.some v) env k
  | .switch _ _ next, Option.some v, env, k => exec c x next (Option.some v) env k
  | .brk next, Option.some v, env, k => exec c x next (Option.some v) env k
  | .cont next, Option.some v, env, k => exec c x next (Option.some v) env k
end

/-! ## Calls -/

/-- Deduces template arguments from parameters whose type is a bare template parameter or
`fraction<Rep, Ops>`. -/
def deduce (tps : List Nat) : List (Nat × TVal) → List Param → List V → List (Nat × TVal)
  | tys, ⟨.name n, _⟩ :: ps, .val v :: vs =>
    if tps.contains n && (tys.lookup n).isNone then deduce tps ((n, v.type) :: tys) ps vs
    else deduce tps tys ps vs
  | tys, ⟨.app2 n (.name a) (.name b), _⟩ :: ps, .val (.frac T o _) :: vs =>
    if n = N.«fraction» then deduce tps ((a, .int T) :: (b, .ops o) :: tys) ps vs
    else deduce tps tys ps vs
  | tys, _ :: ps, _ :: vs => deduce tps tys ps vs
  | tys, _, _ => tys

/-- The types that occur as template arguments, `/repo/include/ieme/fraction_literals.hpp:106-110`. -/
def knownTypes : List (Nat × TVal) :=
  [(N.«std::intmax_t», .int i64), (N.«ops::defaults», .ops .defaults)]

/-- The value of a `return` statement, converted to the return type. -/
def returned (c : Ctx) (t : Ty) (v : V) : Res V :=
  match v with
  | .val v => do
    let t ← orIll (evalTy c.tys t)
    V.val <$> construct c.lib t [v]
  | .flt k bits => do
    let t ← orIll (evalTy c.tys t)
    if t = .num k then pure (.flt k bits) else illFormed
  | .none => if t = .app1 N.«std::optional» (.name N.«floating_point_string_scan_results») then
      pure .none else illFormed
  | .obj u fs =>
    if t = .app1 N.«std::optional» (.name u) then pure (.some (.obj u fs)) else illFormed
  | _ => illFormed

/-- Initialises data members. -/
def initFields (c : Ctx) : List Field → Res (List (Nat × V))
  | [] => pure []
  | f :: fs => do
    let v ← match f.init with
      | .nil => defaultOf f.ty
      | .cons e _ => do
        let v ← eval c [] e
        match v with
        | .val w => do
          let t ← orIll (evalTy c.tys f.ty)
          V.val <$> construct c.lib t [w]
        | .enum t x => if f.ty = .name t then pure (.enum t x) else illFormed
        | _ => illFormed
    let rest ← initFields c fs
    return (f.name, v) :: rest

/-- Calls a function, or default-initialises an object. -/
def callFunc (p : Program) (ctx : List (Nat × TVal) → Ctx) (f : Nat) (ts : List TVal)
    (args : List V) : Res V :=
  match p.pick f args with
  | Option.some g => do
    let c := ctx (deduce g.tparams (g.tparams.zip ts ++ (knownTypes ++ p.types)) g.params args)
    let env ← bindParams c g.params args
    let env ← hoisted c env g.body
    exec c ⟨returned c g.ret, fun _ => illFormed, fun _ => illFormed⟩ g.body Option.none env
      (fun _ => illFormed)
  | Option.none =>
    match p.structs.lookup f with
    | Option.some fs => V.obj f <$> initFields (ctx []) fs
    | Option.none => illFormed

/-- What a call needs to know; the number bounds the depth of calls and the iterations of loops. -/
def mkCtx (p : Program) : Nat → List (Nat × TVal) → Ctx
  | 0, tys => ⟨p, tys, fun _ _ _ _ _ => illFormed, fun _ _ _ => illFormed, fun _ _ => illFormed, 0⟩
  | n + 1, tys =>
    ⟨p, tys, Header.invoke library n, callFunc p (mkCtx p n),
      fun body env => exec (mkCtx p n tys) ⟨pure, fun _ => illFormed, fun _ => illFormed⟩ body
        Option.none env (fun _ => illFormed), n⟩

/-- Calls a function of the program. -/
def invoke (p : Program) (n : Nat) (f : Nat) (ts : List TVal) (args : List V) : Res V :=
  (mkCtx p n []).call f ts args

end Ieme.Script
