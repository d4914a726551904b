import Verif.Model.Chrono
import Verif.Model.ChronoProgram
import Verif.Model.HeaderEval
import Verif.Model.HeaderProgram

/-!
# Evaluating the text of `chrono.hpp`

Calls are evaluated from what `/repo/include/ieme/chrono.hpp` parses to.  The language that is
modelled: alias templates, default template arguments, the deduction of template arguments, member
types, partial specialisation of `std::chrono::treat_as_floating_point`.  Fractions are constructed,
multiplied and divided by evaluating the text of the other headers
(`Verif/Model/HeaderEval.lean`).

The standard library that is modelled: `std::chrono::duration` and `std::chrono::time_point` with
their member types, their converting constructors with the condition on
`treat_as_floating_point` ([time.duration.cons], [time.point.cons]) and `duration_cast`
([time.duration.cast]), the predefined durations with 64-bit counts, and clocks.

* A period is a positive `std::ratio` in lowest terms.
* The common type of `fraction<T, o>`, an integer type and `std::intmax_t` is `fraction<T, o>`; there
  is none with another fraction.  Conversion to a duration that counts in integers is left out.
-/

namespace Ieme.Chrono

deriving instance DecidableEq for Period

end Ieme.Chrono

namespace Ieme.ChronoText

open Header hiding Ty Func Cls Program Env eval run invoke builtinTy memberTy fit
open Chrono (Period ratioDivide)

/-! ## Types and values -/

/-- A clock that reads `reading`, a count of `period` in the integer type `rep`. -/
structure Clock where
  rep : IntTy
  period : Period
  steady : Bool
  reading : Int
deriving DecidableEq

inductive CT where
  /-- a type of `Verif/Model/HeaderEval.lean` -/
  | ty (t : TVal)
  | period (p : Period)
  | clock (c : Clock)
  /-- `std::chrono::duration<rep, p>` -/
  | dur (rep : TVal) (p : Period)
  /-- `std::chrono::time_point<c, std::chrono::duration<rep, p>>` -/
  | tp (c : Clock) (rep : TVal) (p : Period)
deriving DecidableEq

inductive CV where
  /-- a duration with the count `v` -/
  | dur (p : Period) (v : Val)
  /-- a time point with the count `v` since the epoch -/
  | tp (c : Clock) (p : Period) (v : Val)
  | bool (b : Bool)
deriving DecidableEq

def CV.type : CV → CT
  | .dur p v => .dur v.type p
  | .tp c p v => .tp c v.type p
  | .bool _ => .ty .bool

abbrev Names := List (Nat × CT)

def second (n d : Nat) (hn : 0 < n := by decide) (hd : 0 < d := by decide)
    (h : Int.gcd n d = 1 := by decide) : Period :=
  ⟨n, d, by omega, by omega, h⟩

/-- The types that are not declared in the header. -/
def builtinTy (n : Nat) : Option CT :=
  if n = N.«ops::defaults» then some (.ty (.ops .defaults))
  else if n = N.«std::chrono::nanoseconds» then some (.dur (.int i64) (second 1 1000000000))
  else if n = N.«std::chrono::microseconds» then some (.dur (.int i64) (second 1 1000000))
  else if n = N.«std::chrono::milliseconds» then some (.dur (.int i64) (second 1 1000))
  else if n = N.«std::chrono::seconds» then some (.dur (.int i64) (second 1 1))
  else if n = N.«std::chrono::minutes» then some (.dur (.int i64) (second 60 1))
  else if n = N.«std::chrono::hours» then some (.dur (.int i64) (second 3600 1))
  else none

/-- The templates that are not declared in the header. -/
def builtinApp (n : Nat) : List CT → Option CT
  | [.ty r, .period p] => if n = N.«std::chrono::duration» then some (.dur r p) else none
  | [.clock c, .dur r p] => if n = N.«std::chrono::time_point» then some (.tp c r p) else none
  | [.ty (.int T), .ty (.ops o)] => if n = N.«fraction» then some (.ty (.frac T o)) else none
  | _ => none

/-- Member types. -/
def memberTy : CT → Nat → Option CT
  | .dur r p, x =>
    if x = N.«rep» then some (.ty r) else if x = N.«period» then some (.period p) else none
  | .tp c r p, x =>
    if x = N.«clock» then some (.clock c)
    else if x = N.«duration» then some (.dur r p)
    else if x = N.«rep» then some (.ty r)
    else if x = N.«period» then some (.period p)
    else none
  | .clock c, x =>
    if x = N.«rep» then some (.ty (.int c.rep))
    else if x = N.«period» then some (.period c.period)
    else if x = N.«duration» then some (.dur (.int c.rep) c.period)
    else if x = N.«time_point» then some (.tp c (.int c.rep) c.period)
    else none
  | .period p, x => if x = N.«type» then some (.period p) else none
  | _, _ => none

/-- A template applied to arguments; `al` knows the alias templates. -/
def apply (al : Nat → List CT → Option CT) (names : Names) (q : Bool) (n : Nat) (args : List CT) :
    Option CT :=
  if q = false ∧ (names.lookup n).isSome then none
  else
    match builtinApp n args with
    | some t => some t
    | none => al n args

/-- What a type expression means. -/
def resolve (al : Nat → List CT → Option CT) (names : Names) : Ty → Option CT
  | .name q n =>
    match (if q then none else names.lookup n) with
    | some t => some t
    | none =>
      match builtinTy n with
      | some t => some t
      | none => al n []
  | .app1 q n a => do
    let a ← resolve al names a
    apply al names q n [a]
  | .app2 q n a b => do
    let a ← resolve al names a
    let b ← resolve al names b
    apply al names q n [a, b]
  | .app3 q n a b c => do
    let a ← resolve al names a
    let b ← resolve al names b
    let c ← resolve al names c
    apply al names q n [a, b, c]
  | .app4 q n a b c d => do
    let a ← resolve al names a
    let b ← resolve al names b
    let c ← resolve al names c
    let d ← resolve al names d
    apply al names q n [a, b, c, d]
  | .mem t x => do
    let t ← resolve al names t
    memberTy t x

/-- Gives template parameters their arguments, and the others their defaults. -/
def bindArgs (al : Nat → List CT → Option CT) : Names → List TParam → List CT → Option Names
  | names, [], [] => some names
  | _, [], _ :: _ => none
  | names, t :: ts, a :: as => bindArgs al ((t.name, a) :: names) ts as
  | names, t :: ts, [] =>
    match t.default with
    | some d => do
      let a ← resolve al names d
      bindArgs al ((t.name, a) :: names) ts []
    | none => none

/-- The alias templates, nested as deep as `fuel` says. -/
def Program.alias (p : Program) : Nat → Nat → List CT → Option CT
  | 0, _, _ => none
  | fuel + 1, n, args => do
    let a ← p.aliases.find? fun a => a.name == n
    let names ← bindArgs (p.alias fuel) [] a.tparams args
    resolve (p.alias fuel) names a.ty

/-- What a type expression means in the program. -/
def Program.resolve (p : Program) (names : Names) (t : Ty) : Option CT :=
  ChronoText.resolve (p.alias 5) names t

/-- Makes the type expression mean the type, by giving a meaning to template parameters. -/
def unify (tps : List Nat) (names : Names) : Ty → CT → Option Names
  | .name _ n, t =>
    match names.lookup n with
    | some u => if u = t then some names else none
    | none => if tps.contains n then some ((n, t) :: names) else none
  | .app2 _ n a b, .dur r p =>
    if n = N.«std::chrono::duration» then do
      let names ← unify tps names a (.ty r)
      unify tps names b (.period p)
    else none
  | .app2 _ n a b, .tp c r p =>
    if n = N.«std::chrono::time_point» then do
      let names ← unify tps names a (.clock c)
      unify tps names b (.dur r p)
    else none
  | .app2 _ n a b, .ty (.frac T o) =>
    if n = N.«fraction» then do
      let names ← unify tps names a (.ty (.int T))
      unify tps names b (.ty (.ops o))
    else none
  | _, _ => none

/-- `std::chrono::treat_as_floating_point<t>` -/
def Program.floating (p : Program) (t : TVal) : Bool :=
  p.specials.any fun s => s.name == N.«treat_as_floating_point» &&
    s.base = .name true N.«std::true_type» &&
    (unify (s.tparams.map TParam.name) [] s.arg (.ty t)).isSome

/-! ## Conversion -/

/-- Can the count take part, so that there is a common type? -/
def comparable (T : IntTy) (o : Ops) : Val → Bool
  | .int _ _ => true
  | .frac S o' _ => S = T ∧ o' = o
  | _ => false

/-- `duration_cast` of a count with the factor `n/d`; the common type is `fraction<T, o>`. -/
def castCount (lib : Invoke) (T : IntTy) (o : Ops) (n d : Int) (v : Val) : Res Val := do
  let x ← construct lib (.frac T o) [v]
  if n = 1 ∧ d = 1 then pure x
  else if d = 1 then do
    let n' ← construct lib (.frac T o) [.int i64 n]
    binary lib .mul x n'
  else if n = 1 then do
    let d' ← construct lib (.frac T o) [.int i64 d]
    binary lib .div x d'
  else do
    let n' ← construct lib (.frac T o) [.int i64 n]
    let y ← binary lib .mul x n'
    let d' ← construct lib (.frac T o) [.int i64 d]
    binary lib .div y d'

/-- The converting constructor of `duration`: the new count. -/
def convertCount (p : Program) (lib : Invoke) (t : TVal) (a b : Period) (v : Val) : Res Val :=
  match t with
  | .frac T o =>
    match ratioDivide a b with
    | none => illFormed
    | some (n, d) =>
      if comparable T o v ∧ (p.floating t ∨ (d = 1 ∧ ¬ p.floating v.type)) then
        castCount lib T o n d v
      else illFormed
  | _ => illFormed

/-- Conversion of a value. -/
def convert (p : Program) (lib : Invoke) (t : CT) (v : CV) : Res CV :=
  if v.type = t then pure v
  else
    match t, v with
    | .dur r b, .dur a x => CV.dur b <$> convertCount p lib r a b x
    | .tp c r b, .tp c' a x =>
      if c' = c then CV.tp c b <$> convertCount p lib r a b x else illFormed
    | _, _ => illFormed

/-! ## Evaluation -/

/-- The value of an expression. -/
def eval (p : Program) (lib : Invoke) (names : Names) (vars : List (Nat × CV)) : Exp → Res CV
  | .var x => orIll (vars.lookup x)
  | .cast t e => do
    let v ← eval p lib names vars e
    let t ← orIll (p.resolve names t)
    convert p lib t v
  | .stat t f => do
    match ← orIll (p.resolve names t) with
    | .clock c => if f = N.«now» then pure (.tp c c.period (.int c.rep c.reading)) else illFormed
    | _ => illFormed
  | .const t x => do
    match ← orIll (p.resolve names t) with
    | .clock c => if x = N.«is_steady» then pure (.bool c.steady) else illFormed
    | _ => illFormed

/-- The body of a function. -/
def run (p : Program) (lib : Invoke) (names : Names) (vars : List (Nat × CV)) (f : Func) :
    Res CV := do
  let e ← orIll f.body
  let v ← eval p lib names vars e
  let t ← orIll (p.resolve names f.ret)
  convert p lib t v

/-- Deduces template arguments. -/
def fit (tps : List Nat) : Names → List (Ty × Nat) → List CV → Option Names
  | names, [], [] => some names
  | names, (t, _) :: ps, v :: vs => do
    let names ← unify tps names t v.type
    fit tps names ps vs
  | _, _, _ => none

/-- The default template arguments of the declaration that goes with a definition. -/
def Program.defaults (p : Program) (f : Func) : List TParam :=
  match p.funcs.find? fun g => g.name = f.name ∧ g.params = f.params ∧ g.body = none with
  | some g => g.tparams
  | none => f.tparams

/-- Gives the template parameters that have no meaning their defaults. -/
def fill (p : Program) : Names → List TParam → Option Names
  | names, [] => some names
  | names, t :: ts =>
    match names.lookup t.name, t.default with
    | some _, _ => fill p names ts
    | none, some d => do
      let a ← p.resolve names d
      fill p ((t.name, a) :: names) ts
    | none, none => none

/-- The template arguments of a call, if the function fits it. -/
def Program.deduce (p : Program) (given : List CT) (args : List CV) (f : Func) : Option Names := do
  guard (given.length ≤ f.tparams.length)
  let names ← fit (f.tparams.map TParam.name) ((f.tparams.map TParam.name).zip given) f.params args
  fill p names (p.defaults f)

/-- The functions that fit a call. -/
def candidates (p : Program) (given : List CT) (args : List CV) : List Func → List (Func × Names)
  | [] => []
  | f :: fs =>
    match p.deduce given args f with
    | some names => (f, names) :: candidates p given args fs
    | none => candidates p given args fs

/-- The meaning of the member types of a class. -/
def memberTypes (p : Program) : Names → List (Nat × Ty) → Option Names
  | names, [] => some names
  | names, (x, t) :: rest => do
    let t ← p.resolve names t
    memberTypes p ((x, t) :: names) rest

/-- A class and what the names mean in it. -/
def Program.instance? (p : Program) (n : Nat) (args : List CT) : Option (Cls × Names) := do
  let c ← p.classes.find? fun c => c.name == n
  let names ← bindArgs (p.alias 5) [] c.tparams args
  let names ← memberTypes p names c.uses
  return (c, names)

/-- A use of the header. -/
inductive Use where
  /-- `f<given>(args)` -/
  | call (f : Nat) (given : List CT) (args : List CV)
  /-- `n<args>(v)` for an alias template -/
  | cast (n : Nat) (args : List CT) (v : CV)
  /-- `n<args>::f()` for a class -/
  | stat (n : Nat) (args : List CT) (f : Nat)
  /-- `n<args>::x` for a class -/
  | const (n : Nat) (args : List CT) (x : Nat)

def enter (p : Program) (lib : Invoke) : Use → Res CV
  | .call f given args =>
    match candidates p given args (p.funcs.filter fun g => g.name == f && g.body.isSome) with
    | [(g, names)] => run p lib names ((g.params.map Prod.snd).zip args) g
    | _ => illFormed
  | .cast n args v => do
    let t ← orIll (p.alias 5 n args)
    convert p lib t v
  | .stat n args f => do
    let (c, names) ← orIll (p.instance? n args)
    let g ← orIll (c.funcs.find? fun g => g.name == f)
    run p lib names [] g
  | .const n args x => do
    let (c, names) ← orIll (p.instance? n args)
    let e ← orIll (c.consts.lookup x)
    eval p lib names [] e

/-- A use of the header; `n` bounds the depth of calls. -/
def invoke (n : Nat) (x : Use) : Res CV := enter program (Header.invoke library n) x

end Ieme.ChronoText
