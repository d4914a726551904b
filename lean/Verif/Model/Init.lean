import Verif.Model.Literals
import Verif.Model.MixedNumber

/-!
# Which conversions compile, and which constructor they call

For `X x = y;`, `X x(y);` and `X x{y};` the compiler chooses among the constructors of `X` and the
conversion functions of the type of `y` ([dcl.init], [over.match.copy], [over.match.ctor],
[over.match.list]).  Passing an argument, returning a value and assigning (`x = y`, through the
implicitly declared assignment operators, which take a `X`) initialise like the first form.

The constructors and conversion functions are those of `/repo/include/ieme/raw_fraction.hpp:18-25`,
`/repo/include/ieme/fraction.hpp:36-48`, `/repo/include/ieme/mixed_number.hpp:22-36` and
`/repo/include/ieme/fraction_literals.hpp:26`, with the implicitly declared copy and move
constructors, which are one candidate here.

Simplifications: the source is an object that is not a constant expression; representations are
integer types; floating-point objects are only sources, of which the value is looked at, and nothing
but a copy is initialised in a floating-point type.
-/

namespace Ieme.Init

/-- Types of objects. -/
inductive Ty where
  | int (T : IntTy)
  | flt
  | ratio (N D : Int)
  | raw (T : IntTy)
  | frac (T : IntTy) (o : Ops)
  | mixed (W F : IntTy) (o : Ops)
  | lit (signed : Bool) (o : Ops)
deriving DecidableEq

/-- What is called: the constructors in the order of the headers, the conversion function of a
mixed number, a copy, and the built-in conversions between arithmetic types. -/
inductive Fn where
  | copy
  | arithmetic
  | rawOther
  | fracRaw
  | fracRep
  | fracOther
  | fracOps
  | fracRatio
  | mixedWhole
  | mixedFrac
  | mixedOps
  | litValue
  | toFraction
deriving DecidableEq

/-- The first parameter of a constructor: `Rep const&` or a value of an integer type, a class, or
a class template of which arguments are deduced. -/
inductive Param where
  | int (T : IntTy)
  | cls (X : Ty)
  | anyRaw
  | anyFrac (o : Ops)
  | anyFracOps
  | anyRatio

/-- The order of function templates, functions that are no templates first ([temp.func.order]). -/
def Param.order : Param → Nat
  | .int _ => 0
  | .cls _ => 0
  | .anyFracOps => 2
  | _ => 1

/-- A constructor that can be called with one argument. -/
structure Ctor where
  fn : Fn
  explicit : Bool
  param : Param

/-- `denominator_literal::value_type`, `/repo/include/ieme/fraction_literals.hpp:22-23`. -/
def litTy (s : Bool) : IntTy := if s then i64 else u64

/-- The constructors of a class. -/
def ctors : Ty → List Ctor
  | .raw T => [⟨.copy, false, .cls (.raw T)⟩, ⟨.rawOther, false, .anyRaw⟩]
  | .frac T o =>
    [⟨.copy, false, .cls (.frac T o)⟩, ⟨.fracRaw, false, .cls (.raw T)⟩,
      ⟨.fracRep, false, .int T⟩, ⟨.fracOther, false, .anyFrac o⟩, ⟨.fracOps, true, .anyFracOps⟩,
      ⟨.fracRatio, false, .anyRatio⟩]
  | .mixed W F o =>
    [⟨.copy, false, .cls (.mixed W F o)⟩, ⟨.mixedWhole, false, .int W⟩,
      ⟨.mixedFrac, false, .anyFrac o⟩, ⟨.mixedOps, true, .anyFracOps⟩]
  | .lit s o => [⟨.copy, false, .cls (.lit s o)⟩, ⟨.litValue, false, .int (litTy s)⟩]
  | _ => []

/-- The results of the conversion functions of a class. -/
def conversions : Ty → List Ty
  | .mixed W F o => [.frac (IntTy.common W F) o]
  | _ => []

/-- Ranks of implicit conversion sequences ([over.ics.rank]). -/
inductive Rank where
  | exact
  | conversion
  | user
deriving DecidableEq

def Rank.toNat : Rank → Nat
  | .exact => 0
  | .conversion => 1
  | .user => 2

/-- The standard conversion of an argument, or the deduction that makes it unnecessary. -/
def Param.standard : Param → Ty → Option Rank
  | .int T, .int S => some (if S = T then .exact else .conversion)
  | .int _, .flt => some .conversion
  | .cls X, S => if S = X then some .exact else none
  | .anyRaw, .raw _ => some .exact
  | .anyFrac o, .frac _ o' => if o' = o then some .exact else none
  | .anyFracOps, .frac _ _ => some .exact
  | .anyRatio, .ratio _ _ => some .exact
  | _, _ => none

/-- A viable candidate: the function, what has converted the argument to the given type before (if
that is a user-defined conversion), and what the candidates are compared by. -/
structure Cand where
  fn : Fn
  inner : Option (Fn × Ty)
  rank : Rank
  order : Nat
deriving DecidableEq

/-- [over.match.best]: a better conversion, or else a template less or a more specialised one. -/
def Cand.better (a b : Cand) : Bool :=
  decide (a.rank.toNat < b.rank.toNat) || (a.rank == b.rank && decide (a.order < b.order))

inductive Outcome where
  | calls (fn : Fn) (inner : Option (Fn × Ty))
  | ambiguous
  | noViable
  | narrowing
deriving DecidableEq

/-- The best viable candidate. -/
def best (l : List Cand) : Outcome :=
  match l.filter fun c => l.all fun d => d = c || c.better d with
  | [c] => .calls c.fn c.inner
  | _ => if l.isEmpty then .noViable else .ambiguous

/-- Initialisation of an integer type. -/
def builtin (S X : Ty) : Outcome :=
  if S = X then .calls .copy none
  else match S with
  | .int _ | .flt => .calls .arithmetic none
  | _ => .noViable

/-- The candidates of [over.match.copy]: constructors that are not explicit, by standard conversions
only, and conversion functions to the class itself. -/
def copyCands (S X : Ty) : List Cand :=
  (ctors X).filterMap (fun c =>
    if c.explicit then none
    else (c.param.standard S).map fun r => ⟨c.fn, none, r, c.param.order⟩) ++
  (conversions S).filterMap fun Y => if Y = X then some ⟨.toFraction, none, .exact, 0⟩ else none

/-- `X x = y;` with `y` of type `S`. -/
def implicit (S X : Ty) : Outcome :=
  if S = X then .calls .copy none
  else match X with
  | .int _ => builtin S X
  | .flt | .ratio _ _ => .noViable
  | _ => best (copyCands S X)

/-- The conversion of an argument to a class: a standard conversion or an implicit user-defined one.
An ambiguous one would make the candidate viable; there are none (`C136_unambiguous`). -/
def argument (S : Ty) (c : Ctor) : Option Cand :=
  match c.param.standard S with
  | some r => some ⟨c.fn, none, r, c.param.order⟩
  | none =>
    match c.param with
    | .cls Y =>
      match implicit S Y with
      | .calls f _ => some ⟨c.fn, some (f, Y), .user, c.param.order⟩
      | _ => none
    | _ => none

/-- `X x(y);` with `y` of type `S`. -/
def direct (S X : Ty) : Outcome :=
  match X with
  | .int _ => builtin S X
  | .flt | .ratio _ _ => if S = X then .calls .copy none else .noViable
  | _ => best ((ctors X).filterMap (argument S))

/-- All values of `S` are values of `T`. -/
def fits (S T : IntTy) : Bool := decide (T.min ≤ S.min) && decide (S.max ≤ T.max)

/-- Whether the conversion to an integer type narrows ([dcl.init.list]). -/
def narrows : Ty → IntTy → Bool
  | .int S, T => !fits S T
  | .flt, _ => true
  | _, _ => false

/-- The integer type to which an arithmetic argument is converted. -/
def integerParam : Ty → Option IntTy
  | .int T => some T
  | .frac T _ => some T
  | .mixed W _ _ => some W
  | .lit s _ => some (litTy s)
  | _ => none

/-- `X x{y};` with `y` of type `S`. -/
def braced (S X : Ty) : Outcome :=
  match direct S X with
  | .calls f i =>
    match integerParam X with
    | some T => if narrows S T then .narrowing else .calls f i
    | none => .calls f i
  | r => r

inductive Form where
  | copy
  | paren
  | brace
deriving DecidableEq

def resolve : Form → Ty → Ty → Outcome
  | .copy => implicit
  | .paren => direct
  | .brace => braced

/-- Values of objects; a floating-point value is a number or, if infinite or not a number,
`none`. The value of a `std::ratio` is its type. -/
inductive Val where
  | int (n : Int)
  | flt (x : Option Rat)
  | ratio
  | raw (f : Raw)
  | frac (f : Raw)
  | mixed (m : Mixed)
  | lit (n : Int)
deriving DecidableEq

/-- Conversion to an integer type: modular from integers; from floating point the fraction is
discarded and the behaviour undefined if the rest is not in range ([conv.fpint]). -/
def toInt (T : IntTy) : Val → Res Int
  | .int n => T.conv n
  | .flt (some x) =>
    let t := x.num.tdiv x.den
    if T.InRange t then pure t else .fault .overflow
  | .flt none => .fault .overflow
  | _ => .fault .illFormed

/-- What a function does that initialises an `X` from an `S`. -/
def run (S X : Ty) (f : Fn) (v : Val) : Res Val :=
  match f, S, X, v with
  | .copy, _, _, v => pure v
  | .arithmetic, _, .int T, v => do return .int (← toInt T v)
  | .rawOther, _, .raw T, .raw r => do return .raw (← r.conv T)
  | .fracRaw, _, _, .raw r => pure (.frac (Fraction.ofRaw r))
  | .fracRep, _, .frac T _, v => do
    let n ← toInt T v
    return .frac (Fraction.mk n)
  | .fracOther, _, .frac T _, .frac r => do return .frac (← Fraction.ofOther T r)
  | .fracOps, _, .frac T _, .frac r => do return .frac (← Fraction.ofOther T r)
  | .fracRatio, .ratio N D, .frac T _, _ => do return .frac (← Fraction.ofRatio T N D)
  | .mixedWhole, _, .mixed W F o, v => do
    let n ← toInt W v
    return .mixed (← Mixed.mk' W F o n)
  | .mixedFrac, .frac A _, .mixed W F o, .frac r => do
    return .mixed (← Mixed.ofFraction W F o A r)
  | .mixedOps, .frac A _, .mixed W F o, .frac r => do
    let r' ← Fraction.ofOther A r
    return .mixed (← Mixed.ofFraction W F o A r')
  | .litValue, _, .lit s _, v => do return .lit (← toInt (litTy s) v)
  | .toFraction, .mixed W F o, _, .mixed m => do return .frac (← m.asFraction W F o)
  | _, _, _, _ => .fault .illFormed

/-- Initialise an `X` from the value of an `S`. -/
def init (form : Form) (S X : Ty) (v : Val) : Res Val :=
  match resolve form S X with
  | .calls f none => run S X f v
  | .calls f (some (g, Y)) => do
    let w ← run S Y g v
    run Y X f w
  | _ => .fault .illFormed

/-- `std::common_type_t` of two types: the type of a conditional expression with operands of them,
`[expr.cond]`: for a class exactly one of them has to convert to the other. -/
def commonType (A B : Ty) : Option Ty :=
  if A = B then some A
  else match A, B with
  | .int S, .int T => some (.int (IntTy.common S T))
  | .int _, .flt => some .flt
  | .flt, .int _ => some .flt
  | _, _ =>
    match implicit A B, implicit B A with
    | .calls _ _, .calls _ _ => none
    | .calls _ _, _ => some B
    | _, .calls _ _ => some A
    | _, _ => none

end Ieme.Init
