import Verif.Model.HeaderEval
import Verif.Model.HeaderProgram

/-!
# Spec: what the text of the headers computes

`library` is what the text of the headers parses to; `invoke` evaluates a call from it.  The number
given to `invoke` bounds the depth of calls: it stands for the call stack, which the model does not
limit.
-/

namespace Ieme.Header

/-- Evaluated from the text of the headers, the call of `f` in the scope `sc` (on the object `self`)
returns `r`, provided the stack is deep enough. -/
def Returns (sc : Scope) (self : Option Val) (f : Nat) (ts : List TVal) (args : List Val)
    (r : Res Val) : Prop :=
  ∃ k, ∀ n, k ≤ n → value (invoke library n sc self f ts args) = r

/-- Evaluated from the text of the headers, the call leaves its object (or, without one, its first
argument) with the value `r`, provided the stack is deep enough. -/
def Leaves (sc : Scope) (self : Option Val) (f : Nat) (ts : List TVal) (args : List Val)
    (r : Res Val) : Prop :=
  ∃ k, ∀ n, k ≤ n → changed (invoke library n sc self f ts args) = r

/-- The member functions of the policies, `/repo/include/ieme/ops.hpp:15-508`. -/
def arithName : ArithOp → Nat
  | .plus => N.«plus»
  | .minus => N.«minus»
  | .multiplies => N.«multiplies»
  | .divides => N.«divides»
  | .modulus => N.«modulus»

def cmpName : CmpOp → Nat
  | .equalTo => N.«equal_to»
  | .notEqualTo => N.«not_equal_to»
  | .less => N.«less»
  | .lessEqual => N.«less_equal»
  | .greater => N.«greater»
  | .greaterEqual => N.«greater_equal»

/-- The operators. -/
def arithSymbol : ArithOp → Nat
  | .plus => N.«operator+»
  | .minus => N.«operator-»
  | .multiplies => N.«operator*»
  | .divides => N.«operator/»
  | .modulus => N.«operator%»

def assignSymbol : ArithOp → Nat
  | .plus => N.«operator+=»
  | .minus => N.«operator-=»
  | .multiplies => N.«operator*=»
  | .divides => N.«operator/=»
  | .modulus => N.«operator%=»

def cmpSymbol : CmpOp → Nat
  | .equalTo => N.«operator==»
  | .notEqualTo => N.«operator!=»
  | .less => N.«operator<»
  | .lessEqual => N.«operator<=»
  | .greater => N.«operator>»
  | .greaterEqual => N.«operator>=»

/-- The arguments of a member function of a policy. -/
def rawArgs (T : IntTy) : Ieme.Args → List Val
  | .ff l r => [.raw T l, .raw T r]
  | .fr l r => [.raw T l, .int T r]
  | .rf l r => [.int T l, .raw T r]

/-- The operands of an operator. -/
def operands (L R : IntTy) (o : Ops) : Ieme.Args → List Val
  | .ff l r => [.frac L o l, .frac R o r]
  | .fr l r => [.frac L o l, .int R r]
  | .rf l r => [.int L l, .frac R o r]

/-- A function and the value that a call of it returns, for a table of functions of one argument. -/
abbrev Row := Nat × Res Val

/-- The queries of `/repo/include/ieme/raw_fraction_queries.hpp:65-159` and
`/repo/include/ieme/fraction_queries.hpp:63-140` that have one argument. -/
def queryTable (T : IntTy) (f : Raw) : List Row :=
  [(N.«is_defined», pure (.bool f.isDefined)),
   (N.«is_undefined», pure (.bool f.isUndefined)),
   (N.«is_positive», pure (.bool f.isPositive)),
   (N.«is_non_negative», pure (.bool f.isNonNegative)),
   (N.«is_zero», pure (.bool f.isZero)),
   (N.«is_non_positive», pure (.bool f.isNonPositive)),
   (N.«is_negative», pure (.bool f.isNegative)),
   (N.«is_integer», Val.bool <$> f.isInteger T),
   (N.«is_unit_fraction», Val.bool <$> f.isUnitFraction T),
   (N.«is_reduced_ignore_signs», Val.bool <$> f.isReducedIgnoreSigns T),
   (N.«is_reduced», Val.bool <$> f.isReduced T),
   (N.«is_proper», Val.bool <$> f.isProper T),
   (N.«is_improper», Val.bool <$> f.isImproper T)]

/-- The functions of `/repo/include/ieme/raw_fraction_math.hpp:37-86` with one argument; `val` makes
the value returned. -/
def rewriteTable (val : Raw → Val) (T : IntTy) (f : Raw) : List Row :=
  [(N.«reciprocal», pure (val f.reciprocal)),
   (N.«normalize_signs», val <$> f.normalizeSigns T),
   (N.«reduce_ignore_signs», val <$> f.reduceIgnoreSigns T),
   (N.«reduce_normalize_signs», val <$> f.reduceNormalizeSigns T),
   (N.«reduce», val <$> f.reduce T .normalizeSigns)]

/-- The functions of `/repo/include/ieme/fraction_math.hpp:129-186` with one argument. -/
def roundTable (T : IntTy) (o : Ops) (f : Raw) : List Row :=
  [(N.«abs», Val.frac T o <$> Fraction.abs T o f),
   (N.«to_whole», Val.int T <$> Fraction.toWhole T o f),
   (N.«trunc», Val.int T <$> Fraction.trunc T f),
   (N.«ceil», Val.int T <$> Fraction.ceil T f),
   (N.«floor», Val.int T <$> Fraction.floor T f),
   (N.«round», Val.int T <$> Fraction.round T o f)]

/-- The functions of `/repo/include/ieme/fraction_math.hpp:188-238` with a fraction and a
denominator. -/
def redenominateTable (T : IntTy) (o : Ops) (f : Raw) (d : Int) : List Row :=
  [(N.«redenominate», Val.frac T o <$> Fraction.redenominate T o f d),
   (N.«trunc_redenominate», Val.frac T o <$> Fraction.truncRedenominate T o f d),
   (N.«ceil_redenominate», Val.frac T o <$> Fraction.ceilRedenominate T o f d),
   (N.«floor_redenominate», Val.frac T o <$> Fraction.floorRedenominate T o f d),
   (N.«round_redenominate», Val.frac T o <$> Fraction.roundRedenominate T o f d)]

/-- All functions of the table return what it says for these arguments. -/
def Computes (args : List Val) (table : List Row) : Prop :=
  ∀ row ∈ table, Returns .global none row.1 [] args row.2

end Ieme.Header
