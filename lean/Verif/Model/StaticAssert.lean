import Verif.Model.Source
import Verif.Model.TypedProgram

/-!
# `static_assert`

All operators of `/repo/include/ieme/fraction.hpp:40-520` and
`/repo/include/ieme/fraction_literals.hpp:27-57` are `constexpr`, so a comparison of two expressions
can be the condition of a `static_assert`.  The compiler evaluates it as the program would, but a
condition whose evaluation is undefined or throws is no constant expression ([expr.const]).  Silent
conversions of integers to narrower types are defined, and allowed.

Simplified: the condition is one comparison of two expressions of `Verif/Model/Source.lean`, not in
parentheses; the compiler evaluates everything however long it takes; a result of `std::lcm` that does
not fit is rejected, which the standard leaves to the compiler.
-/

namespace Ieme.Source

open Overload

/-- Characters of the comparison operators. -/
def isCmpChar (c : Char) : Bool := c = '=' || c = '!' || c = '<' || c = '>'

/-- The operator at the start of a text, as long as possible, and what follows it ([lex.operators]). -/
def readCmp : List Char → Option (CmpOp × List Char)
  | '=' :: '=' :: t => some (.equalTo, t)
  | '!' :: '=' :: t => some (.notEqualTo, t)
  | '<' :: '=' :: t => some (.lessEqual, t)
  | '>' :: '=' :: t => some (.greaterEqual, t)
  | '<' :: t => some (.less, t)
  | '>' :: t => some (.greater, t)
  | _ => none

/-- The comparison that a text stands for; `none` if it is none. -/
def compileCmp (text : List Char) : Option (CmpOp × Src × Src) :=
  (readCmp (text.dropWhile fun c => !isCmpChar c)).bind fun p =>
    (compile (text.takeWhile fun c => !isCmpChar c)).bind fun l =>
      (compile p.2).map fun r => (p.1, l, r)

/-- The comparison of two values. -/
def compareTyped (op : CmpOp) (a b : TExpr) : Res Bool :=
  match a.ty, b.ty with
  | some s, some t => do
    let u ← a.eval
    let v ← b.eval
    compare op s t u v
  | _, _ => .fault .illFormed

/-- The value of a comparison. -/
def test (op : CmpOp) (l r : Src) : Res Bool := do
  let a ← l.typed
  let b ← r.typed
  compareTyped op a b

/-- The value of a text that is a comparison. -/
def runTest (text : List Char) : Res Bool :=
  match compileCmp text with
  | some (op, l, r) => test op l r
  | none => .fault .illFormed

/-- What the compiler makes of `static_assert(text);`: an error because the condition is ill-formed or
no constant expression, an error because it is false, or nothing. -/
inductive Verdict where
  | rejected | fails | holds
deriving DecidableEq, Repr

/-- `static_assert(text);` -/
def staticAssert (text : List Char) : Verdict :=
  match runTest text with
  | .ok true _ => .holds
  | .ok false _ => .fails
  | .fault _ => .rejected

end Ieme.Source
