import Verif.Model.ChronoEval

/-!
# Spec: what the text of `chrono.hpp` computes

The number given to `invoke` bounds the depth of calls.
-/

namespace Ieme.ChronoText

open Header (Val)
open Chrono (Period)

/-- Evaluated from the text of the headers, the use gives `r`, provided the stack is deep enough. -/
def Gives (x : Use) (r : Res CV) : Prop := ∃ k, ∀ n, k ≤ n → invoke n x = r

/-- The meaning of a name with template arguments, `chrono.hpp:30-59`. -/
def Means (n : Nat) (args : List CT) (t : CT) : Prop := program.alias 5 n args = some t

/-- A duration that counts in fractions. -/
def fractional (T : IntTy) (o : Ops) (q : Period) (r : Raw) : CV := .dur q (.frac T o r)

/-- A time point that counts in fractions. -/
def fractionalAt (c : Clock) (T : IntTy) (o : Ops) (q : Period) (r : Raw) : CV :=
  .tp c q (.frac T o r)

/-- The value `v` of a type is the count `k`: an integer that is in range, or a fraction of the type
`fraction<T, o>`. -/
inductive Shows (T : IntTy) (o : Ops) : Val → Chrono.Count → Prop
  | int {S : IntTy} {x : Int} : S.InRange x → Shows T o (.int S x) (.int x)
  | frac (f : Raw) : Shows T o (.frac T o f) (.frac f)

end Ieme.ChronoText
