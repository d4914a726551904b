import Verif.Model.ScanEval
import Verif.Model.ScanProgram

/-!
# Spec: what the text of the parser computes

`parser` is what the text of the parser parses to; `invoke` evaluates a call from it.  The number
given to `invoke` bounds the depth of calls and the iterations of loops.
-/

namespace Ieme.Script

open Header

/-- Evaluated from the text, the call of `f` returns `r`, provided it is given enough steps. -/
def Returns (f : Nat) (ts : List TVal) (args : List V) (r : Res V) : Prop :=
  ∃ k, ∀ n, k ≤ n → invoke parser n f ts args = r

/-- `sign`, `/repo/include/ieme/parse_utilities.hpp:13-17` -/
def signOf (negative : Bool) : V := .enum N.«sign» (if negative then N.«negative» else N.«positive»)

/-- `floating_point_string_scan_results`, lines 19-26 -/
def scanned (r : Parse.Scan) : V :=
  .obj N.«floating_point_string_scan_results»
    [(N.«base», integer i32 r.base), (N.«whole», .str r.whole), (N.«fractional», .str r.fractional),
      (N.«fractional_precision», integer i32 r.precision), (N.«exponent_sign», signOf r.negative),
      (N.«exponent», .str r.exponent)]

/-- `std::optional<floating_point_string_scan_results>` -/
def maybeScanned : Option Parse.Scan → V
  | Option.none => .none
  | Option.some r => .some (scanned r)

/-- `fraction<T, o>` -/
def fractionValue (T : IntTy) (o : Ops) (f : Raw) : V := .val (.frac T o f)

end Ieme.Script
