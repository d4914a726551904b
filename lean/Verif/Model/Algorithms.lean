import Verif.Model.Fraction

/-!
# Standard algorithms that order fractions with `operator<`

The algorithms are those of the C++ standard ([alg.min.max], [alg.clamp], [is.sorted],
[lower.bound]) on objects of one fraction type; the only operation of the library they
use is `operator<`, `/repo/include/ieme/fraction.hpp:379-383` (declaration) and `690-718`
(definition).  Iterators are positions in a list.
-/

namespace Ieme.Std

variable (T : IntTy) (o : Ops)

/-- `x < y` for two fractions of the same type, `/repo/include/ieme/fraction.hpp:690-718`. -/
def lt (x y : Raw) : Res Bool := Fraction.cmp T T o .less (.ff x y)

/-- `std::max(x, y)`: `(x < y) ? y : x`. -/
def max (x y : Raw) : Res Raw := do if ← lt T o x y then pure y else pure x

/-- `std::min(x, y)`: `(y < x) ? y : x`. -/
def min (x y : Raw) : Res Raw := do if ← lt T o y x then pure y else pure x

/-- `std::clamp(v, lo, hi)`: `(v < lo) ? lo : (hi < v) ? hi : v`. -/
def clamp (v lo hi : Raw) : Res Raw := do
  if ← lt T o v lo then pure lo
  else if ← lt T o hi v then pure hi else pure v

/-- The loop of `std::max_element`: `best` is the largest so far at position `pos`, `i` the
position of the next element. -/
def maxFrom (best : Raw) (pos i : Nat) : List Raw → Res Nat
  | [] => pure pos
  | y :: ys => do
    if ← lt T o best y then maxFrom y i (i + 1) ys else maxFrom best pos (i + 1) ys

/-- `std::max_element` of a nonempty range. -/
def maxElement (x : Raw) (xs : List Raw) : Res Nat := maxFrom T o x 0 1 xs

/-- The loop of `std::min_element`. -/
def minFrom (best : Raw) (pos i : Nat) : List Raw → Res Nat
  | [] => pure pos
  | y :: ys => do
    if ← lt T o y best then minFrom y i (i + 1) ys else minFrom best pos (i + 1) ys

/-- `std::min_element` of a nonempty range. -/
def minElement (x : Raw) (xs : List Raw) : Res Nat := minFrom T o x 0 1 xs

/-- `std::is_sorted`: stops at the first element that is less than the one before it. -/
def isSorted : List Raw → Res Bool
  | [] => pure true
  | [_] => pure true
  | x :: y :: ys => do if ← lt T o y x then pure false else isSorted (y :: ys)

/-- The loop of `std::lower_bound`: the positions still searched are the `len` from `first`. -/
def lowerBoundFrom (l : List Raw) (v : Raw) (first len : Nat) : Res Nat :=
  if h : len = 0 then pure first
  else do
    let half := len / 2
    if ← lt T o (l.getD (first + half) v) v then
      lowerBoundFrom l v (first + half + 1) (len - half - 1)
    else lowerBoundFrom l v first half
termination_by len
decreasing_by all_goals omega

/-- `std::lower_bound(begin, end, v)`. -/
def lowerBound (l : List Raw) (v : Raw) : Res Nat := lowerBoundFrom T o l v 0 l.length

end Ieme.Std
