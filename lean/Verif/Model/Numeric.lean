import Verif.Model.Fraction

/-!
# Standard numeric algorithms that combine fractions with the arithmetic operators

The algorithms are those of the C++ standard ([accumulate], [reduce], [inner.product],
[transform.reduce], [partial.sum], [adjacent.difference]) on objects of one fraction type; the only
operations of the library they use are the binary operators of two fractions,
`/repo/include/ieme/fraction.hpp:575-660`.  Iterators are positions in a list.
-/

namespace Ieme.Std

variable (T : IntTy) (o : Ops)

/-- `x op y` for two fractions of the same type, `/repo/include/ieme/fraction.hpp:575-660`. -/
def apply (op : ArithOp) (x y : Raw) : Res Raw := Fraction.arith T T o op (.ff x y)

/-- `std::accumulate(first, last, acc, op)`: `acc = op(acc, *i)` from left to right. -/
def accumulate (op : ArithOp) (acc : Raw) : List Raw → Res Raw
  | [] => pure acc
  | x :: xs => do
    let a ← apply T o op acc x
    accumulate op a xs

/-- `std::inner_product(first1, last1, first2, acc)`: `acc = acc + (*i1) * (*i2)`.  The second range
must be at least as long as the first; the model stops at the end of the shorter. -/
def innerProduct (acc : Raw) : List Raw → List Raw → Res Raw
  | x :: xs, y :: ys => do
    let p ← apply T o .multiplies x y
    let a ← apply T o .plus acc p
    innerProduct a xs ys
  | _, _ => pure acc

/-- The loop of `std::partial_sum`: `acc = acc + *i`, and `acc` is stored. -/
def partialSumFrom (acc : Raw) : List Raw → Res (List Raw)
  | [] => pure []
  | x :: xs => do
    let a ← apply T o .plus acc x
    let r ← partialSumFrom a xs
    return a :: r

/-- `std::partial_sum`; the first element is copied. -/
def partialSum : List Raw → Res (List Raw)
  | [] => pure []
  | x :: xs => do
    let r ← partialSumFrom T o x xs
    return x :: r

/-- The loop of `std::adjacent_difference`: `*i - prev` is stored and `prev = *i`. -/
def differencesFrom (prev : Raw) : List Raw → Res (List Raw)
  | [] => pure []
  | x :: xs => do
    let d ← apply T o .minus x prev
    let r ← differencesFrom x xs
    return d :: r

/-- `std::adjacent_difference`; the first element is copied. -/
def adjacentDifference : List Raw → Res (List Raw)
  | [] => pure []
  | x :: xs => do
    let r ← differencesFrom T o x xs
    return x :: r

/-- A way of bracketing a nonempty sequence of elements. -/
inductive Grouping where
  /-- one element -/
  | one (x : Raw)
  /-- a left and a right part -/
  | both (l r : Grouping)

/-- The elements from left to right. -/
def Grouping.elements : Grouping → List Raw
  | .one x => [x]
  | .both l r => l.elements ++ r.elements

/-- What the bracketing computes.  `std::reduce(first, last, init, op)` is specified as
`GENERALIZED_SUM(op, init, *first, …)` ([numeric.defns]): it computes `g.eval op` for *some* `g`
whose elements are `init` and the elements of the range in some order; `std::inclusive_scan` does the
same for every prefix, without permuting. -/
def Grouping.eval (op : ArithOp) : Grouping → Res Raw
  | .one x => pure x
  | .both l r => do
    let a ← l.eval op
    let b ← r.eval op
    apply T o op a b

end Ieme.Std
