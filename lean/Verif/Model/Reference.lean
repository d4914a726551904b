import Verif.Model.Fraction

/-!
# Compound assignment through references

The operands of the compound assignments (`/repo/include/ieme/fraction.hpp:661-682`) are
references: `left` may be the same object as `right`, and an integer `right` may be a part of
`left`, since `num()`, `den()` and `raw()` (lines 52-65) return references.  Here memory is a map
from places to integers and a fraction object is a pair of places.

The copy assignment of `fraction` is the implicit one: it copies the members of `raw_`, numerator
first (`/repo/include/ieme/raw_fraction.hpp:16`).
-/

namespace Ieme

/-- The contents of memory. -/
abbrev Store := Nat → Int

/-- A reference to a `fraction`: the places of its numerator and denominator. -/
structure Ref where
  num : Nat
  den : Nat
deriving DecidableEq, Repr

/-- The fraction a reference refers to. -/
def Store.load (σ : Store) (p : Ref) : Raw := ⟨σ p.num, σ p.den⟩

/-- Write one place. -/
def Store.set (σ : Store) (a : Nat) (v : Int) : Store := fun b => if b = a then v else σ b

/-- The implicit copy assignment from an object whose parts are `v`. -/
def Store.assign (σ : Store) (p : Ref) (v : Raw) : Store := (σ.set p.num v.num).set p.den v.den

/-- `left op= right` for a fraction, lines 662-672.  All reads of `left` and `right` belong to the
evaluation of `left op right`, which writes nothing and returns a new object; the assignment
follows. -/
def Store.compoundF (T : IntTy) (o : Ops) (op : ArithOp) (σ : Store) (left right : Ref) :
    Res Store := do
  let r ← Fraction.assignF T T o op (σ.load left) (σ.load right)
  return σ.assign left r

/-- `left op= right` for an integer, lines 674-682; `right` is a place. -/
def Store.compoundR (T : IntTy) (o : Ops) (op : ArithOp) (σ : Store) (left : Ref) (right : Nat) :
    Res Store := do
  let r ← Fraction.assignR T T o op (σ.load left) (σ right)
  return σ.assign left r

end Ieme
