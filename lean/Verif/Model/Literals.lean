import Verif.Model.Fraction

/-!
# `fraction_literals.hpp`

Models the denominator literals of `/repo/include/ieme/fraction_literals.hpp`.  The literal
operator `_dec` (lines 106-113) is `Parse.dec` in `Verif/Model/Parse.lean`.
-/

namespace Ieme

/-- `denominator_literal<IsSigned, Ops>`: a value of type `long long` or
`unsigned long long`. `/repo/include/ieme/fraction_literals.hpp:16-32,63-68`. -/
structure DenLit where
  signed : Bool
  value : Int
deriving DecidableEq, Repr

namespace DenLit

/-- `value_type`, lines 22-23. -/
def ty (l : DenLit) : IntTy := if l.signed then i64 else u64

/-- The stored value is a value of `value_type` (always true of a C++ object). -/
def InRange (l : DenLit) : Prop := l.ty.InRange l.value

instance (l : DenLit) : Decidable l.InRange := inferInstanceAs (Decidable (_ ∧ _))

/-- `operator""_fr`, lines 70-74.  The compiler only calls it with a value of type
`unsigned long long`. -/
def fr (value : Int) : DenLit := ⟨false, value⟩

/-- Unary `+`, lines 76-81. -/
def pos (l : DenLit) : DenLit := l

/-- Unary `-`, lines 83-88: conversion to `long long`, then negation. -/
def neg (l : DenLit) : Res DenLit := do
  let v ← i64.conv l.value
  let n ← i64.neg v
  return ⟨true, n⟩

/-- `fraction / literal`, lines 90-96. -/
def divFraction (T : IntTy) (o : Ops) (left : Raw) (right : DenLit) : Res Raw := do
  let d ← T.conv right.value
  Fraction.arith T T o .divides (.fr left d)

/-- `integer / literal`, lines 98-104. -/
def divRep (T : IntTy) (left : Int) (right : DenLit) : Res Raw := do
  let d ← T.conv right.value
  return Fraction.mk left d

end DenLit
end Ieme
